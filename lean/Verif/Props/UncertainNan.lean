import Verif.Lemmas.UncertainNan
import Verif.Props.Uncertain

/-!
# C90: missing measurements
-/

namespace PQ

open NDArr

section
variable {K : Type _} [Field K] [LinearOrder K] [IsStrictOrderedRing K] [RPow K] [LawfulRPow K] {w : World K}

/-- The elements reduced into element `i` of the result. -/
def lane (m : List Bool) (a : UQ (Option K)) (i : List Nat) : List (Option K × Option K) :=
  (indices (pick true m a.val.mag.shape)).map
    (fun r => (a.val.mag.elem (NDArr.merge m i r), a.unc.mag.elem (NDArr.merge m i r)))

omit [Field K] [LinearOrder K] [IsStrictOrderedRing K] [RPow K] [LawfulRPow K] in
theorem lane_fst (m : List Bool) (a : UQ (Option K)) (i : List Nat) :
    (lane m a i).map Prod.fst = (indices (pick true m a.val.mag.shape)).map
      (fun r => a.val.mag.elem (NDArr.merge m i r)) := by
  unfold lane; rw [List.map_map]; rfl

omit [Field K] [LinearOrder K] [IsStrictOrderedRing K] [RPow K] [LawfulRPow K] in
theorem lane_snd (m : List Bool) (a : UQ (Option K)) (i : List Nat) :
    (lane m a i).map Prod.snd = (indices (pick true m a.val.mag.shape)).map
      (fun r => a.unc.mag.elem (NDArr.merge m i r)) := by
  unfold lane; rw [List.map_map]; rfl

omit [LawfulRPow K] [IsStrictOrderedRing K] in
theorem lane_together {m : List Bool} {a : UQ (Option K)} {i : List Nat} (hm : m.length = a.val.mag.shape.length)
    (hi : InB (pick false m a.val.mag.shape) i) (ht : a.MissingTogether) :
    ∀ p ∈ lane m a i, p.1 = none → p.2 = none := by
  intro p hp h
  obtain ⟨r, hr, rfl⟩ := List.mem_map.1 hp
  exact ht _ (merge_inb hm hi (mem_indices.1 hr)) h

omit [LawfulRPow K] [IsStrictOrderedRing K] in
theorem lane_meas {m : List Bool} {a : UQ (Option K)} {i : List Nat} (v : Valuation w)
    (hs : v.size a.unc.dim = v.size a.val.dim) :
    (indices (pick true m a.val.mag.shape)).map (fun r => (v.measNan a).elem (NDArr.merge m i r))
      = (lane m a i).map (fun p => (p.1.map (· * v.size a.val.dim), p.2.map (· * v.size a.val.dim))) := by
  unfold lane
  rw [List.map_map]
  refine List.map_congr_left fun r _ => ?_
  simp only [Valuation.measNan, hs, Function.comp]

/-- C90, `nansum`, where the uncertainty of each missing value is missing too: the sum of the
measurements present, per element of the result; errors exactly for bad axes.  The condition is
necessary: `C90_stray_uncertainty_false`. -/
theorem C90_nansum_partial (a : UQ (Option K)) (ax : Axis) (hv : DimOK w a.val.dim) (hu : DimOK w a.unc.dim)
    (hal : a.Aligned) (ht : a.MissingTogether) :
    (∀ e, a.nansum ax = .error e ↔ axisMask a.val.mag.shape.length ax = .error e) ∧
    (∀ r, a.nansum ax = .ok r → r.val.dim = a.val.dim ∧ r.Aligned ∧
      ∀ v : Valuation w, ReducedBy (OfPresent IsTotal) ax (v.measNan a) (v.measNan r)) := by
  have hsh : (a.unc.mag.map (Option.map (fun x => rpow x 2))).shape = a.val.mag.shape := hal.2
  rcases hm : axisMask a.val.mag.shape.length ax with e | m
  · have h1 : a.nansum ax = .error e := by
      unfold UQ.nansum NDArr.reduce; rw [hm]; rfl
    rw [h1]
    exact ⟨fun e' => by simp, fun r hr => absurd hr (by simp)⟩
  · have h1 : a.nansum ax = .ok ⟨⟨reduceMask (Quantity.nanOver List.sum (some 0)) m a.val.mag, a.val.dim⟩,
        ⟨(reduceMask (Quantity.nanOver List.sum (some 0)) m (a.unc.mag.map (Option.map (fun x => rpow x 2)))).map
          (Option.map (fun x => rpow x (1/2))), a.val.dim⟩⟩ := by
      unfold UQ.nansum NDArr.reduce
      rw [hsh, hm]
      simp only [except_bind_ok, UQ.ofArrays]
      refine if_pos ?_
      show pick false m a.val.mag.shape = pick false m (a.unc.mag.map _).shape
      rw [hsh]
    rw [h1]
    refine ⟨fun e => by simp, fun r hr => ?_⟩
    simp only [Except.ok.injEq] at hr; subst hr
    refine ⟨rfl, ⟨SameContent.refl _, ?_⟩, fun v => ?_⟩
    · show pick false m (a.unc.mag.map _).shape = pick false m a.val.mag.shape
      rw [hsh]
    · have hs : v.size a.unc.dim = v.size a.val.dim :=
        dsize_same v.val hu.canon.nodup hv.canon.nodup hal.1
      refine ⟨reduceMask id m (v.measNan a), ?_, rfl, fun i hi => ?_⟩
      · unfold NDArr.reduce
        rw [show (v.measNan a).shape = a.val.mag.shape from rfl, hm]
      · have hi' : InB (pick false m a.val.mag.shape) i := hi
        have htl := lane_together (axisMask_length hm) hi' ht
        have hl : (reduceMask id m (v.measNan a)).elem i = (lane m a i).map
            (fun p => (p.1.map (· * v.size a.val.dim), p.2.map (· * v.size a.val.dim))) :=
          lane_meas v hs
        rw [hl]
        have hval : (reduceMask (Quantity.nanOver List.sum (some 0)) m a.val.mag).elem i
            = some (((present (lane m a i)).map Meas.value).sum) := by
          show Quantity.nanOver List.sum (some 0) ((indices (pick true m a.val.mag.shape)).map _) = _
          rw [nanOver_some _ rfl, ← lane_fst, present_values]
        have hunc : (reduceMask (Quantity.nanOver List.sum (some 0)) m
            (a.unc.mag.map (Option.map (fun x => rpow x 2)))).elem i
            = some (((present (lane m a i)).map (fun x => x.sigma ^ 2)).sum) := by
          show Quantity.nanOver List.sum (some 0) ((indices (pick true m (a.unc.mag.map _).shape)).map _) = _
          rw [hsh, nanOver_some _ rfl]
          have := present_sigmas (fun x : K => rpow x 2) (by rw [rpow_two]; simp) _ htl
          rw [lane_snd, List.map_map] at this
          simp only [rpow_two] at this
          rw [← this]
          simp only [rpow_two]
          rfl
        refine ⟨((present (lane m a i)).map Meas.value).sum * v.size a.val.dim,
          rpow (((present (lane m a i)).map (fun x => x.sigma ^ 2)).sum) (1/2) * v.size a.val.dim, ?_, ?_⟩
        · simp only [Valuation.measNan, NDArr.map, hval]
          simp only [NDArr.map] at hunc
          rw [hunc]; rfl
        · rw [present_scaled]
          refine ⟨(sum_val_scaled _ _).symm, mul_nonneg (rpow_half_nonneg (sum_sq_nonneg _)) (v.size_pos _).le, ?_⟩
          rw [sum_sq_scaled, mul_pow, rpow_half_sq (sum_sq_nonneg _)]

/-- C90, `nanmean`, where the uncertainty of each missing value is missing too: the average of the
measurements present, nan if there are none. -/
theorem C90_nanmean_partial (a : UQ (Option K)) (ax : Axis) (hv : DimOK w a.val.dim) (hu : DimOK w a.unc.dim)
    (hal : a.Aligned) (ht : a.MissingTogether) :
    (∀ e, a.nanmean ax = .error e ↔ axisMask a.val.mag.shape.length ax = .error e) ∧
    (∀ r, a.nanmean ax = .ok r → r.val.dim = a.val.dim ∧ r.Aligned ∧
      ∀ v : Valuation w, ReducedBy (OfPresentOrNan IsAverage) ax (v.measNan a) (v.measNan r)) := by
  have hsh : (a.unc.mag.map (fun x => some (rpow (x.getD 0) 2))).shape = a.val.mag.shape := hal.2
  rcases hm : axisMask a.val.mag.shape.length ax with e | m
  · have h1 : a.nanmean ax = .error e := by
      unfold UQ.nanmean NDArr.reduce; rw [hm]; rfl
    rw [h1]
    exact ⟨fun e' => by simp, fun r hr => absurd hr (by simp)⟩
  · have hb : NDArr.bin UQ.meanSigma (reduceMask countNotNan m a.val.mag)
        (reduceMask (Quantity.nanOver List.sum (some 0)) m (a.unc.mag.map (fun x => some (rpow (x.getD 0) 2))))
        = .ok ⟨pick false m a.val.mag.shape, fun i =>
          UQ.meanSigma ((reduceMask countNotNan m a.val.mag).elem (bidx (pick false m a.val.mag.shape) i))
            ((reduceMask (Quantity.nanOver List.sum (some 0)) m
              (a.unc.mag.map (fun x => some (rpow (x.getD 0) 2)))).elem (bidx (pick false m a.val.mag.shape) i))⟩ := by
      have : ((reduceMask (Quantity.nanOver List.sum (some 0)) m
          (a.unc.mag.map (fun x => some (rpow (x.getD 0) 2))))).shape = pick false m a.val.mag.shape := by
        show pick false m (a.unc.mag.map _).shape = _
        rw [hsh]
      rw [NDArr.bin_intro _ (s := pick false m a.val.mag.shape)]
      · rw [this]; rfl
      · rw [this]; exact bshape_self _
    have h1 : a.nanmean ax = .ok ⟨⟨reduceMask (Quantity.nanOver lmean none) m a.val.mag, a.val.dim⟩,
        ⟨⟨pick false m a.val.mag.shape, fun i =>
          UQ.meanSigma ((reduceMask countNotNan m a.val.mag).elem (bidx (pick false m a.val.mag.shape) i))
            ((reduceMask (Quantity.nanOver List.sum (some 0)) m
              (a.unc.mag.map (fun x => some (rpow (x.getD 0) 2)))).elem (bidx (pick false m a.val.mag.shape) i))⟩,
          a.val.dim⟩⟩ := by
      unfold UQ.nanmean NDArr.reduce
      rw [hsh, hm]
      simp only [except_bind_ok]
      rw [hb]
      simp only [except_bind_ok, UQ.ofArrays]
      exact if_pos rfl
    rw [h1]
    refine ⟨fun e => by simp, fun r hr => ?_⟩
    simp only [Except.ok.injEq] at hr; subst hr
    refine ⟨rfl, ⟨SameContent.refl _, rfl⟩, fun v => ?_⟩
    have hs : v.size a.unc.dim = v.size a.val.dim :=
      dsize_same v.val hu.canon.nodup hv.canon.nodup hal.1
    refine ⟨reduceMask id m (v.measNan a), ?_, rfl, fun i hi => ?_⟩
    · unfold NDArr.reduce
      rw [show (v.measNan a).shape = a.val.mag.shape from rfl, hm]
    · have hi' : InB (pick false m a.val.mag.shape) i := hi
      have htl := lane_together (axisMask_length hm) hi' ht
      have hl : (reduceMask id m (v.measNan a)).elem i = (lane m a i).map
          (fun p => (p.1.map (· * v.size a.val.dim), p.2.map (· * v.size a.val.dim))) :=
        lane_meas v hs
      rw [hl]
      have hcount : (reduceMask countNotNan m a.val.mag).elem i = (present (lane m a i)).length := by
        show countNotNan ((indices (pick true m a.val.mag.shape)).map _) = _
        rw [countNotNan, ← lane_fst, present_values, List.length_map]
      have hval : (reduceMask (Quantity.nanOver lmean none) m a.val.mag).elem i
          = if present (lane m a i) = [] then none
            else some (((present (lane m a i)).map Meas.value).sum / ((present (lane m a i)).length : K)) := by
        show Quantity.nanOver lmean none ((indices (pick true m a.val.mag.shape)).map _) = _
        rw [← lane_fst]
        unfold Quantity.nanOver
        rw [present_values]
        rcases present (lane m a i) with _ | ⟨p, ps⟩
        · rfl
        · simp [lmean]
      have hunc : (reduceMask (Quantity.nanOver List.sum (some 0)) m
          (a.unc.mag.map (fun x => some (rpow (x.getD 0) 2)))).elem i
          = some (((present (lane m a i)).map (fun x => x.sigma ^ 2)).sum) := by
        show Quantity.nanOver List.sum (some 0) ((indices (pick true m (a.unc.mag.map _).shape)).map _) = _
        rw [hsh, nanOver_some _ rfl]
        have := present_sigmas0 (fun x : K => rpow x 2) (by rw [rpow_two]; simp) _ htl
        rw [lane_snd, List.map_map] at this
        simp only [rpow_two] at this
        rw [← this]
        simp only [rpow_two]
        rfl
      rw [OfPresentOrNan, present_scaled, ne_eq, List.map_eq_nil_iff]
      simp only [Valuation.measNan, hval, bidx_self hi', hcount, hunc]
      constructor
      · intro h0
        simp [UQ.meanSigma, h0]
      · intro h0
        rw [if_neg h0]
        have hn : (present (lane m a i)).length ≠ 0 := by rwa [ne_eq, List.length_eq_zero_iff]
        have hnK : (0 : K) < ((present (lane m a i)).length : K) := by
          exact_mod_cast Nat.pos_of_ne_zero hn
        have hnn : 0 ≤ rpow (1 / ((present (lane m a i)).length : K)) 2 *
            ((present (lane m a i)).map (fun x => x.sigma ^ 2)).sum := by
          rw [rpow_two]; exact mul_nonneg (sq_nonneg _) (sum_sq_nonneg _)
        refine ⟨_, _, by rw [UQ.meanSigma, if_neg hn]; rfl, ?_⟩
        rw [present_scaled]
        refine ⟨?_, mul_nonneg (rpow_half_nonneg hnn) (v.size_pos _).le, ?_⟩
        · rw [sum_val_scaled, List.length_map]; ring
        · rw [sum_sq_scaled, List.length_map, mul_pow, rpow_half_sq hnn, rpow_two]
          field_simp

theorem zipIdx_filterMap_mem {α : Type _} {l : List (Option α)} {x : α} {n : Nat}
    (h : (x, n) ∈ l.zipIdx.filterMap (fun p => p.1.map (fun x => (x, p.2)))) : l[n]? = some (some x) := by
  obtain ⟨⟨y, k⟩, hy, hp⟩ := List.mem_filterMap.1 h
  cases y with
  | none => simp at hp
  | some y =>
    simp only [Option.map_some, Option.some.injEq, Prod.mk.injEq] at hp
    obtain ⟨rfl, rfl⟩ := hp
    exact List.mk_mem_zipIdx_iff_getElem?.1 hy

theorem mem_zipIdx_filterMap {α : Type _} {l : List (Option α)} {x : α} {n : Nat} (h : l[n]? = some (some x)) :
    (x, n) ∈ l.zipIdx.filterMap (fun p => p.1.map (fun x => (x, p.2))) :=
  List.mem_filterMap.2 ⟨(some x, n), List.mk_mem_zipIdx_iff_getElem?.2 h, rfl⟩

/-- `nanargmax`, `nanargmin`: the position of a value that no other value beats, none exactly if all
are nan. -/
theorem nanArgbest_spec {α : Type _} {lt : α → α → Bool}
    (htrans : ∀ x y z, lt x y = true → lt y z = true → lt x z = true) (hirr : ∀ x, lt x x = false)
    (l : List (Option α)) :
    (nanArgbest lt l = none ↔ ∀ x ∈ l, x = none) ∧
    (∀ n, nanArgbest lt l = some n → ∃ x, l[n]? = some (some x) ∧ ∀ y, some y ∈ l → lt x y = false) := by
  unfold nanArgbest
  by_cases h0 : l.zipIdx.filterMap (fun p => p.1.map (fun x => (x, p.2))) = []
  · rw [h0]
    refine ⟨⟨fun _ x hx => ?_, fun _ => rfl⟩, fun n hn => by simp at hn⟩
    cases x with
    | none => rfl
    | some x =>
      obtain ⟨n, hn⟩ := List.mem_iff_getElem?.1 hx
      have := mem_zipIdx_filterMap hn
      rw [h0] at this; simp at this
  · obtain ⟨x, hx1, hx2⟩ := NDArr.argbest_spec htrans hirr
      (l := (l.zipIdx.filterMap (fun p => p.1.map (fun x => (x, p.2)))).map Prod.fst)
      (by rwa [ne_eq, List.map_eq_nil_iff])
    rw [List.getElem?_map] at hx1
    obtain ⟨⟨x', k⟩, hk1, hk2⟩ := Option.map_eq_some_iff.1 hx1
    simp only at hk2; subst hk2
    have hk := zipIdx_filterMap_mem (List.mem_of_getElem? hk1)
    refine ⟨⟨fun h => ?_, fun h => ?_⟩, fun n hn => ?_⟩
    · simp only [hk1] at h; simp at h
    · exact absurd (h _ (List.mem_of_getElem? hk)) (by simp)
    · simp only [hk1, Option.map_some, Option.some.injEq] at hn
      subst hn
      refine ⟨x', hk, fun y hy => hx2 y ?_⟩
      obtain ⟨j, hj⟩ := List.mem_iff_getElem?.1 hy
      exact List.mem_map.2 ⟨_, mem_zipIdx_filterMap hj, rfl⟩

omit [IsStrictOrderedRing K] [LawfulRPow K] in
theorem nanbest_spec {lt : K → K → Bool} (htrans : ∀ x y z, lt x y = true → lt y z = true → lt x z = true)
    (hirr : ∀ x, lt x x = false) (a : UQ (Option K)) (hv : DimOK w a.val.dim) (hu : DimOK w a.unc.dim)
    (hal : a.Aligned) :
    (Returns (UQ.nanbest lt w a) ↔ ∃ i, InB a.val.mag.shape i ∧ a.val.mag.elem i ≠ none) ∧
    (¬ Returns (UQ.nanbest lt w a) → UQ.nanbest lt w a = .error .valueError) ∧
    (∀ r, UQ.nanbest lt w a = .ok r → r.val.dim = a.val.dim ∧ r.val.mag.shape = [] ∧
      ∃ i x, InB a.val.mag.shape i ∧ a.val.mag.elem i = some x ∧
        (∀ j y, InB a.val.mag.shape j → a.val.mag.elem j = some y → lt x y = false) ∧
        ∀ v : Valuation w, (v.measNan r).elem [] = (v.measNan a).elem i) := by
  obtain ⟨h1, h2⟩ := nanArgbest_spec htrans hirr a.val.mag.toList
  rcases hb : nanArgbest lt a.val.mag.toList with _ | n
  · have hr : UQ.nanbest lt w a = .error .valueError := by unfold UQ.nanbest; rw [hb]
    rw [hr]
    refine ⟨⟨fun h => absurd h (by rintro ⟨r, hr⟩; cases hr), ?_⟩, fun _ => rfl, fun r hr => by cases hr⟩
    rintro ⟨i, hi, hne⟩
    exact absurd (h1.1 hb _ (mem_toList.2 ⟨i, hi, rfl⟩)) hne
  · obtain ⟨x, hx, hbest⟩ := h2 n hb
    unfold NDArr.toList at hx
    rw [List.getElem?_map] at hx
    obtain ⟨i, hi, hix⟩ := Option.map_eq_some_iff.1 hx
    have hin : InB a.val.mag.shape i := mem_indices.1 (List.mem_of_getElem? hi)
    have hd : w.deq a.unc.dim a.val.dim = true := deq_same hu.canon.nodup hv.canon.nodup hal.1
    have hr : UQ.nanbest lt w a = .ok ⟨⟨⟨[], fun _ => a.val.mag.elem i⟩, a.val.dim⟩,
        ⟨⟨[], fun _ => a.unc.mag.elem i⟩, a.val.dim⟩⟩ := by
      unfold UQ.nanbest
      rw [hb]
      simp only [hi, UQ.getitemNan, NDArr.select, except_bind_ok, Quantity.rescaleNan, hd, if_true, UQ.ofArrays]
    rw [hr]
    refine ⟨⟨fun _ => ⟨i, hin, by rw [hix]; simp⟩, fun _ => ⟨_, rfl⟩⟩, fun h => absurd ⟨_, rfl⟩ h, fun r hr' => ?_⟩
    simp only [Except.ok.injEq] at hr'; subst hr'
    refine ⟨rfl, rfl, i, x, hin, hix, fun j y hj hy => hbest y (mem_toList.2 ⟨j, hj, hy⟩), fun v => ?_⟩
    simp only [Valuation.measNan, dsize_same v.val hu.canon.nodup hv.canon.nodup hal.1]
    rw [show v.size a.unc.dim = v.size a.val.dim from dsize_same v.val hu.canon.nodup hv.canon.nodup hal.1]

/-- C90, `nanmax()` (no axis): a measurement that is present, with its uncertainty, and no value present
is larger; `ValueError` exactly if every value is missing. -/
theorem C90_nanmax_partial (a : UQ (Option K)) (hv : DimOK w a.val.dim) (hu : DimOK w a.unc.dim) (hal : a.Aligned) :
    (Returns (a.nanmax w .all) ↔ ∃ i, InB a.val.mag.shape i ∧ a.val.mag.elem i ≠ none) ∧
    (¬ Returns (a.nanmax w .all) → a.nanmax w .all = .error .valueError) ∧
    (∀ r, a.nanmax w .all = .ok r → r.val.dim = a.val.dim ∧ r.val.mag.shape = [] ∧
      ∃ i, InB a.val.mag.shape i ∧ ∀ v : Valuation w, (v.measNan r).elem [] = (v.measNan a).elem i ∧
        ∃ x, ((v.measNan r).elem []).1 = some x ∧
        ∀ j y, InB a.val.mag.shape j → ((v.measNan a).elem j).1 = some y → y ≤ x) := by
  obtain ⟨h1, h2, h3⟩ := nanbest_spec (lt := fun x y : K => decide (x < y))
    (fun x y z h1 h2 => by simp only [decide_eq_true_eq] at *; exact h1.trans h2) (fun x => by simp) a hv hu hal
  refine ⟨h1, h2, fun r hr => ?_⟩
  obtain ⟨g1, g2, i, x, g3, g4, g5, g6⟩ := h3 r hr
  refine ⟨g1, g2, i, g3, fun v => ⟨g6 v, x * v.size a.val.dim, ?_, fun j y hj hy => ?_⟩⟩
  · rw [g6 v]; simp only [Valuation.measNan, g4, Option.map_some]
  · obtain ⟨y', hy', rfl⟩ := Option.map_eq_some_iff.1 hy
    have := g5 j y' hj hy'
    simp only [decide_eq_false_iff_not, not_lt] at this
    exact mul_le_mul_of_nonneg_right this (v.size_pos _).le

/-- C90, `nanmin()` (no axis). -/
theorem C90_nanmin_partial (a : UQ (Option K)) (hv : DimOK w a.val.dim) (hu : DimOK w a.unc.dim) (hal : a.Aligned) :
    (Returns (a.nanmin w .all) ↔ ∃ i, InB a.val.mag.shape i ∧ a.val.mag.elem i ≠ none) ∧
    (¬ Returns (a.nanmin w .all) → a.nanmin w .all = .error .valueError) ∧
    (∀ r, a.nanmin w .all = .ok r → r.val.dim = a.val.dim ∧ r.val.mag.shape = [] ∧
      ∃ i, InB a.val.mag.shape i ∧ ∀ v : Valuation w, (v.measNan r).elem [] = (v.measNan a).elem i ∧
        ∃ x, ((v.measNan r).elem []).1 = some x ∧
        ∀ j y, InB a.val.mag.shape j → ((v.measNan a).elem j).1 = some y → x ≤ y) := by
  obtain ⟨h1, h2, h3⟩ := nanbest_spec (lt := fun x y : K => decide (y < x))
    (fun x y z h1 h2 => by simp only [decide_eq_true_eq] at *; exact h2.trans h1) (fun x => by simp) a hv hu hal
  refine ⟨h1, h2, fun r hr => ?_⟩
  obtain ⟨g1, g2, i, x, g3, g4, g5, g6⟩ := h3 r hr
  refine ⟨g1, g2, i, g3, fun v => ⟨g6 v, x * v.size a.val.dim, ?_, fun j y hj hy => ?_⟩⟩
  · rw [g6 v]; simp only [Valuation.measNan, g4, Option.map_some]
  · obtain ⟨y', hy', rfl⟩ := Option.map_eq_some_iff.1 hy
    have := g5 j y' hj hy'
    simp only [decide_eq_false_iff_not, not_lt] at this
    exact mul_le_mul_of_nonneg_right this (v.size_pos _).le

end

/-! ## Concrete cases -/

/-- `[nan, 1] m` with uncertainties `[nan, 1] m`. -/
noncomputable def exNan : UQ (Option ℝ) :=
  ⟨⟨⟨[2], fun i => if i = [0] then none else some 1⟩, dM⟩, ⟨⟨[2], fun i => if i = [0] then none else some 1⟩, dM⟩⟩

/-- The same values with uncertainties `[1, 1] m`. -/
noncomputable def exStray : UQ (Option ℝ) :=
  ⟨⟨⟨[2], fun i => if i = [0] then none else some 1⟩, dM⟩, ⟨⟨[2], fun _ => some 1⟩, dM⟩⟩

/-- The hypotheses of the theorems of C90 are met. -/
example : DimOK exWorld exNan.val.dim ∧ DimOK exWorld exNan.unc.dim ∧ exNan.Aligned ∧ exNan.MissingTogether ∧
    Returns (exNan.nansum .all) ∧ Returns (exNan.nanmean (.one 0)) ∧ Returns (exNan.nanmax exWorld .all) ∧
    Returns (exNan.nanmin exWorld .all) := by
  have hd : DimOK exWorld exNan.val.dim := ex_dimOK _ (by simp [exNan])
  have hal : exNan.Aligned := ⟨SameContent.refl _, rfl⟩
  have hp : ∃ i, InB exNan.val.mag.shape i ∧ exNan.val.mag.elem i ≠ none :=
    ⟨[1], List.Forall₂.cons (by decide) List.Forall₂.nil, by simp [exNan]⟩
  refine ⟨hd, hd, hal, fun i _ h => h, ⟨_, rfl⟩, ⟨_, rfl⟩, (C90_nanmax_partial exNan hd hd hal).1.2 hp,
    (C90_nanmin_partial exNan hd hd hal).1.2 hp⟩

/-- C90 is false when a missing value has an uncertainty: `nansum` of `[nan, 1] m` with uncertainties
`[1, 1] m` is 1 m with uncertainty sqrt(2) m, that of a sum of two measurements. -/
theorem C90_stray_uncertainty_false : ∃ r, exStray.nansum .all = .ok r ∧
    ∀ v : Valuation exWorld, ¬ ReducedBy (OfPresent IsTotal) .all (v.measNan exStray) (v.measNan r) := by
  refine ⟨_, rfl, fun v => ?_⟩
  rintro ⟨L, hL, -, h⟩
  have hL' := hL
  simp only [NDArr.reduce, axisMask, Except.ok.injEq] at hL'
  subst hL'
  obtain ⟨x, s, hz, h1, h2, h3⟩ := h [] List.Forall₂.nil
  have hs := v.size_pos dM
  simp [Valuation.measNan, exStray, reduceMask, pick, indices, NDArr.merge, present, Quantity.nanOver,
    List.range_succ, NDArr.map, List.reduceOption] at hz h1 h3
  obtain ⟨-, rfl⟩ := hz
  rw [mul_pow, rpow_two] at h3
  have h4 := rpow_half_sq (show (0 : ℝ) ≤ 1 ^ 2 + 1 ^ 2 by norm_num)
  rw [show (1 / 2 : ℚ) = 2⁻¹ by norm_num] at h4
  rw [h4] at h3
  have : 0 < v.size dM ^ 2 := by positivity
  linarith

end PQ
