import Verif.Props.Along
import Verif.Props.Broadcast
import Verif.Props.Umath

/-!
# C138: reductions that skip nan, element by element; C44, C72 and C36 in terms of elements

C32, C44 and C72 are stated with operations of the model of numpy; here it is said which elements the
results combine.
-/

namespace PQ

open NDArr LawfulRPow

variable {K : Type _} [Field K] [LinearOrder K] [IsStrictOrderedRing K] [RPow K] [LawfulRPow K]
variable {h : Hasher} {w : World K}

private theorem nanOver_numbers {f : List K → K} {e : Option K} (l : List (Option K)) :
    (numbers l = [] → Quantity.nanOver f e l = e) ∧
    (numbers l ≠ [] → Quantity.nanOver f e l = some (f (numbers l))) := by
  have : l.reduceOption = numbers l := rfl
  unfold Quantity.nanOver
  rw [this]
  rcases numbers l with _ | ⟨x, xs⟩
  · exact ⟨fun _ => rfl, fun h => absurd rfl h⟩
  · exact ⟨fun h => (by cases h), fun _ => rfl⟩

private theorem attach_nan_returns {m : Py (NDArr (Option K))} {d : Dim} : Returns (attach m d) ↔ Returns m := by
  unfold attach
  rcases m with e | m
  · exact ⟨fun h => absurd h (not_returns_error _), fun h => absurd h (not_returns_error _)⟩
  · exact ⟨fun _ => ⟨_, rfl⟩, fun _ => ⟨_, rfl⟩⟩

private theorem alongNan_of {op : Quantity (Option K) → Py (Quantity (Option K))} {f : List (Option K) → Option K}
    {ax : Axis} (hd : DenotesReductionNan w op (NDArr.reduce f ax)) {q r : Quantity (Option K)} (hr : op q = .ok r)
    (v : Valuation w) :
    ∃ S, NamesAxes q.mag.shape.length ax S ∧ Along (fun l x => x = f l) S (v.physNan q) (v.physNan r) := by
  have := (hd q).2 v
  rw [hr] at this
  exact reduce_along this

/-- `nansum` and `nanmean` return exactly when `axis` names distinct axes of the array; the units are kept,
and each element has the physical value of the sum of the numbers combined, or their sum divided by how
many they are; where there is no number the sum is 0 and the mean nan. -/
theorem C138_nansum_nanmean (hw : Reachable h w) (q : Quantity (Option K)) (ax : Axis) :
    (Returns (q.nansum ax) ↔ ∃ S, NamesAxes q.mag.shape.length ax S) ∧
    (Returns (q.nanmean ax) ↔ ∃ S, NamesAxes q.mag.shape.length ax S) ∧
    (∀ r, q.nansum ax = .ok r → r.dim = q.dim ∧ ∀ v : Valuation w, ∃ S, NamesAxes q.mag.shape.length ax S ∧
      Along (fun l x => x = some (numbers l).sum) S (v.physNan q) (v.physNan r)) ∧
    (∀ r, q.nanmean ax = .ok r → r.dim = q.dim ∧ ∀ v : Valuation w, ∃ S, NamesAxes q.mag.shape.length ax S ∧
      Along (fun l x => (numbers l = [] → x = none) ∧
        (numbers l ≠ [] → x = some ((numbers l).sum / ((numbers l).length : K)))) S
        (v.physNan q) (v.physNan r)) := by
  refine ⟨?_, ?_, ?_, ?_⟩
  · exact attach_nan_returns.trans (reduce_returns _ ax q.mag)
  · exact attach_nan_returns.trans (reduce_returns _ ax q.mag)
  · intro r hr
    refine ⟨((C32_nansum hw ax).1 q).1 r hr, fun v => ?_⟩
    obtain ⟨S, hS, al⟩ := alongNan_of (C32_nansum hw ax).1 hr v
    refine ⟨S, hS, al.mono (fun i _ hx => ?_)⟩
    rw [hx]
    by_cases h0 : numbers (over (v.physNan q) S i) = []
    · rw [(nanOver_numbers _).1 h0, h0]; rfl
    · rw [(nanOver_numbers _).2 h0]
  · intro r hr
    refine ⟨((C32_nanmean hw ax).1 q).1 r hr, fun v => ?_⟩
    obtain ⟨S, hS, al⟩ := alongNan_of (C32_nanmean hw ax).1 hr v
    refine ⟨S, hS, al.mono (fun i _ hx => ?_)⟩
    rw [hx]
    exact ⟨fun h0 => (nanOver_numbers _).1 h0, fun h0 => (nanOver_numbers _).2 h0⟩

/-- `nanstd` returns exactly when `axis` names distinct axes; the units are kept; where more than `ddof`
numbers are combined the element is the non-negative root of the sum of their squared deviations from their
mean over how many they are minus `ddof`, elsewhere it is nan. -/
theorem C138_nanstd (hw : Reachable h w) (q : Quantity (Option K)) (ax : Axis) (ddof : ℚ) (hd : 0 ≤ ddof) :
    (Returns (q.nanstd ax ddof) ↔ ∃ S, NamesAxes q.mag.shape.length ax S) ∧
    (∀ r, q.nanstd ax ddof = .ok r → r.dim = q.dim ∧
      ∀ v : Valuation w, ∃ S, NamesAxes q.mag.shape.length ax S ∧
        Along (fun l x => (((numbers l).length : ℚ) ≤ ddof → x = none) ∧
          (ddof < (numbers l).length → ∃ s, x = some s ∧ 0 ≤ s ∧
            s ^ 2 * (((numbers l).length : K) - (ddof : K)) =
              ((numbers l).map (fun y => (y - (numbers l).sum / ((numbers l).length : K)) ^ 2)).sum)) S
          (v.physNan q) (v.physNan r)) := by
  have key : ∀ l : List K, ddof < l.length → lvar ddof l * ((l.length : K) - (ddof : K)) =
      (l.map (fun y => (y - l.sum / (l.length : K)) ^ 2)).sum := by
    intro l hl
    have hpos : (0 : ℚ) < (l.length : ℚ) - ddof := by linarith
    have hc : ((max ((l.length : ℚ) - ddof) 0 : ℚ) : K) = (l.length : K) - (ddof : K) := by
      rw [max_eq_left hpos.le]; push_cast; rfl
    have hne : (l.length : K) - (ddof : K) ≠ 0 := by
      rw [← hc, max_eq_left hpos.le]; exact_mod_cast hpos.ne'
    unfold lvar lmean
    rw [hc, div_mul_cancel₀ _ hne]
  have hsq : ∀ x : K, 0 ≤ x → rpow x (1 / 2) ^ 2 = x ∧ 0 ≤ rpow x (1 / 2) := by
    intro x hx
    rcases hx.lt_or_eq with hp | hz
    · exact ⟨by rw [← rpow_natCast, rpow_rpow _ _ _ hp]; norm_num [rpow_one], (rpow_pos _ _ hp).le⟩
    · rw [← hz, zero_rpow _ (by norm_num)]; simp
  refine ⟨attach_nan_returns.trans (reduce_returns _ ax q.mag), ?_⟩
  intro r hr
  refine ⟨((C32_nanstd hw ax ddof).1 q).1 r hr, fun v => ?_⟩
  obtain ⟨S, hS, al⟩ := alongNan_of (C32_nanstd hw ax ddof).1 hr v
  refine ⟨S, hS, al.mono (fun i _ hx => ?_)⟩
  have hn : (over (v.physNan q) S i).reduceOption = numbers (over (v.physNan q) S i) := rfl
  refine ⟨fun hl => ?_, fun hl => ?_⟩
  · rw [hx, hn, if_pos hl]
  · rw [hx, hn, if_neg (not_le.mpr hl)]
    have h0 : numbers (over (v.physNan q) S i) ≠ [] := by
      intro h0
      rw [h0] at hl
      simp at hl
      linarith
    rw [(nanOver_numbers _).2 h0]
    obtain ⟨s1, s2⟩ := hsq _ (lvar_nonneg ddof (numbers (over (v.physNan q) S i)))
    exact ⟨_, rfl, s2, by unfold lstd; rw [s1]; exact key _ hl⟩

/-- C72, `nanmax()` and `nanmin()` without an axis, element by element: they raise `ValueError` exactly for
an empty array; otherwise the result is one element with the units of `q`, nan if the array has no number,
else the largest (smallest) of its numbers.  Missing: an axis, see `C72_axis_false`. -/
theorem C72_elements_partial (hw : Reachable h w) (q : Quantity (Option K)) :
    ((∃ i, InB q.mag.shape i) ↔ Returns (q.nanmax .all)) ∧
    ((∃ i, InB q.mag.shape i) ↔ Returns (q.nanmin .all)) ∧
    (∀ e, q.nanmax .all = .error e ∨ q.nanmin .all = .error e → e = .valueError) ∧
    (∀ r, q.nanmax .all = .ok r → r.dim = q.dim ∧ r.mag.shape = [] ∧ ∀ v : Valuation w,
      (((v.physNan r).elem [] = none ∧ ∀ i, InB q.mag.shape i → (v.physNan q).elem i = none) ∨
       ∃ x, (v.physNan r).elem [] = some x ∧ (∃ i, InB q.mag.shape i ∧ (v.physNan q).elem i = some x) ∧
         ∀ i y, InB q.mag.shape i → (v.physNan q).elem i = some y → y ≤ x)) ∧
    (∀ r, q.nanmin .all = .ok r → r.dim = q.dim ∧ r.mag.shape = [] ∧ ∀ v : Valuation w,
      (((v.physNan r).elem [] = none ∧ ∀ i, InB q.mag.shape i → (v.physNan q).elem i = none) ∨
       ∃ x, (v.physNan r).elem [] = some x ∧ (∃ i, InB q.mag.shape i ∧ (v.physNan q).elem i = some x) ∧
         ∀ i y, InB q.mag.shape i → (v.physNan q).elem i = some y → x ≤ y)) := by
  have hover : ∀ a : NDArr (Option K), over a (List.range a.shape.length) [] = a.toList := by
    intro a
    have hw0 : ∀ j ∈ indices a.shape, without (List.range a.shape.length) j = [] := by
      intro j hj
      have hl := (mem_indices.mp hj).length_eq
      unfold without
      rw [List.filter_eq_nil_iff.mpr]
      · rfl
      · intro k hk
        simp only [List.mem_range] at hk
        simp [← hl, hk]
    unfold over toList
    rw [List.filter_eq_self.mpr (fun j hj => by simp [hw0 j hj])]
  have hws : ∀ s : List Nat, without (List.range s.length) s = [] := by
    intro s
    unfold without
    rw [List.filter_eq_nil_iff.mpr]
    · rfl
    · intro k hk
      simp only [List.mem_range] at hk
      simp [hk]
  have hne : (∃ i, InB q.mag.shape i) ↔ q.mag.toList ≠ [] := by
    constructor
    · rintro ⟨i, hi⟩ h0
      have : q.mag.elem i ∈ q.mag.toList := mem_toList.mpr ⟨i, hi, rfl⟩
      rw [h0] at this; cases this
    · intro h0
      obtain ⟨x, hx⟩ := List.exists_mem_of_ne_nil _ h0
      obtain ⟨i, hi, -⟩ := mem_toList.mp hx
      exact ⟨i, hi⟩
  have ret : ∀ f : List (Option K) → Option K,
      (∃ i, InB q.mag.shape i) ↔ Returns (attach (q.mag.reduceNE f .all) q.dim) := by
    intro f
    rw [attach_nan_returns, reduceNE_along.2.1, hne]
    constructor
    · intro h0
      refine ⟨_, rfl, ?_⟩
      intro i hi
      rw [hws] at hi
      have : i = [] := List.forall₂_nil_right_iff.mp hi
      subst this
      rw [hover]; exact h0
    · rintro ⟨S, rfl, h1⟩
      have := h1 [] (by rw [hws]; exact List.Forall₂.nil)
      rwa [hover] at this
  have err : ∀ (f : List (Option K) → Option K) e, attach (q.mag.reduceNE f .all) q.dim = .error e → e = .valueError := by
    intro f e he
    unfold attach at he
    rcases hm : q.mag.reduceNE f .all with e' | m
    · rw [hm] at he; cases he; exact reduceNE_along.2.2 _ hm
    · rw [hm] at he; cases he
  have main : ∀ (f : List K → K) (R : K → K → Prop), (∀ l, l ≠ [] → f l ∈ l ∧ ∀ y ∈ l, R y (f l)) →
      ∀ (op : Quantity (Option K) → Py (Quantity (Option K))),
      DenotesReductionNan w op (NDArr.reduceNE (Quantity.nanOver f none) .all) → ∀ r, op q = .ok r →
      r.dim = q.dim ∧ r.mag.shape = [] ∧ ∀ v : Valuation w,
      (((v.physNan r).elem [] = none ∧ ∀ i, InB q.mag.shape i → (v.physNan q).elem i = none) ∨
       ∃ x, (v.physNan r).elem [] = some x ∧ (∃ i, InB q.mag.shape i ∧ (v.physNan q).elem i = some x) ∧
         ∀ i y, InB q.mag.shape i → (v.physNan q).elem i = some y → R y x) := by
    intro f R hf op hop r hr
    have along : ∀ v : Valuation w, (v.physNan r).shape = [] ∧
        (v.physNan r).elem [] = Quantity.nanOver f none (v.physNan q).toList := by
      intro v
      have h1 := (hop q).2 v
      rw [hr] at h1
      obtain ⟨S, hS, al⟩ := reduceNE_along.1 _ h1
      have hS' : S = List.range (v.physNan q).shape.length := hS
      subst hS'
      have hsh : (v.physNan r).shape = [] := by rw [al.shape, hws]
      refine ⟨hsh, ?_⟩
      have := (al.elem [] (by rw [hsh]; exact List.Forall₂.nil)).2
      rw [hover] at this
      exact this
    refine ⟨(hop q).1 r hr, ?_, ?_⟩
    · obtain ⟨v⟩ := exists_valuation hw.wf
      exact (along v).1
    · intro v
      have hv := (along v).2
      have mem : ∀ y, y ∈ numbers (v.physNan q).toList ↔ ∃ i, InB q.mag.shape i ∧ (v.physNan q).elem i = some y := by
        intro y
        unfold numbers
        rw [List.mem_filterMap]
        constructor
        · rintro ⟨o, ho, rfl⟩
          obtain ⟨i, hi, he⟩ := mem_toList.mp ho
          exact ⟨i, hi, he⟩
        · rintro ⟨i, hi, he⟩
          exact ⟨_, mem_toList.mpr ⟨i, hi, he⟩, rfl⟩
      by_cases h0 : numbers (v.physNan q).toList = []
      · left
        refine ⟨by rw [hv, (nanOver_numbers _).1 h0], ?_⟩
        intro i hi
        rcases he : (v.physNan q).elem i with _ | y
        · rfl
        · have := (mem y).mpr ⟨i, hi, he⟩
          rw [h0] at this; cases this
      · right
        obtain ⟨m1, m2⟩ := hf _ h0
        refine ⟨_, by rw [hv, (nanOver_numbers _).2 h0], (mem _).mp m1, ?_⟩
        intro i y hi he
        exact m2 y ((mem y).mpr ⟨i, hi, he⟩)
  obtain ⟨n1, -, n2, -⟩ := C72_nanmax_nanmin_partial (K := K) hw
  refine ⟨ret _, ret _, ?_, ?_, ?_⟩
  · rintro e (he | he)
    · exact err _ e he
    · exact err _ e he
  · exact main NDArr.lmax (fun y x => y ≤ x) (fun l hl => NDArr.lmax_spec hl) _ n1
  · exact main NDArr.lmin (fun y x => x ≤ y) (fun l hl => NDArr.lmin_spec hl) _ n2

private theorem bin_returns_iff {α β γ : Type _} {f : α → β → γ} {x : NDArr α} {y : NDArr β} :
    Returns (bin f x y) ↔ Broadcastable x.shape y.shape := by
  rw [← bshape_isSome_iff]
  unfold bin
  rcases bshape x.shape y.shape with _ | s
  · exact ⟨fun h => absurd h (not_returns_error _), fun h => (by cases h)⟩
  · exact ⟨fun _ => rfl, fun _ => ⟨_, rfl⟩⟩

/-- C44, `clip` element by element: with a lower bound the elements are the larger of the value and the
bound, with an upper bound the smaller, with both first one and then the other, all as physical values and
after broadcasting; `clip` returns exactly when the shapes can be broadcast and raises `ValueError`
otherwise. -/
theorem C44_clip_elements (hw : Reachable h w) (q lo hi : Quantity K)
    (hq : DimOK w q.dim) (hl : DimOK w lo.dim) (hh : DimOK w hi.dim)
    (sl : HashSafe w lo.dim q.dim) (sh : HashSafe w hi.dim q.dim)
    (cl : Compatible w lo.dim q.dim) (ch : Compatible w hi.dim q.dim) :
    ((Returns (q.clip w (some (.quantity lo)) none) ↔ Broadcastable q.mag.shape lo.mag.shape) ∧
      ∀ r, q.clip w (some (.quantity lo)) none = .ok r → r.dim = q.dim ∧
        ∀ v : Valuation w, BroadcastOf max (v.phys q) (v.phys lo) (v.phys r)) ∧
    ((Returns (q.clip w none (some (.quantity hi))) ↔ Broadcastable q.mag.shape hi.mag.shape) ∧
      ∀ r, q.clip w none (some (.quantity hi)) = .ok r → r.dim = q.dim ∧
        ∀ v : Valuation w, BroadcastOf min (v.phys q) (v.phys hi) (v.phys r)) ∧
    ((Returns (q.clip w (some (.quantity lo)) (some (.quantity hi))) ↔ ∃ s,
        Broadcastable q.mag.shape lo.mag.shape ∧ BroadcastShape q.mag.shape lo.mag.shape s ∧
        Broadcastable s hi.mag.shape) ∧
      ∀ r, q.clip w (some (.quantity lo)) (some (.quantity hi)) = .ok r → r.dim = q.dim ∧
        ∀ v : Valuation w, ∃ m, BroadcastOf max (v.phys q) (v.phys lo) m ∧
          BroadcastOf min m (v.phys hi) (v.phys r)) ∧
    (∀ e, (q.clip w (some (.quantity lo)) none = .error e ∨ q.clip w none (some (.quantity hi)) = .error e ∨
      q.clip w (some (.quantity lo)) (some (.quantity hi)) = .error e) → e = .valueError) := by
  have e1 := C44_clip hw q (some lo) none hq (.inl (by simp))
    (by rintro b (hb | hb) <;> cases hb; exact ⟨hl, sl, cl⟩)
  have e2 := C44_clip hw q none (some hi) hq (.inr (by simp))
    (by rintro b (hb | hb) <;> cases hb; exact ⟨hh, sh, ch⟩)
  have e3 := C44_clip hw q (some lo) (some hi) hq (.inr (by simp))
    (by rintro b (hb | hb) <;> cases hb; exacts [⟨hl, sl, cl⟩, ⟨hh, sh, ch⟩])
  simp only [Option.map_some, Option.map_none] at e1 e2 e3
  obtain ⟨v0⟩ := exists_valuation hw.wf
  have ret : ∀ {x : Py (Quantity K)} {y : Py (NDArr K)} (v : Valuation w), y = x.map v.phys → (Returns x ↔ Returns y) := by
    intro x y v hy
    rw [hy]
    rcases x with e | x
    · exact ⟨fun h => absurd h (not_returns_error _), fun h => absurd h (not_returns_error _)⟩
    · exact ⟨fun _ => ⟨_, rfl⟩, fun _ => ⟨_, rfl⟩⟩
  have berr : ∀ {f : K → K → K} {x y : NDArr K} {e}, bin f x y = .error e → e = .valueError := by
    intro f x y e he
    unfold bin at he
    rcases hs : bshape x.shape y.shape with _ | s
    · rw [hs] at he; cases he; rfl
    · rw [hs] at he; cases he
  refine ⟨⟨?_, ?_⟩, ⟨?_, ?_⟩, ⟨?_, ?_⟩, ?_⟩
  · rw [ret v0 (e1 v0).2]
    rcases hb : bin max (v0.phys q) (v0.phys lo) with e | m
    · simp only [NDArr.clip, hb]
      rw [show Broadcastable q.mag.shape lo.mag.shape ↔ Returns (bin max (v0.phys q) (v0.phys lo)) from (bin_returns_iff (f := max) (x := v0.phys q) (y := v0.phys lo)).symm, hb]
    · simp only [NDArr.clip, hb]
      rw [show Broadcastable q.mag.shape lo.mag.shape ↔ Returns (bin max (v0.phys q) (v0.phys lo)) from (bin_returns_iff (f := max) (x := v0.phys q) (y := v0.phys lo)).symm, hb]
  · intro r hr
    refine ⟨(e1 v0).1 r hr, fun v => ?_⟩
    have := (e1 v).2
    rw [hr] at this
    rcases hb : bin max (v.phys q) (v.phys lo) with e | m
    · simp only [NDArr.clip, hb] at this; cases this
    · simp only [NDArr.clip, hb] at this
      injection this with this
      rw [← this]; exact bin_broadcast hb
  · rw [ret v0 (e2 v0).2]
    exact bin_returns_iff (f := min) (x := v0.phys q) (y := v0.phys hi)
  · intro r hr
    refine ⟨(e2 v0).1 r hr, fun v => ?_⟩
    have := (e2 v).2
    rw [hr] at this
    exact bin_broadcast this
  · rw [ret v0 (e3 v0).2]
    rcases hb : bin max (v0.phys q) (v0.phys lo) with e | m
    · simp only [NDArr.clip, hb]
      refine ⟨fun h => absurd h (not_returns_error _), ?_⟩
      rintro ⟨s, h1, -, -⟩
      have := (bin_returns_iff (f := max) (x := v0.phys q) (y := v0.phys lo)).mpr h1
      rw [hb] at this; exact absurd this (not_returns_error _)
    · simp only [NDArr.clip, hb]
      have hm := bin_broadcast hb
      rw [bin_returns_iff]
      constructor
      · intro h1
        exact ⟨m.shape, hm.fits, hm.shape, h1⟩
      · rintro ⟨s, h1, h2, h3⟩
        have a := (bshape_iff _ _ _).mpr ⟨hm.fits, hm.shape⟩
        have b := (bshape_iff _ _ _).mpr ⟨h1, h2⟩
        have : m.shape = s := Option.some.inj (a.symm.trans b)
        rw [this]; exact h3
  · intro r hr
    refine ⟨(e3 v0).1 r hr, fun v => ?_⟩
    have := (e3 v).2
    rw [hr] at this
    rcases hb : bin max (v.phys q) (v.phys lo) with e | m
    · simp only [NDArr.clip, hb] at this; cases this
    · simp only [NDArr.clip, hb] at this
      exact ⟨m, bin_broadcast hb, bin_broadcast this⟩
  · rintro e (he | he | he)
    · have := (e1 v0).2
      rw [he] at this
      rcases hb : bin max (v0.phys q) (v0.phys lo) with e' | m
      · simp only [NDArr.clip, hb] at this; cases this; exact berr hb
      · simp only [NDArr.clip, hb] at this; cases this
    · have := (e2 v0).2
      rw [he] at this
      exact berr this
    · have := (e3 v0).2
      rw [he] at this
      rcases hb : bin max (v0.phys q) (v0.phys lo) with e' | m
      · simp only [NDArr.clip, hb] at this; cases this; exact berr hb
      · simp only [NDArr.clip, hb] at this; exact berr this

/-- C36, when `umath.hypot` of two quantities returns: exactly when both have the same units and the shapes
can be broadcast; otherwise it raises `ValueError`.  Missing: it should also accept units of the same kind,
see `C36_hypot_false`. -/
theorem C36_hypot_accepts_partial (g : K → K → K) (a b : Quantity K)
    (ha : DimOK w a.dim) (hb : DimOK w b.dim) (hn : NoColl w a.dim b.dim) :
    (Returns (Umath.hypot w g (.quantity a) (.quantity b)) ↔
      SameContent a.dim b.dim ∧ Broadcastable a.mag.shape b.mag.shape) ∧
    (∀ e, Umath.hypot w g (.quantity a) (.quantity b) = .error e → e = .valueError) := by
  have heq : w.deq a.dim b.dim = true ↔ SameContent a.dim b.dim := ⟨hn, fun hs => deq_same ha.canon.nodup hb.canon.nodup hs⟩
  by_cases hd : w.deq a.dim b.dim = true
  · have h1 : Umath.hypot w g (.quantity a) (.quantity b) =
        (bin g a.mag b.mag).map (fun m => .quantity ⟨m, a.dim⟩) := by
      unfold Umath.hypot
      exact if_neg (by rw [dne_eq, hd]; decide)
    rw [h1, ← bin_returns_iff (f := g)]
    rcases hb' : bin g a.mag b.mag with e | m
    · refine ⟨⟨fun h => absurd h (not_returns_error _), fun h => absurd h.2 (not_returns_error _)⟩, ?_⟩
      intro e' he
      cases he
      unfold bin at hb'
      rcases hs : bshape a.mag.shape b.mag.shape with _ | s
      · rw [hs] at hb'; cases hb'; rfl
      · rw [hs] at hb'; cases hb'
    · exact ⟨⟨fun _ => ⟨heq.mp hd, ⟨_, rfl⟩⟩, fun _ => ⟨_, rfl⟩⟩, fun e he => (by cases he)⟩
  · have h1 : Umath.hypot w g (.quantity a) (.quantity b) = .error .valueError := by
      unfold Umath.hypot
      exact if_pos (by rw [dne_eq]; simpa using hd)
    rw [h1]
    refine ⟨⟨fun h => absurd h (not_returns_error _), ?_⟩, fun e he => (by cases he; rfl)⟩
    rintro ⟨h1, -⟩
    exact absurd (heq.mpr h1) hd

/-- C80, `searchsorted` element by element: for a one-dimensional array in increasing order and keys of any
shape in the same units, the result has the shape of the keys and each element is the number of physical
values in the array that are smaller than the key (`side='left'`), or not larger (`side='right'`); an array
of another number of axes is refused with `ValueError`.  Missing: keys in other units of the same kind. -/
theorem C80_searchsorted_elements_partial (q o : Quantity K) (right : Bool)
    (hq : DimOK w q.dim) (ho : DimOK w o.dim) (hs : SameContent o.dim q.dim) :
    (q.mag.shape.length ≠ 1 → q.searchsorted w (.quantity o) right = .error .valueError) ∧
    (∀ n, q.mag.shape = [n] → ∃ r, q.searchsorted w (.quantity o) right = .ok r ∧ r.shape = o.mag.shape ∧
      ((∀ i j, i ≤ j → j < n → q.mag.elem [i] ≤ q.mag.elem [j]) → ∀ (v : Valuation w) (i : List Nat),
        r.elem i = ((List.range n).filter (fun j => if right then (v.phys q).elem [j] ≤ (v.phys o).elem i
          else (v.phys q).elem [j] < (v.phys o).elem i)).length)) := by
  have hne : w.dne o.dim q.dim = false := by
    rw [dne_eq, deq_same ho.canon.nodup hq.canon.nodup hs]; rfl
  have he : q.searchsorted w (.quantity o) right = q.mag.searchsorted right o.mag := by
    unfold Quantity.searchsorted
    simp only [Operand.toQuantity, hne, Bool.false_eq_true, if_false]
  refine ⟨?_, ?_⟩
  · intro hl
    rw [he]
    unfold NDArr.searchsorted
    rcases hsh : q.mag.shape with _ | ⟨n, _ | ⟨m, t⟩⟩
    · rfl
    · rw [hsh] at hl; simp at hl
    · rfl
  · intro n hn
    rcases hr : q.mag.searchsorted right o.mag with e | r
    · unfold NDArr.searchsorted at hr; rw [hn] at hr; cases hr
    refine ⟨r, by rw [he, hr], ?_, ?_⟩
    · unfold NDArr.searchsorted at hr; rw [hn] at hr; cases hr; rfl
    · intro hsorted v i
      have hne' : w.dne q.dim q.dim = false := by rw [dne_eq, deq_self w q.dim]; rfl
      have hsc : q.searchsorted w (.quantity ⟨NDArr.scalar (o.mag.elem i), q.dim⟩) right =
          .ok ⟨[], fun _ => r.elem i⟩ := by
        unfold Quantity.searchsorted
        simp only [Operand.toQuantity, hne', Bool.false_eq_true, if_false]
        unfold NDArr.searchsorted at hr ⊢
        rw [hn] at hr ⊢
        cases hr
        rfl
      have := C80_searchsorted_count_partial w q n (o.mag.elem i) right hn hsorted _ hsc
      have hl : q.mag.toList = (List.range n).map (fun j => q.mag.elem [j]) := by
        unfold toList
        rw [hn, indices_one, List.map_map]; rfl
      rw [hl, List.countP_map, List.countP_eq_length_filter] at this
      rw [show r.elem i = _ from this]
      have hpos := v.size_pos q.dim
      have hsz : v.size o.dim = v.size q.dim := dsize_same v.val ho.canon.nodup hq.canon.nodup hs
      congr 1
      apply List.filter_congr
      intro j _
      simp only [Function.comp, Valuation.phys, NDArr.map, hsz]
      rcases right with _ | _
      · simp [hpos]
      · simp [hpos]

/-- C81, `ediff1d` element by element: the result is one-dimensional; it consists of the values to begin
with, the differences of neighbours in row-major order, and the values to end with (as physical values).
Missing: values in other units, see `C81_ediff1d_false`. -/
theorem C81_ediff1d_elements_partial (q : Quantity K) (e b : Option (Quantity K))
    (he : ∀ x ∈ e, x.dim = q.dim) (hb : ∀ x ∈ b, x.dim = q.dim) (v : Valuation w) :
    ∃ nb ne : Nat, nb = (b.elim 0 (fun x => x.mag.size)) ∧ ne = (e.elim 0 (fun x => x.mag.size)) ∧
    (Umath.ediff1d q (e.map .quantity) (b.map .quantity)).mag.shape = [nb + (q.mag.size - 1) + ne] ∧
    (∀ x ∈ b, ∀ i, InB x.mag.shape i →
      (v.phys (Umath.ediff1d q (e.map .quantity) (b.map .quantity))).elem [rowMajor x.mag.shape i] =
        (v.phys x).elem i) ∧
    (∀ i j, InB q.mag.shape i → InB q.mag.shape j → rowMajor q.mag.shape j = rowMajor q.mag.shape i + 1 →
      (v.phys (Umath.ediff1d q (e.map .quantity) (b.map .quantity))).elem [nb + rowMajor q.mag.shape i] =
        (v.phys q).elem j - (v.phys q).elem i) ∧
    (∀ x ∈ e, ∀ i, InB x.mag.shape i →
      (v.phys (Umath.ediff1d q (e.map .quantity) (b.map .quantity))).elem
        [nb + (q.mag.size - 1) + rowMajor x.mag.shape i] = (v.phys x).elem i) := by
  have at_ : ∀ (a : NDArr K) (i : List Nat), InB a.shape i → a.toList[rowMajor a.shape i]? = some (a.elem i) := by
    intro a i hi
    unfold toList
    rw [List.getElem?_map, indices_rowMajor hi]; rfl
  have len : ∀ a : NDArr K, a.toList.length = a.size := fun a => toList_length a
  set B := (b.map (fun x => x.mag)).elim [] toList with hB
  set E := (e.map (fun x => x.mag)).elim [] toList with hE
  set D := List.zipWith (· - ·) q.mag.toList.tail q.mag.toList with hD
  have hlB : B.length = b.elim 0 (fun x => x.mag.size) := by
    rcases b with _ | b
    · rfl
    · exact len _
  have hlE : E.length = e.elim 0 (fun x => x.mag.size) := by
    rcases e with _ | e
    · rfl
    · exact len _
  have hlD : D.length = q.mag.size - 1 := by
    rw [hD, List.length_zipWith, List.length_tail, len]; omega
  have hop : ∀ o : Option (Quantity K), (o.map Operand.quantity).map Operand.arr = o.map (fun x => x.mag) := by
    intro o; cases o <;> rfl
  have hr : Umath.ediff1d q (e.map .quantity) (b.map .quantity) = ⟨ofList (B ++ D ++ E), q.dim⟩ := by
    unfold Umath.ediff1d NDArr.ediff1d
    rw [hop, hop]
  rw [hr]
  have el : ∀ k x, (B ++ D ++ E)[k]? = some x →
      (v.phys ⟨ofList (B ++ D ++ E), q.dim⟩).elem [k] = x * v.size q.dim := by
    intro k x hk
    simp only [Valuation.phys, NDArr.map, ofList, List.headD_cons, List.getD_eq_getElem?_getD, hk, Option.getD_some]
  refine ⟨_, _, rfl, rfl, ?_, ?_, ?_, ?_⟩
  · simp only [ofList, List.length_append, hlB, hlD, hlE]
  · intro x hx i hi
    have h1 := at_ x.mag i hi
    have hBx : B = x.mag.toList := by rw [hB, Option.mem_def.mp hx]; rfl
    have hlt : rowMajor x.mag.shape i < B.length := by
      rw [hBx, len]; exact rowMajor_lt hi
    rw [el _ (x.mag.elem i) (by
      rw [List.append_assoc, List.getElem?_append_left hlt, hBx]; exact h1)]
    unfold Valuation.phys
    rw [hb x hx]; rfl
  · intro i j hi hj hij
    have h1 := at_ q.mag i hi
    have h2 := at_ q.mag j hj
    rw [hij] at h2
    have hd : D[rowMajor q.mag.shape i]? = some (q.mag.elem j - q.mag.elem i) := by
      rw [hD, List.getElem?_zipWith_eq_some]
      exact ⟨_, _, by rw [List.getElem?_tail]; exact h2, h1, rfl⟩
    have hlt : rowMajor q.mag.shape i < D.length := by
      rw [hlD]
      have := rowMajor_lt hj
      rw [hij] at this
      have h3 : q.mag.shape.prod = q.mag.size := rfl
      omega
    rw [el _ (q.mag.elem j - q.mag.elem i) (by
      rw [← hlB, List.append_assoc, List.getElem?_append_right (by omega), Nat.add_sub_cancel_left,
        List.getElem?_append_left hlt]; exact hd)]
    unfold Valuation.phys NDArr.map
    ring
  · intro x hx i hi
    have h1 := at_ x.mag i hi
    have hEx : E = x.mag.toList := by rw [hE, Option.mem_def.mp hx]; rfl
    rw [el _ (x.mag.elem i) (by
      rw [← hlB, ← hlD, List.getElem?_append_right (by rw [List.length_append]; omega), List.length_append,
        Nat.add_sub_cancel_left, hEx]; exact h1)]
    unfold Valuation.phys
    rw [he x hx]; rfl

/-! The bounds 0 m and 2500 m for 3 km: the hypotheses of `C44_clip_elements` hold; nan in the array
`[nan, 2] km`. -/
example : Compatible exWorld dM dKm ∧ HashSafe exWorld dM dKm ∧ DimOK exWorld dKm ∧
    numbers [none, some (2 : ℝ), none] = [2] ∧ Broadcastable [2, 3] [3] ∧ BroadcastShape [2, 3] [3] [2, 3] :=
  ⟨compatible_symm exWorld_wf ex_compat, ex_safe_m_km, ex_dimOK _ (by simp), rfl,
    (bshape_isSome_iff _ _).mp rfl, ((bshape_iff [2, 3] [3] [2, 3]).mp rfl).2⟩

end PQ
