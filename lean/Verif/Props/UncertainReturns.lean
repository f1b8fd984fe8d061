import Verif.Props.Uncertain
import Verif.Props.Arithmetic

/-!
# C39, C75, C76, C77: when the operations on uncertain quantities return

`Props/Uncertain.lean` says what a result is; here is exactly when there is one.
-/

namespace PQ

open Dict LawfulRPow World

variable {K : Type _} [Field K] [LinearOrder K] [IsStrictOrderedRing K] [RPow K] [LawfulRPow K]
variable {h : Hasher} {w : World K}

/-- C39: `mean` returns exactly for no axis or one existing axis; a tuple of axes, which `sum`
accepts, is refused. -/
theorem C39_average_returns (hw : Reachable h w) (a : UQ K) (ax : Axis) (ha : UQ.Built w a) :
    (Returns (a.mean w ax) ↔ (∃ m, NDArr.axisMask a.val.mag.shape.length ax = .ok m) ∧
      ∀ l, ax ≠ .many l) := by
  have hao := ha.ok hw.wf
  have hsh : (a.unc.mag.map (fun x => rpow x 2)).shape = a.val.mag.shape := hao.aligned.2
  rcases hm : NDArr.axisMask a.val.mag.shape.length ax with e | m
  · have h1 : a.mean w ax = .error e := by
      unfold UQ.mean NDArr.reduce; rw [hm]; rfl
    rw [h1]
    simp [Returns]
  · rcases hn : UQ.npSize a.val.mag.shape ax with e | n
    · have h1 : a.mean w ax = .error e := by
        unfold UQ.mean NDArr.reduce; rw [hm, hn]; rfl
      rw [h1]
      refine ⟨fun hr => absurd hr (not_returns_error _), fun hr => ?_⟩
      exfalso
      cases ax with
      | all => simp [UQ.npSize] at hn
      | many l => exact hr.2 l rfl
      | one x =>
        simp only [NDArr.axisMask] at hm
        simp only [UQ.npSize, Quantity.shapeAt] at hn
        rcases hx : NDArr.normAxis a.val.mag.shape.length x with e' | k
        · rw [hx] at hm; simp at hm
        · rw [hx] at hn; simp at hn
    · refine ⟨fun _ => ⟨⟨m, rfl⟩, fun l hl => ?_⟩, fun _ => ?_⟩
      · subst hl; simp [UQ.npSize] at hn
      · unfold UQ.mean NDArr.reduce
        rw [hsh, hm, hn]
        simp only [except_bind_ok, new_arrays]
        rw [if_pos]
        · exact ⟨_, rfl⟩
        · show NDArr.pick false m a.val.mag.shape = NDArr.pick false m (a.unc.mag.map _).shape
          rw [hsh]

/-- C39: `exact * uncertain` and `exact / uncertain` return exactly when the shapes broadcast;
otherwise they raise `ValueError`. -/
theorem C39_exact_over_returns (hw : Reachable h w) (a : UQ K) (o : Operand K) (ha : UQ.Built w a)
    (ho : DimOK w o.dim) :
    (Returns (a.rtruediv w o) ↔ (NDArr.bshape o.arr.shape a.val.mag.shape).isSome) ∧
    (∀ e, a.rtruediv w o = .error e → e = .valueError) ∧
    (∀ e, a.rmul w (.plain o) = .error e → e = .valueError) := by
  have hao := ha.ok hw.wf
  refine ⟨?_, ?_, fun e he => (C39_times_exact hw a o ha ho).2.1 e he⟩ <;>
  · unfold UQ.rtruediv
    obtain ⟨rel, hrel⟩ := relative_returns hao
    obtain ⟨t1, t2⟩ := relative_spec hao hrel
    have hb := NDArr.bin_intro (fun x y : K => x / y) (a := rel) (b := a.val.mag) (s := a.val.mag.shape)
      (by rw [t1, NDArr.bshape_self])
    rw [hrel]
    simp only [except_bind_ok]
    rw [hb]
    simp only [except_bind_ok, new_arrays]
    rw [if_pos (show (NDArr.map (fun x => 1 / x) a.val.mag).shape = a.val.mag.shape from rfl)]
    simp only [except_bind_ok, UQ.rmul]
    set temp : UQ K := ⟨⟨a.val.mag.map (fun x => 1 / x), Dim.pow a.val.dim (-1)⟩,
      ⟨⟨a.val.mag.shape, fun i => rel.elem (NDArr.bidx rel.shape i) /
        a.val.mag.elem (NDArr.bidx a.val.mag.shape i)⟩, Dim.pow a.val.dim (-1)⟩⟩ with htemp
    have hd := hao.vdim.pow (-1)
    have htok : temp.OK w := ⟨hd, hd, SameContent.refl _, rfl⟩
    obtain ⟨h1, h2, -⟩ := uq_mul_plain htok ho
    first
      | exact h2
      | rw [NDArr.bshape_comm]; exact h1

/-- C75: a power of an uncertain quantity returns exactly when the same power of its value does: the
exponent has no units, is one and the same number throughout, and its shape broadcasts; otherwise it
raises `ValueError`. -/
theorem C75_power_returns_partial (hw : Reachable h w) (a : UQ K) (e : ExpArg) (ha : UQ.Built w a) :
    (Returns (a.pow w e) ↔ (∀ d, e.dim = some d → d = []) ∧
      (∃ i p, NDArr.InB e.vals.shape i ∧ e.vals.elem i = p ∧ NDArr.All (fun x => x = p) e.vals) ∧
      (NDArr.bshape a.val.mag.shape e.vals.shape).isSome) ∧
    (∀ x, a.pow w e = .error x → x = .valueError) := by
  have hao := ha.ok hw.wf
  rw [← (C15_pow_returns a.val).1 e]
  unfold UQ.pow
  rcases hr : a.val.pow e with e' | res
  · simp only [except_bind_error]
    refine ⟨⟨fun hx => absurd hx (not_returns_error _), fun hx => absurd hx (not_returns_error _)⟩,
      fun x hx => ?_⟩
    simp only [Except.error.injEq] at hx
    exact (C15_pow_returns a.val).2.1 e x (hx ▸ hr)
  · obtain ⟨p, p1, p2, p3⟩ := pow_ok hr
    obtain ⟨s1, s2⟩ := NDArr.bin_elim p3
    obtain ⟨ab1, ab2⟩ := NDArr.bshape_absorb s1
    obtain ⟨rel, hrel⟩ := relative_returns hao
    obtain ⟨t1, t2⟩ := relative_spec hao hrel
    simp only [except_bind_ok, mul_qa]
    have hb1 := NDArr.bin_intro (fun x y : K => x * y) (a := res.mag)
      (b := e.vals.map (fun p : ℚ => (p : K))) ab1
    rw [hb1]
    simp only [Except.map, except_bind_ok, hrel]
    have hb2 := NDArr.bin_intro (fun x y : K => x * y)
      (a := ⟨res.mag.shape, fun i => res.mag.elem (NDArr.bidx res.mag.shape i) *
        (e.vals.map (fun p : ℚ => (p : K))).elem
          (NDArr.bidx (e.vals.map (fun p : ℚ => (p : K))).shape i)⟩)
      (b := rel) (s := res.mag.shape) (by rw [t1]; exact ab2)
    rw [hb2]
    simp only [except_bind_ok]
    have hn : Nodup res.dim := by rw [p2]; exact (canon_pow hao.vdim.canon p).nodup
    rw [setUncertainty_same (self := ⟨res, UQ.zeroUnc res.mag []⟩) (u := ⟨⟨res.mag.shape, fun i =>
      (res.mag.elem (NDArr.bidx res.mag.shape (NDArr.bidx res.mag.shape i)) *
        (e.vals.map (fun p : ℚ => (p : K))).elem
          (NDArr.bidx (e.vals.map (fun p : ℚ => (p : K))).shape (NDArr.bidx res.mag.shape i))) *
        rel.elem (NDArr.bidx rel.shape i)⟩, res.dim⟩) hn hn (SameContent.refl _)]
    rw [if_pos rfl]
    exact ⟨⟨fun _ => ⟨_, rfl⟩, fun _ => ⟨_, rfl⟩⟩, fun x hx => absurd hx (by simp)⟩

/-- C76: `max` and `min` return exactly for an array with an element; otherwise `ValueError`. -/
theorem C76_extremum_returns_partial (hw : Reachable h w) (a : UQ K) (ax : Axis) (ha : UQ.Built w a) :
    (Returns (a.max w ax) ↔ ∃ i, NDArr.InB a.val.mag.shape i) ∧
    (Returns (a.min w ax) ↔ ∃ i, NDArr.InB a.val.mag.shape i) ∧
    (∀ e, a.max w ax = .error e ∨ a.min w ax = .error e → e = .valueError) := by
  have hao := ha.ok hw.wf
  have hex : (∃ i, NDArr.InB a.val.mag.shape i) ↔ a.val.mag.size ≠ 0 := by
    rw [← NDArr.toList_length]
    unfold NDArr.toList
    rw [List.length_map, ← Nat.pos_iff_ne_zero, List.length_pos_iff_exists_mem]
    simp only [NDArr.mem_indices]
  have key : ∀ lt : K → K → Bool, (∀ x y z, lt x y = true → lt y z = true → lt x z = true) →
      (∀ x, lt x x = false) → (Returns (UQ.best lt w a) ↔ a.val.mag.size ≠ 0) ∧
      (∀ e, UQ.best lt w a = .error e → e = .valueError) := by
    intro lt htrans hirr
    unfold UQ.best NDArr.argreduce
    simp only
    by_cases hz : a.val.mag.size = 0
    · rw [if_pos hz]
      simp only [except_bind_error]
      exact ⟨⟨fun hr => absurd hr (not_returns_error _), fun hr => absurd hz hr⟩,
        fun e he => (Except.error.inj he).symm⟩
    · rw [if_neg hz]
      simp only [except_bind_ok, NDArr.scalar]
      have hne : a.val.mag.toList ≠ [] := by
        intro h0
        have := NDArr.toList_length a.val.mag
        rw [h0] at this; simp at this; exact hz this.symm
      obtain ⟨x, hx1, hx2⟩ := NDArr.argbest_spec htrans hirr hne
      have hx1' := hx1
      unfold NDArr.toList at hx1'
      rw [List.getElem?_map, Option.map_eq_some_iff] at hx1'
      obtain ⟨i, hi, -⟩ := hx1'
      unfold NDArr.toList
      rw [hi]
      simp only
      have hg := (uq_getitem_spec hao (fun _ => .ok ([], fun _ => i))).1
      rcases hh : a.getitem w (fun _ => .ok ([], fun _ => i)) with e | r
      · exact absurd ((hg e).1 hh) (by simp)
      · exact ⟨⟨fun _ => hz, fun _ => ⟨_, rfl⟩⟩, fun e he => absurd he (by simp)⟩
  have k1 := key (fun x y => decide (x < y))
    (fun x y z h1 h2 => by simp only [decide_eq_true_eq] at *; exact h1.trans h2) (fun x => by simp)
  have k2 := key (fun x y => decide (y < x))
    (fun x y z h1 h2 => by simp only [decide_eq_true_eq] at *; exact h2.trans h1) (fun x => by simp)
  exact ⟨k1.1.trans hex.symm, k2.1.trans hex.symm, fun e he => he.elim (k1.2 e) (k2.2 e)⟩

/-- C77: `exact - uncertain` returns exactly for compatible units and broadcastable shapes; otherwise
`ValueError`. -/
theorem C77_exact_minus_returns_partial (hw : Reachable h w) (a : UQ K) (o : Operand K)
    (ha : UQ.Built w a) (ho : DimOK w o.dim) (hs : HashSafe w o.dim a.val.dim) :
    (Returns (a.rsub w (.plain o)) ↔ Compatible w o.dim a.val.dim ∧
      (NDArr.bshape o.arr.shape a.val.mag.shape).isSome) ∧
    (∀ e, a.rsub w (.plain o) = .error e → e = .valueError) := by
  have hao := ha.ok hw.wf
  have hsp := scaleOther_spec hw.wf hao.vdim ho hs
  unfold UQ.rsub
  rcases hx : Quantity.scaleOther w a.val o with e | q
  · rw [hx] at hsp
    have hy : a.scaleOther w (.plain o) = .error e := by unfold UQ.scaleOther; simp only [hx]
    rw [hy]
    simp only [except_bind_error]
    refine ⟨⟨fun hr => absurd hr (not_returns_error _), fun hr => ?_⟩, fun x hx => ?_⟩
    · exact absurd (hsp.1.2 hr.1) (not_returns_error _)
    · exact (Except.error.inj hx) ▸ hsp.2.1 e rfl
  · rw [hx] at hsp
    obtain ⟨q2, q1, q3, -⟩ := hsp.2.2 q rfl
    have hc := hsp.1.1 ⟨_, rfl⟩
    have hy : a.scaleOther w (.plain o) = .ok (.plain (.quantity q)) := by
      unfold UQ.scaleOther; simp only [hx]
    rw [hy]
    simp only [except_bind_ok, new_exact]
    have hb : (⟨q, UQ.zeroUnc q.mag q.dim⟩ : UQ K).OK w := ⟨q1, q1, SameContent.refl _, rfl⟩
    have hsq : HashSafe w a.val.dim q.dim := HashSafe.of_same hw.wf hao.vdim q1 q2.symm
    obtain ⟨h1, h2, -⟩ := uq_sumLike hw.wf hb hao hsq (fun x y => x - y) (fun s x y => by ring)
      IsDifference (fun x y z => Iff.rfl) Quantity.sub sub_deq
      (UQ.sub w ⟨q, UQ.zeroUnc q.mag q.dim⟩ (.uq a)) rfl
    refine ⟨?_, h2⟩
    rw [h1, q3]
    exact ⟨fun hr => ⟨hc, hr.2⟩, fun hr =>
      ⟨compatible_of_same hao.vdim.canon.nodup q1.canon.nodup q2.symm, hr.2⟩⟩

/-- The conditions are met by concrete arguments: the mean and the extrema of a measurement, `1 / x`,
`x ** 2` and `1 km - x`. -/
example : Returns (exUM.mean exWorld .all) ∧ Returns (exUM.max exWorld .all) ∧
    Returns (exUM.rtruediv exWorld (.array (NDArr.scalar 1))) ∧
    Returns (exUM.pow exWorld (expOf 2)) ∧
    Returns (exUM.rsub exWorld (.plain (.quantity ⟨NDArr.scalar 1, dKm⟩))) := by
  refine ⟨(C39_average_returns exWorld_reachable _ _ exUM_built).2 ⟨⟨_, rfl⟩, by simp⟩,
    (C76_extremum_returns_partial exWorld_reachable _ _ exUM_built).1.2 ⟨[], .nil⟩,
    (C39_exact_over_returns exWorld_reachable _ _ exUM_built (DimOK.nil _)).1.2 (by decide),
    (C75_power_returns_partial exWorld_reachable _ _ exUM_built).1.2
      ⟨by simp [expOf], ⟨[], 2, .nil, rfl, fun i _ => rfl⟩, by decide⟩,
    (C77_exact_minus_returns_partial exWorld_reachable exUM (.quantity ⟨NDArr.scalar 1, dKm⟩)
      exUM_built (ex_dimOK dKm (by simp)) ex_safe_km_m).1.2 ⟨ex_compat, by decide⟩⟩

end PQ
