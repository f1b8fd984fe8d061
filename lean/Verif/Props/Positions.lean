import Verif.Lemmas.Positions
import Verif.Props.UncertainNan
import Verif.Props.Reductions
import Verif.Props.UncertainReturns

/-!
# C123, C124: the positions of the extremes
-/

namespace PQ

open NDArr

variable {K : Type _}

section
variable {lt : K → K → Bool}

/-- `lt y x`: `x` beats `y`. -/
private def Beats (lt : K → K → Bool) (x y : K) : Prop := lt y x = true

private theorem toList_rowMajor (a : NDArr K) {i : List Nat} (hi : InB a.shape i) :
    a.toList[rowMajor a.shape i]? = some (a.elem i) := by
  unfold toList
  rw [List.getElem?_map, indices_rowMajor hi]; rfl

private theorem toList_ne_nil {a : NDArr K} (h : a.size ≠ 0) : a.toList ≠ [] := by
  intro h0
  have := toList_length a
  rw [h0] at this; simp at this; exact h this.symm

private theorem argreduce_all (htrans : ∀ x y z, lt x y = true → lt y z = true → lt x z = true)
    (hirr : ∀ x, lt x x = false) (hco : ∀ x y z, lt x y = false → lt x z = true → lt y z = true)
    {a : NDArr K} (h : a.size ≠ 0) :
    ∃ p i, a.argreduce lt .all = .ok p ∧ p.shape = [] ∧ p.elem [] = argbest lt a.toList ∧
      (indices a.shape)[p.elem []]? = some i ∧ FirstBest (Beats lt) a (p.elem []) i := by
  obtain ⟨x, h1, h2, h3⟩ := argbest_first htrans hirr hco (toList_ne_nil h)
  have h1' := h1
  unfold toList at h1'
  rw [List.getElem?_map] at h1'
  obtain ⟨i, hi, rfl⟩ := Option.map_eq_some_iff.1 h1'
  change (indices a.shape)[argbest lt a.toList]? = some i at hi
  obtain ⟨g1, g2⟩ := rowMajor_of_getElem? hi
  refine ⟨scalar (argbest lt a.toList), i, ?_, rfl, rfl, hi, g1, g2, fun j hj => ?_, fun j hj hlt => ?_⟩
  · unfold argreduce; simp only; rw [if_neg h]
  · have := h2 _ (mem_toList.2 ⟨j, hj, rfl⟩)
    simp only [Beats, this]; simp
  · exact h3 _ _ hlt (toList_rowMajor a hj)

private theorem line_ne_nil {α : Type _} {f : Nat → α} {n : Nat} (h : n ≠ 0) : (List.range n).map f ≠ [] := by
  intro h0
  have := congrArg List.length h0
  simp at this; exact h this

private theorem argreduce_one (htrans : ∀ x y z, lt x y = true → lt y z = true → lt x z = true)
    (hirr : ∀ x, lt x x = false) (hco : ∀ x y z, lt x y = false → lt x z = true → lt y z = true)
    {a : NDArr K} {n : Nat} {ax : Int} (hn : n < a.shape.length) (hax : ax = n ∨ ax = (n : Int) - a.shape.length)
    (h : a.shape[n] ≠ 0) :
    ∃ p, a.argreduce lt (.one ax) = .ok p ∧ p.shape = a.shape.eraseIdx n ∧
      ∀ i, InB (a.shape.eraseIdx n) i → FirstBestOnLine (Beats lt) a n a.shape[n] i (p.elem i) := by
  have ha : normAxis a.shape.length ax = .ok n := normAxis_ok.2 ⟨hn, hax⟩
  have hm := reduceMask_one (argbest lt) (a := a) hn
  refine ⟨_, ?_, hm.1, fun i hi => ?_⟩
  · unfold argreduce reduceNE
    simp only [axisMask, ha]
    rw [if_neg]
    rw [pick_false_onehot hn]
    rintro ⟨h1, h2⟩
    have : a.shape.prod = a.shape[n] * (a.shape.eraseIdx n).prod := by
      rw [← List.prod_take_mul_prod_drop (a.shape) n, List.drop_eq_getElem_cons hn, List.prod_cons,
        List.eraseIdx_eq_take_drop_succ, List.prod_append]
      ring
    exact (Nat.mul_ne_zero h h2) (this.symm.trans h1)
  · rw [hm.2 i hi]
    obtain ⟨x, h1, h2, h3⟩ := argbest_first htrans hirr hco
      (line_ne_nil (f := fun j => a.elem (i.insertIdx n j)) h)
    have hp : argbest lt ((List.range a.shape[n]).map (fun j => a.elem (i.insertIdx n j))) < a.shape[n] := by
      by_contra hc
      rw [List.getElem?_eq_none (by simpa using hc)] at h1; simp at h1
    rw [List.getElem?_map, List.getElem?_range hp] at h1
    simp only [Option.map_some, Option.some.injEq] at h1
    refine ⟨hp, fun j hj => ?_, fun j hj => ?_⟩
    · have := h2 _ (List.mem_map.2 ⟨j, List.mem_range.2 hj, rfl⟩)
      simp only [Beats, h1, this]; simp
    · have := h3 j (a.elem (i.insertIdx n j)) hj
        (by rw [List.getElem?_map, List.getElem?_range (by omega)]; rfl)
      simpa only [Beats, h1] using this

end

variable [Field K] [LinearOrder K] [IsStrictOrderedRing K] [RPow K] [LawfulRPow K]
variable {h : Hasher} {w : World K}

omit [IsStrictOrderedRing K] [RPow K] [LawfulRPow K] [Field K] in
private theorem lt_rules :
    (∀ x y z : K, decide (x < y) = true → decide (y < z) = true → decide (x < z) = true) ∧
    (∀ x : K, decide (x < x) = false) ∧
    (∀ x y z : K, decide (x < y) = false → decide (x < z) = true → decide (y < z) = true) := by
  refine ⟨fun x y z h1 h2 => ?_, fun x => by simp, fun x y z h1 h2 => ?_⟩
  · simp only [decide_eq_true_eq] at *; exact h1.trans h2
  · simp only [decide_eq_true_eq, decide_eq_false_iff_not, not_lt] at *; exact lt_of_le_of_lt h1 h2

omit [IsStrictOrderedRing K] [RPow K] [LawfulRPow K] [Field K] in
private theorem gt_rules :
    (∀ x y z : K, decide (y < x) = true → decide (z < y) = true → decide (z < x) = true) ∧
    (∀ x : K, decide (x < x) = false) ∧
    (∀ x y z : K, decide (y < x) = false → decide (z < x) = true → decide (z < y) = true) := by
  refine ⟨fun x y z h1 h2 => ?_, fun x => by simp, fun x y z h1 h2 => ?_⟩
  · simp only [decide_eq_true_eq] at *; exact h2.trans h1
  · simp only [decide_eq_true_eq, decide_eq_false_iff_not, not_lt] at *; exact lt_of_lt_of_le h2 h1

omit [IsStrictOrderedRing K] [RPow K] [LawfulRPow K] [Field K] in
private theorem size_ne_zero {a : NDArr K} : a.size ≠ 0 ↔ ∃ i, InB a.shape i := by
  rw [← toList_length]
  unfold toList
  rw [List.length_map, ← Nat.pos_iff_ne_zero, List.length_pos_iff_exists_mem]
  simp only [mem_indices]

omit [IsStrictOrderedRing K] [RPow K] [LawfulRPow K] [Field K] in
private theorem firstBest_gt {a : NDArr K} {p : Nat} {i : List Nat}
    (hf : FirstBest (Beats fun x y => decide (x < y)) a p i) : FirstBest (· > ·) a p i := by
  obtain ⟨h1, h2, h3, h4⟩ := hf
  refine ⟨h1, h2, fun j hj => ?_, fun j hj hl => ?_⟩
  · have := h3 j hj; simpa [Beats] using this
  · have := h4 j hj hl; simpa [Beats] using this

omit [IsStrictOrderedRing K] [RPow K] [LawfulRPow K] [Field K] in
private theorem firstBest_lt {a : NDArr K} {p : Nat} {i : List Nat}
    (hf : FirstBest (Beats fun x y => decide (y < x)) a p i) : FirstBest (· < ·) a p i := by
  obtain ⟨h1, h2, h3, h4⟩ := hf
  refine ⟨h1, h2, fun j hj => ?_, fun j hj hl => ?_⟩
  · have := h3 j hj; simpa [Beats] using this
  · have := h4 j hj hl; simpa [Beats] using this

omit [IsStrictOrderedRing K] [RPow K] [LawfulRPow K] in
private theorem reduceNE_all {f : List K → K} {q : NDArr K} (hq : q.size ≠ 0) :
    ∃ m, q.reduceNE f .all = .ok m ∧ m.shape = [] ∧ m.elem [] = f q.toList := by
  refine ⟨reduceMask f (List.replicate q.shape.length true) q, ?_, ?_, ?_⟩
  · unfold reduceNE
    simp only [axisMask]
    rw [if_neg (by rintro ⟨h1, -⟩; exact hq h1)]
  · exact pick_false_replicate _
  · simp only [reduceMask]
    rw [pick_true_replicate]
    unfold toList
    congr 1
    apply List.map_congr_left
    intro i hi
    congr 1
    have hl : i.length = q.shape.length := (mem_indices.1 hi).length
    rw [← hl]
    clear hl hi
    induction i with
    | nil => rfl
    | cons j i ih => simp only [List.length_cons, List.replicate_succ, merge, ih]

omit [IsStrictOrderedRing K] [LawfulRPow K] [RPow K] in
/-- C123: `q.argmax()` is the row-major number of the first largest element, and `q.max()` is that
element, in the units of `q`; both raise `ValueError` exactly if `q` has no element. -/
theorem C123_argmax (q : Quantity K) :
    ((∃ i, InB q.mag.shape i) → ∃ p i m, q.argmax .all = .ok p ∧ p.shape = [] ∧
      FirstBest (· > ·) q.mag (p.elem []) i ∧
      q.max .all = .ok m ∧ m.dim = q.dim ∧ m.mag.shape = [] ∧ m.mag.elem [] = q.mag.elem i) ∧
    ((¬ ∃ i, InB q.mag.shape i) → q.argmax .all = .error .valueError ∧ q.max .all = .error .valueError) := by
  refine ⟨fun hi => ?_, fun hi => ?_⟩
  · have hz := size_ne_zero.2 hi
    obtain ⟨p, i, h1, h2, h3, h4, h5⟩ := argreduce_all (lt := fun x y : K => decide (x < y)) lt_rules.1 lt_rules.2.1
      lt_rules.2.2 hz
    obtain ⟨m, g1, g2, g3⟩ := reduceNE_all (f := lmax) hz
    refine ⟨p, i, ⟨m, q.dim⟩, h1, h2, firstBest_gt h5, ?_, rfl, g2, ?_⟩
    · simp only [Quantity.max, g1, attach, Except.map]
    · have hs := lmax_spec (toList_ne_nil hz)
      obtain ⟨j, hj, hjx⟩ := mem_toList.1 hs.1
      obtain ⟨k1, -, k3, -⟩ := firstBest_gt h5
      apply le_antisymm
      · rw [g3, ← hjx]
        have := k3 j hj
        simpa using this
      · rw [g3]; exact hs.2 _ (mem_toList.2 ⟨i, k1, rfl⟩)
  · have hz : q.mag.size = 0 := by
      by_contra hc; exact hi (size_ne_zero.1 hc)
    refine ⟨?_, ?_⟩
    · unfold Quantity.argmax argreduce; simp only; rw [if_pos hz]
    · unfold Quantity.max reduceNE
      simp only [axisMask]
      rw [pick_false_replicate, if_pos ⟨hz, by simp⟩]; rfl

omit [IsStrictOrderedRing K] [LawfulRPow K] [RPow K] in
/-- C123: `q.argmin()` and `q.min()`. -/
theorem C123_argmin (q : Quantity K) :
    ((∃ i, InB q.mag.shape i) → ∃ p i m, q.argmin .all = .ok p ∧ p.shape = [] ∧
      FirstBest (· < ·) q.mag (p.elem []) i ∧
      q.min .all = .ok m ∧ m.dim = q.dim ∧ m.mag.shape = [] ∧ m.mag.elem [] = q.mag.elem i) ∧
    ((¬ ∃ i, InB q.mag.shape i) → q.argmin .all = .error .valueError ∧ q.min .all = .error .valueError) := by
  refine ⟨fun hi => ?_, fun hi => ?_⟩
  · have hz := size_ne_zero.2 hi
    obtain ⟨p, i, h1, h2, h3, h4, h5⟩ := argreduce_all (lt := fun x y : K => decide (y < x)) gt_rules.1 gt_rules.2.1
      gt_rules.2.2 hz
    obtain ⟨m, g1, g2, g3⟩ := reduceNE_all (f := lmin) hz
    refine ⟨p, i, ⟨m, q.dim⟩, h1, h2, firstBest_lt h5, ?_, rfl, g2, ?_⟩
    · simp only [Quantity.min, g1, attach, Except.map]
    · have hs := lmin_spec (toList_ne_nil hz)
      obtain ⟨j, hj, hjx⟩ := mem_toList.1 hs.1
      obtain ⟨k1, -, k3, -⟩ := firstBest_lt h5
      apply le_antisymm
      · rw [g3]; exact hs.2 _ (mem_toList.2 ⟨i, k1, rfl⟩)
      · rw [g3, ← hjx]
        have := k3 j hj
        simpa using this
  · have hz : q.mag.size = 0 := by
      by_contra hc; exact hi (size_ne_zero.1 hc)
    refine ⟨?_, ?_⟩
    · unfold Quantity.argmin argreduce; simp only; rw [if_pos hz]
    · unfold Quantity.min reduceNE
      simp only [axisMask]
      rw [pick_false_replicate, if_pos ⟨hz, by simp⟩]; rfl

omit [IsStrictOrderedRing K] [RPow K] [LawfulRPow K] in
private theorem reduceNE_one {f : List K → K} {a : NDArr K} {n : Nat} {ax : Int} (hn : n < a.shape.length)
    (hax : ax = n ∨ ax = (n : Int) - a.shape.length) (h : a.shape[n] ≠ 0) :
    ∃ m, a.reduceNE f (.one ax) = .ok m ∧ m.shape = a.shape.eraseIdx n ∧
      ∀ i, InB (a.shape.eraseIdx n) i → m.elem i = f ((List.range a.shape[n]).map (fun j => a.elem (i.insertIdx n j))) := by
  have ha : normAxis a.shape.length ax = .ok n := normAxis_ok.2 ⟨hn, hax⟩
  have hm := reduceMask_one f (a := a) hn
  refine ⟨_, ?_, hm.1, hm.2⟩
  unfold reduceNE
  simp only [axisMask, ha]
  rw [if_neg]
  rw [pick_false_onehot hn]
  rintro ⟨h1, h2⟩
  have : a.shape.prod = a.shape[n] * (a.shape.eraseIdx n).prod := by
    rw [← List.prod_take_mul_prod_drop (a.shape) n, List.drop_eq_getElem_cons hn, List.prod_cons,
      List.eraseIdx_eq_take_drop_succ, List.prod_append]
    ring
  exact (Nat.mul_ne_zero h h2) (this.symm.trans h1)

omit [IsStrictOrderedRing K] [LawfulRPow K] [RPow K] in
/-- C123: `q.argmax(axis)` and `q.max(axis)` for an axis that is not empty (negative numbers count from
the end): on every line along the axis, the position of the first largest element, and that element. -/
theorem C123_argmax_axis (q : Quantity K) (n : Nat) (ax : Int) (hn : n < q.mag.shape.length)
    (hax : ax = n ∨ ax = (n : Int) - q.mag.shape.length) (hne : q.mag.shape[n] ≠ 0) :
    ∃ p m, q.argmax (.one ax) = .ok p ∧ q.max (.one ax) = .ok m ∧ m.dim = q.dim ∧
      p.shape = q.mag.shape.eraseIdx n ∧ m.mag.shape = q.mag.shape.eraseIdx n ∧
      ∀ i, InB (q.mag.shape.eraseIdx n) i →
        FirstBestOnLine (· > ·) q.mag n q.mag.shape[n] i (p.elem i) ∧
        m.mag.elem i = q.mag.elem (i.insertIdx n (p.elem i)) := by
  obtain ⟨p, h1, h2, h3⟩ := argreduce_one (lt := fun x y : K => decide (x < y)) lt_rules.1 lt_rules.2.1
    lt_rules.2.2 hn hax hne
  obtain ⟨m, g1, g2, g3⟩ := reduceNE_one (f := lmax) hn hax hne
  refine ⟨p, ⟨m, q.dim⟩, h1, by simp only [Quantity.max, g1, attach, Except.map], rfl, h2, g2, fun i hi => ?_⟩
  obtain ⟨k1, k2, k3⟩ := h3 i hi
  have k2' : ∀ j < q.mag.shape[n], q.mag.elem (i.insertIdx n j) ≤ q.mag.elem (i.insertIdx n (p.elem i)) := by
    intro j hj; simpa [Beats] using k2 j hj
  refine ⟨⟨k1, fun j hj => not_lt.2 (k2' j hj), fun j hj => by simpa [Beats] using k3 j hj⟩, ?_⟩
  simp only [g3 i hi]
  have hs := lmax_spec (line_ne_nil (f := fun j => q.mag.elem (i.insertIdx n j)) hne)
  obtain ⟨j, hj, hjx⟩ := List.mem_map.1 hs.1
  apply le_antisymm
  · rw [← hjx]; exact k2' j (List.mem_range.1 hj)
  · exact hs.2 _ (List.mem_map.2 ⟨_, List.mem_range.2 k1, rfl⟩)

omit [IsStrictOrderedRing K] [LawfulRPow K] [RPow K] in
/-- C123: `q.argmin(axis)` and `q.min(axis)`. -/
theorem C123_argmin_axis (q : Quantity K) (n : Nat) (ax : Int) (hn : n < q.mag.shape.length)
    (hax : ax = n ∨ ax = (n : Int) - q.mag.shape.length) (hne : q.mag.shape[n] ≠ 0) :
    ∃ p m, q.argmin (.one ax) = .ok p ∧ q.min (.one ax) = .ok m ∧ m.dim = q.dim ∧
      p.shape = q.mag.shape.eraseIdx n ∧ m.mag.shape = q.mag.shape.eraseIdx n ∧
      ∀ i, InB (q.mag.shape.eraseIdx n) i →
        FirstBestOnLine (· < ·) q.mag n q.mag.shape[n] i (p.elem i) ∧
        m.mag.elem i = q.mag.elem (i.insertIdx n (p.elem i)) := by
  obtain ⟨p, h1, h2, h3⟩ := argreduce_one (lt := fun x y : K => decide (y < x)) gt_rules.1 gt_rules.2.1
    gt_rules.2.2 hn hax hne
  obtain ⟨m, g1, g2, g3⟩ := reduceNE_one (f := lmin) hn hax hne
  refine ⟨p, ⟨m, q.dim⟩, h1, by simp only [Quantity.min, g1, attach, Except.map], rfl, h2, g2, fun i hi => ?_⟩
  obtain ⟨k1, k2, k3⟩ := h3 i hi
  have k2' : ∀ j < q.mag.shape[n], q.mag.elem (i.insertIdx n (p.elem i)) ≤ q.mag.elem (i.insertIdx n j) := by
    intro j hj; simpa [Beats] using k2 j hj
  refine ⟨⟨k1, fun j hj => not_lt.2 (k2' j hj), fun j hj => by simpa [Beats] using k3 j hj⟩, ?_⟩
  simp only [g3 i hi]
  have hs := lmin_spec (line_ne_nil (f := fun j => q.mag.elem (i.insertIdx n j)) hne)
  obtain ⟨j, hj, hjx⟩ := List.mem_map.1 hs.1
  apply le_antisymm
  · exact hs.2 _ (List.mem_map.2 ⟨_, List.mem_range.2 k1, rfl⟩)
  · rw [← hjx]; exact k2' j (List.mem_range.1 hj)

/-- The 2x2 array (1, 2; 3, 4) km meets the hypotheses: its largest element is number 3. -/
example : (∃ p, exMat.argmax .all = .ok p ∧ p.elem [] = 3) ∧
    (∃ p, exMat.argmax (.one (-1)) = .ok p ∧ p.shape = [2] ∧ p.elem [0] = 1) := by
  refine ⟨?_, ?_⟩
  · obtain ⟨p, i, m, h1, -, ⟨h3, h4, h5, -⟩, -⟩ := (C123_argmax exMat).1 ⟨[0, 0], .cons (by decide) (.cons (by decide) .nil)⟩
    refine ⟨p, h1, ?_⟩
    have h := h5 [1, 1] (.cons (by decide) (.cons (by decide) .nil))
    rw [← h4]
    have hm : i ∈ indices [2, 2] := mem_indices.2 h3
    have hi : indices [2, 2] = [[0, 0], [0, 1], [1, 0], [1, 1]] := by decide
    rw [hi] at hm
    simp only [List.mem_cons, List.not_mem_nil, or_false] at hm
    rcases hm with rfl | rfl | rfl | rfl <;> simp [exMat, rowMajor] at h ⊢ <;> norm_num at h
  · obtain ⟨p, m, h1, -, -, h4, -, h6⟩ := C123_argmax_axis exMat 1 (-1) (by decide) (by decide) (by decide)
    refine ⟨p, h1, h4, ?_⟩
    obtain ⟨⟨a1, a2, -⟩, -⟩ := h6 [0] (.cons (by decide) .nil)
    have h := a2 1 (by decide)
    have : p.elem [0] < 2 := a1
    have h01 : p.elem [0] = 0 ∨ p.elem [0] = 1 := by omega
    rcases h01 with h01 | h01
    · rw [h01] at h; simp [exMat] at h
    · exact h01

/-! ## C124: uncertain quantities -/

/-- C124, `argmax()` of an uncertain quantity: the number of the first measurement with the largest
value; `max()` is that measurement, with its uncertainty. -/
theorem C124_argmax_partial (hw : Reachable h w) (a : UQ K) (ha : UQ.Built w a) :
    ((∃ i, InB a.val.mag.shape i) → ∃ p i m, a.argmax .all = .ok p ∧ p.shape = [] ∧
      FirstBest (· > ·) a.val.mag (p.elem []) i ∧ a.max w .all = .ok m ∧ m.val.mag.shape = [] ∧
      ∀ v : Valuation w, (v.meas m).elem [] = (v.meas a).elem i) ∧
    ((¬ ∃ i, InB a.val.mag.shape i) → a.argmax .all = .error .valueError ∧ a.max w .all = .error .valueError) := by
  refine ⟨fun hi => ?_, fun hi => ?_⟩
  · have hz := size_ne_zero.2 hi
    obtain ⟨p, i, h1, h2, h3, h4, h5⟩ := argreduce_all (lt := fun x y : K => decide (x < y)) lt_rules.1 lt_rules.2.1
      lt_rules.2.2 hz
    obtain ⟨m, hm⟩ := (C76_extremum_returns_partial hw a .all ha).1.2 hi
    refine ⟨p, i, m, h1, h2, firstBest_gt h5, hm, ?_⟩
    have hm' := hm
    unfold UQ.max UQ.best at hm
    rw [h1, except_bind_ok] at hm
    simp only [h4] at hm
    have hao := ha.ok hw.wf
    refine ⟨(uq_best_spec hao _ lt_rules.1 lt_rules.2.1 hm').2.2.1, fun v => ?_⟩
    have := ((uq_getitem_spec hao _).2 m hm).2.2 v
    simp only [NDArr.select, Except.ok.injEq] at this
    rw [← this]
  · have hz : a.val.mag.size = 0 := by
      by_contra hc; exact hi (size_ne_zero.1 hc)
    have h1 : a.val.mag.argreduce (fun x y => decide (x < y)) .all = .error .valueError := by
      unfold argreduce; simp only; rw [if_pos hz]
    refine ⟨h1, ?_⟩
    unfold UQ.max UQ.best
    rw [h1]; rfl

/-- C124, `argmin()` and `min()` of an uncertain quantity. -/
theorem C124_argmin_partial (hw : Reachable h w) (a : UQ K) (ha : UQ.Built w a) :
    ((∃ i, InB a.val.mag.shape i) → ∃ p i m, a.argmin .all = .ok p ∧ p.shape = [] ∧
      FirstBest (· < ·) a.val.mag (p.elem []) i ∧ a.min w .all = .ok m ∧ m.val.mag.shape = [] ∧
      ∀ v : Valuation w, (v.meas m).elem [] = (v.meas a).elem i) ∧
    ((¬ ∃ i, InB a.val.mag.shape i) → a.argmin .all = .error .valueError ∧ a.min w .all = .error .valueError) := by
  refine ⟨fun hi => ?_, fun hi => ?_⟩
  · have hz := size_ne_zero.2 hi
    obtain ⟨p, i, h1, h2, h3, h4, h5⟩ := argreduce_all (lt := fun x y : K => decide (y < x)) gt_rules.1 gt_rules.2.1
      gt_rules.2.2 hz
    obtain ⟨m, hm⟩ := (C76_extremum_returns_partial hw a .all ha).2.1.2 hi
    refine ⟨p, i, m, h1, h2, firstBest_lt h5, hm, ?_⟩
    have hm' := hm
    unfold UQ.min UQ.best at hm
    rw [h1, except_bind_ok] at hm
    simp only [h4] at hm
    have hao := ha.ok hw.wf
    refine ⟨(uq_best_spec hao _ gt_rules.1 gt_rules.2.1 hm').2.2.1, fun v => ?_⟩
    have := ((uq_getitem_spec hao _).2 m hm).2.2 v
    simp only [NDArr.select, Except.ok.injEq] at this
    rw [← this]
  · have hz : a.val.mag.size = 0 := by
      by_contra hc; exact hi (size_ne_zero.1 hc)
    have h1 : a.val.mag.argreduce (fun x y => decide (y < x)) .all = .error .valueError := by
      unfold argreduce; simp only; rw [if_pos hz]
    refine ⟨h1, ?_⟩
    unfold UQ.min UQ.best
    rw [h1]; rfl

omit [IsStrictOrderedRing K] [LawfulRPow K] [RPow K] in
/-- C124 with an axis is false: for an array of at least one axis whose lines are not empty, `argmax` and
`argmin` along an axis return one number instead of one for each line, unless there is just one line. -/
theorem C124_axis_false (a : UQ K) (n : Nat) (hn : n < a.val.mag.shape.length)
    (hi : ∃ i, InB a.val.mag.shape i) (h1 : a.val.mag.shape.length ≠ 1) :
    (∃ p q, a.argmax (.one n) = .ok p ∧ a.val.argmax (.one n) = .ok q ∧ p.shape ≠ q.shape) ∧
    (∃ p q, a.argmin (.one n) = .ok p ∧ a.val.argmin (.one n) = .ok q ∧ p.shape ≠ q.shape) := by
  have hz := size_ne_zero.2 hi
  have hne : a.val.mag.shape[n] ≠ 0 := by
    intro h0
    exact hz (List.prod_eq_zero (h0 ▸ List.getElem_mem hn))
  have hs : ([] : List Nat) ≠ a.val.mag.shape.eraseIdx n := by
    intro h0
    have := congrArg List.length h0
    rw [List.length_eraseIdx, if_pos hn] at this
    simp at this; omega
  refine ⟨?_, ?_⟩
  · obtain ⟨p, i, k1, k2, -⟩ := argreduce_all (lt := fun x y : K => decide (x < y)) lt_rules.1 lt_rules.2.1
      lt_rules.2.2 hz
    obtain ⟨q, m, g1, -, -, g2, -⟩ := C123_argmax_axis a.val n n hn (.inl rfl) hne
    exact ⟨p, q, k1, g1, by rw [k2, g2]; exact hs⟩
  · obtain ⟨p, i, k1, k2, -⟩ := argreduce_all (lt := fun x y : K => decide (y < x)) gt_rules.1 gt_rules.2.1
      gt_rules.2.2 hz
    obtain ⟨q, m, g1, -, -, g2, -⟩ := C123_argmin_axis a.val n n hn (.inl rfl) hne
    exact ⟨p, q, k1, g1, by rw [k2, g2]; exact hs⟩

/-! ### missing values -/

omit [Field K] [IsStrictOrderedRing K] [RPow K] [LawfulRPow K] [LinearOrder K] in
private theorem nanArgbest_first {lt : K → K → Bool}
    (htrans : ∀ x y z, lt x y = true → lt y z = true → lt x z = true) (hirr : ∀ x, lt x x = false)
    (hco : ∀ x y z, lt x y = false → lt x z = true → lt y z = true) {l : List (Option K)} {n : Nat}
    (hn : nanArgbest lt l = some n) :
    ∃ x, l[n]? = some (some x) ∧ (∀ y, some y ∈ l → lt x y = false) ∧
      ∀ j y, j < n → l[j]? = some (some y) → lt y x = true := by
  unfold nanArgbest at hn
  simp only at hn
  generalize hps : l.zipIdx.filterMap (fun p => p.1.map (fun x => (x, p.2))) = ps at hn
  have hpw : ps.Pairwise (fun a b => a.2 < b.2) := by
    subst hps
    refine List.Pairwise.filterMap (R := fun a b => a.2 < b.2) _ ?_ ?_
    · rintro ⟨a, i⟩ ⟨b, j⟩ hab c hc d hd
      obtain ⟨x, -, rfl⟩ := Option.map_eq_some_iff.1 hc
      obtain ⟨y, -, rfl⟩ := Option.map_eq_some_iff.1 hd
      exact hab
    · rw [List.pairwise_iff_getElem]
      intro i j hi hj hij
      simp only [List.getElem_zipIdx]
      omega
  have hne : ps ≠ [] := by
    intro h0; subst h0; simp at hn
  obtain ⟨x, h1, h2, h3⟩ := argbest_first htrans hirr hco (l := ps.map Prod.fst) (by rwa [ne_eq, List.map_eq_nil_iff])
  rw [List.getElem?_map] at h1
  obtain ⟨⟨x', k⟩, hk1, hk2⟩ := Option.map_eq_some_iff.1 h1
  simp only at hk2; subst hk2
  rw [hk1] at hn
  simp only [Option.map_some, Option.some.injEq] at hn; subst hn
  have hmem := List.mem_of_getElem? hk1
  rw [← hps] at hmem
  refine ⟨x', zipIdx_filterMap_mem hmem, fun y hy => ?_, fun j y hj hy => ?_⟩
  · obtain ⟨j, hj⟩ := List.mem_iff_getElem?.1 hy
    have := mem_zipIdx_filterMap hj
    rw [hps] at this
    exact h2 y (List.mem_map.2 ⟨_, this, rfl⟩)
  · have := mem_zipIdx_filterMap hy
    rw [hps] at this
    obtain ⟨j', hj'⟩ := List.mem_iff_getElem?.1 this
    refine h3 j' y ?_ (by rw [List.getElem?_map, hj']; rfl)
    by_contra hc
    obtain ⟨b1, b2⟩ := List.getElem?_eq_some_iff.1 hj'
    obtain ⟨c1, c2⟩ := List.getElem?_eq_some_iff.1 hk1
    rcases Nat.lt_or_ge (argbest lt (ps.map Prod.fst)) j' with hlt | hge
    · have := List.pairwise_iff_getElem.1 hpw _ _ c1 b1 hlt
      rw [b2, c2] at this
      simp only at this; omega
    · have he : j' = argbest lt (ps.map Prod.fst) := by omega
      subst he
      rw [b2] at c2
      simp only [Prod.mk.injEq] at c2; omega

omit [Field K] [IsStrictOrderedRing K] [RPow K] [LawfulRPow K] [LinearOrder K] in
private theorem nan_first {lt : K → K → Bool}
    (htrans : ∀ x y z, lt x y = true → lt y z = true → lt x z = true) (hirr : ∀ x, lt x x = false)
    (hco : ∀ x y z, lt x y = false → lt x z = true → lt y z = true) {a : NDArr (Option K)} {n : Nat}
    (hn : nanArgbest lt a.toList = some n) :
    ∃ i, (indices a.shape)[n]? = some i ∧ FirstBestPresent (Beats lt) a n i := by
  obtain ⟨x, h1, h2, h3⟩ := nanArgbest_first htrans hirr hco hn
  have h1' := h1
  unfold toList at h1'
  rw [List.getElem?_map] at h1'
  obtain ⟨i, hi, hix⟩ := Option.map_eq_some_iff.1 h1'
  obtain ⟨g1, g2⟩ := rowMajor_of_getElem? hi
  refine ⟨i, hi, g1, g2, x, hix, fun j y hj hy => ?_, fun j y hj hlt hy => ?_⟩
  · have := h2 y (mem_toList.2 ⟨j, hj, hy⟩)
    simp only [Beats, this]; simp
  · exact h3 _ _ hlt (by rw [toList_rowMajor a hj, hy])

omit [IsStrictOrderedRing K] [LawfulRPow K] in
private theorem nan_best {lt : K → K → Bool}
    (htrans : ∀ x y z, lt x y = true → lt y z = true → lt x z = true) (hirr : ∀ x, lt x x = false)
    (hco : ∀ x y z, lt x y = false → lt x z = true → lt y z = true)
    (a : UQ (Option K)) (hv : DimOK w a.val.dim) (hu : DimOK w a.unc.dim) (hal : a.Aligned) :
    ((∃ i, InB a.val.mag.shape i ∧ a.val.mag.elem i ≠ none) → ∃ n i m,
      nanArgbest lt a.val.mag.toList = some n ∧
      FirstBestPresent (Beats lt) a.val.mag n i ∧ UQ.nanbest lt w a = .ok m ∧ m.val.mag.shape = [] ∧
      ∀ v : Valuation w, (v.measNan m).elem [] = (v.measNan a).elem i) ∧
    ((¬ ∃ i, InB a.val.mag.shape i ∧ a.val.mag.elem i ≠ none) →
      nanArgbest lt a.val.mag.toList = none ∧ UQ.nanbest lt w a = .error .valueError) := by
  refine ⟨fun hi => ?_, fun hi => ?_⟩
  · rcases hn : nanArgbest lt a.val.mag.toList with _ | n
    · obtain ⟨i, h1, h2⟩ := hi
      exact absurd ((nanArgbest_spec htrans hirr _).1.1 hn _ (mem_toList.2 ⟨i, h1, rfl⟩)) h2
    · obtain ⟨i, h1, h2⟩ := nan_first htrans hirr hco hn
      have hd : w.deq a.unc.dim a.val.dim = true := deq_same hu.canon.nodup hv.canon.nodup hal.1
      refine ⟨n, i, ⟨⟨⟨[], fun _ => a.val.mag.elem i⟩, a.val.dim⟩, ⟨⟨[], fun _ => a.unc.mag.elem i⟩, a.val.dim⟩⟩,
        rfl, h2, ?_, rfl, fun v => ?_⟩
      · unfold UQ.nanbest
        rw [hn]
        simp only [h1, UQ.getitemNan, NDArr.select, except_bind_ok, Quantity.rescaleNan, hd, if_true, UQ.ofArrays]
      · simp only [Valuation.measNan]
        rw [show v.size a.unc.dim = v.size a.val.dim from dsize_same v.val hu.canon.nodup hv.canon.nodup hal.1]
  · have hn : nanArgbest lt a.val.mag.toList = none := by
      refine (nanArgbest_spec htrans hirr _).1.2 (fun x hx => ?_)
      obtain ⟨i, h1, rfl⟩ := mem_toList.1 hx
      by_contra hc; exact hi ⟨i, h1, hc⟩
    refine ⟨hn, ?_⟩
    unfold UQ.nanbest; rw [hn]

omit [IsStrictOrderedRing K] [LawfulRPow K] in
/-- C124, `nanargmax()`: the number of the first measurement with the largest value that is present;
`nanmax()` is that measurement. Both raise `ValueError` if every value is missing. -/
theorem C124_nanargmax_partial (a : UQ (Option K)) (hv : DimOK w a.val.dim) (hu : DimOK w a.unc.dim) (hal : a.Aligned) :
    ((∃ i, InB a.val.mag.shape i ∧ a.val.mag.elem i ≠ none) → ∃ p i m, a.nanargmax .all = .ok p ∧ p.shape = [] ∧
      FirstBestPresent (· > ·) a.val.mag (p.elem []) i ∧ a.nanmax w .all = .ok m ∧ m.val.mag.shape = [] ∧
      ∀ v : Valuation w, (v.measNan m).elem [] = (v.measNan a).elem i) ∧
    ((¬ ∃ i, InB a.val.mag.shape i ∧ a.val.mag.elem i ≠ none) →
      a.nanargmax .all = .error .valueError ∧ a.nanmax w .all = .error .valueError) := by
  obtain ⟨k1, k2⟩ := nan_best (lt := fun x y : K => decide (x < y)) lt_rules.1 lt_rules.2.1 lt_rules.2.2 a hv hu hal
  refine ⟨fun hi => ?_, fun hi => ?_⟩
  · obtain ⟨n, i, m, h1, ⟨h2, h3, x, h4, h5, h6⟩, h7, h8, h9⟩ := k1 hi
    refine ⟨scalar n, i, m, by unfold UQ.nanargmax; rw [h1], rfl, ⟨h2, h3, x, h4, fun j y hj hy => ?_, fun j y hj hl hy => ?_⟩,
      h7, h8, h9⟩
    · simpa [Beats] using h5 j y hj hy
    · simpa [Beats] using h6 j y hj hl hy
  · obtain ⟨h1, h2⟩ := k2 hi
    exact ⟨by unfold UQ.nanargmax; rw [h1], h2⟩

omit [IsStrictOrderedRing K] [LawfulRPow K] in
/-- C124, `nanargmin()` and `nanmin()`. -/
theorem C124_nanargmin_partial (a : UQ (Option K)) (hv : DimOK w a.val.dim) (hu : DimOK w a.unc.dim) (hal : a.Aligned) :
    ((∃ i, InB a.val.mag.shape i ∧ a.val.mag.elem i ≠ none) → ∃ p i m, a.nanargmin .all = .ok p ∧ p.shape = [] ∧
      FirstBestPresent (· < ·) a.val.mag (p.elem []) i ∧ a.nanmin w .all = .ok m ∧ m.val.mag.shape = [] ∧
      ∀ v : Valuation w, (v.measNan m).elem [] = (v.measNan a).elem i) ∧
    ((¬ ∃ i, InB a.val.mag.shape i ∧ a.val.mag.elem i ≠ none) →
      a.nanargmin .all = .error .valueError ∧ a.nanmin w .all = .error .valueError) := by
  obtain ⟨k1, k2⟩ := nan_best (lt := fun x y : K => decide (y < x)) gt_rules.1 gt_rules.2.1 gt_rules.2.2 a hv hu hal
  refine ⟨fun hi => ?_, fun hi => ?_⟩
  · obtain ⟨n, i, m, h1, ⟨h2, h3, x, h4, h5, h6⟩, h7, h8, h9⟩ := k1 hi
    refine ⟨scalar n, i, m, by unfold UQ.nanargmin; rw [h1], rfl, ⟨h2, h3, x, h4, fun j y hj hy => ?_, fun j y hj hl hy => ?_⟩,
      h7, h8, h9⟩
    · simpa [Beats] using h5 j y hj hy
    · simpa [Beats] using h6 j y hj hl hy
  · obtain ⟨h1, h2⟩ := k2 hi
    exact ⟨by unfold UQ.nanargmin; rw [h1], h2⟩

/-- `[nan, 1] m`: the largest present value is number 1. -/
example : ∃ p, exNan.nanargmax .all = .ok p ∧ p.elem [] = 1 := by
  have hd : DimOK exWorld dM := ex_dimOK dM (by simp)
  have hin : InB exNan.val.mag.shape [1] := .cons (by decide) .nil
  obtain ⟨p, i, m, h1, -, ⟨h3, h4, x, h5, -⟩, -⟩ :=
    (C124_nanargmax_partial (w := exWorld) exNan hd hd ⟨SameContent.refl _, rfl⟩).1 ⟨[1], hin, by simp [exNan]⟩
  refine ⟨p, h1, ?_⟩
  have hm : i ∈ indices [2] := mem_indices.2 h3
  have hi : indices [2] = [[0], [1]] := by decide
  rw [hi] at hm
  simp only [List.mem_cons, List.not_mem_nil, or_false] at hm
  rcases hm with rfl | rfl
  · simp [exNan] at h5
  · exact h4.symm

/-- The hypotheses of C124 are met, and those of its negation with an axis by a 2x2 array. -/
example : (∃ p, exUM.argmax .all = .ok p ∧ p.elem [] = 0) ∧
    (∃ p q, (⟨exMat, UQ.zeroUnc exMat.mag exMat.dim⟩ : UQ ℝ).argmax (.one (0 : Nat)) = .ok p ∧
      exMat.argmax (.one (0 : Nat)) = .ok q ∧ p.shape ≠ q.shape) := by
  refine ⟨?_, (C124_axis_false (⟨exMat, UQ.zeroUnc exMat.mag exMat.dim⟩ : UQ ℝ) 0 (by decide)
    ⟨[0, 0], .cons (by decide) (.cons (by decide) .nil)⟩ (by decide)).1⟩
  obtain ⟨p, i, m, h1, -, ⟨h3, h4, -⟩, -⟩ := (C124_argmax_partial exWorld_reachable exUM exUM_built).1 ⟨[], .nil⟩
  refine ⟨p, h1, ?_⟩
  cases h3
  exact h4.symm

/-! ## C32, C33: what reducing along one axis means, element by element -/

/-- C32: along axis `n` (or `n - ndim`), `sum` and `mean` have the shape without that axis, and each
element is the sum (the sum divided by the length) of the line of elements along the axis. -/
theorem C32_axis_elements (q : Quantity K) (n : Nat) (ax : Int) (hn : n < q.mag.shape.length)
    (hax : ax = n ∨ ax = (n : Int) - q.mag.shape.length) :
    (∃ r, q.sum (.one ax) = .ok r ∧ r.dim = q.dim ∧ r.mag.shape = q.mag.shape.eraseIdx n ∧
      ∀ i, InB (q.mag.shape.eraseIdx n) i →
        r.mag.elem i = ∑ j : Fin q.mag.shape[n], q.mag.elem (i.insertIdx n j)) ∧
    (∃ r, q.mean (.one ax) = .ok r ∧ r.dim = q.dim ∧ r.mag.shape = q.mag.shape.eraseIdx n ∧
      ∀ i, InB (q.mag.shape.eraseIdx n) i →
        r.mag.elem i = (∑ j : Fin q.mag.shape[n], q.mag.elem (i.insertIdx n j)) / (q.mag.shape[n] : K)) := by
  have ha : normAxis q.mag.shape.length ax = .ok n := normAxis_ok.2 ⟨hn, hax⟩
  have hs : ∀ i : List Nat, ((List.range q.mag.shape[n]).map (fun j => q.mag.elem (i.insertIdx n j))).sum =
      ∑ j : Fin q.mag.shape[n], q.mag.elem (i.insertIdx n j) := by
    intro i
    rw [← List.sum_ofFn, List.ofFn_eq_map, ← List.map_coe_finRange_eq_range, List.map_map]
    rfl
  refine ⟨⟨⟨reduceMask List.sum ((List.range q.mag.shape.length).map (fun j => decide (j = n))) q.mag, q.dim⟩, ?_, rfl,
      (reduceMask_one _ hn).1, fun i hi => ?_⟩,
    ⟨⟨reduceMask lmean ((List.range q.mag.shape.length).map (fun j => decide (j = n))) q.mag, q.dim⟩, ?_, rfl,
      (reduceMask_one _ hn).1, fun i hi => ?_⟩⟩
  · simp only [Quantity.sum, Quantity.sumBy, attach, NDArr.reduce, axisMask, ha, Except.map]
  · simp only [(reduceMask_one List.sum hn).2 i hi, hs]
  · simp only [Quantity.mean, Quantity.meanBy, attach, NDArr.reduce, axisMask, ha, Except.map]
  · simp only [(reduceMask_one lmean hn).2 i hi, lmean, hs, List.length_map, List.length_range]

/-- C33: along axis `n`, each element of `prod` is the product of the line of elements along it. -/
theorem C33_axis_elements (q : Quantity K) (n : Nat) (ax : Int) (hn : n < q.mag.shape.length)
    (hax : ax = n ∨ ax = (n : Int) - q.mag.shape.length) :
    ∃ r, q.prod (.one ax) = .ok r ∧ (∀ u, expo r.dim u = expo q.dim u * q.mag.shape[n]) ∧
      r.mag.shape = q.mag.shape.eraseIdx n ∧ ∀ i, InB (q.mag.shape.eraseIdx n) i →
        r.mag.elem i = ∏ j : Fin q.mag.shape[n], q.mag.elem (i.insertIdx n j) := by
  have ha : normAxis q.mag.shape.length ax = .ok n := normAxis_ok.2 ⟨hn, hax⟩
  have hg : q.mag.shape.getD n 0 = q.mag.shape[n] := by simp [List.getD, hn]
  refine ⟨⟨reduceMask List.prod ((List.range q.mag.shape.length).map (fun j => decide (j = n))) q.mag,
    Dim.pow q.dim (q.mag.shape[n] : ℚ)⟩, ?_, fun u => by simp [expo_pow], (reduceMask_one _ hn).1, fun i hi => ?_⟩
  · simp only [Quantity.prod, Quantity.prodBy, Quantity.prodPower, Quantity.shapeAt, ha, hg, attach, NDArr.reduce,
      axisMask, Except.map]
  · simp only [(reduceMask_one List.prod hn).2 i hi]
    rw [← List.prod_ofFn, List.ofFn_eq_map, ← List.map_coe_finRange_eq_range, List.map_map]
    rfl

end PQ
