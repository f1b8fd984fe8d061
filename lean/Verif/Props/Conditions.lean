import Verif.Props.Builtins

/-!
# C150: comparisons as conditions

What `if a < b:`, `max`, `min`, `in`, `index`, `count` and `sorted` do with arrays: C146 has single values.
-/

namespace PQ

open NDArr World

variable {K : Type _} [Field K] [LinearOrder K] [IsStrictOrderedRing K] [RPow K] [LawfulRPow K] [PyFloor K]
variable {h : Hasher} {w : World K}

/-! ## Auxiliary facts -/

omit [Field K] [LinearOrder K] [IsStrictOrderedRing K] [RPow K] [LawfulRPow K] [PyFloor K] in
/-- The truth value of an array: `False` of an empty one, the element of one with a single element, and an
exception otherwise. -/
theorem truthOf_cases (m : NDArr Bool) :
    (m.shape.prod = 0 → truthOf m = .ok false) ∧
    (m.shape.prod = 1 → ∀ i, InB m.shape i → truthOf m = .ok (m.elem i)) ∧
    (2 ≤ m.shape.prod → truthOf m = .error .valueError) := by
  have hl : m.toList.length = m.shape.prod := toList_length m
  refine ⟨fun h0 => ?_, fun h1 i hi => ?_, fun h2 => ?_⟩
  · have : m.toList = [] := List.length_eq_zero_iff.mp (hl.trans h0)
    unfold truthOf; rw [this]
  · obtain ⟨b, hb⟩ := List.length_eq_one_iff.mp (hl.trans h1)
    have hm : m.elem i ∈ m.toList := List.mem_map.mpr ⟨i, mem_indices.mpr hi, rfl⟩
    rw [hb, List.mem_singleton] at hm
    unfold truthOf; rw [hb, hm]
  · rcases hm : m.toList with _ | ⟨a, _ | ⟨b, l⟩⟩
    · rw [hm] at hl; simp at hl; omega
    · rw [hm] at hl; simp at hl; omega
    · unfold truthOf; rw [hm]

/-- An equality test of operands with incompatible units gives an array of the shape of one of them. -/
theorem compare_incompatible (hw : Reachable h w) (op : CmpOp) (x y : PyVal K) (hx : x.HasUnits)
    (hy : y.HasUnits) (dx : DimOK w x.dim) (dy : DimOK w y.dim) (hs : HashSafe w x.dim y.dim)
    (hc : ¬ Compatible w x.dim y.dim) (he : op = .eq ∨ op = .ne) :
    ∃ m, compareOp w op x y = .ok m ∧ (m.shape = x.mag.shape ∨ m.shape = y.mag.shape) ∧
      NDArr.All (· = decide (op = .ne)) m := by
  have hq : ∀ z : PyVal K, z.HasUnits → ∃ q : Quantity K, z.op = .quantity q ∧ q.dim = z.dim ∧
      q.mag.shape = z.mag.shape := by
    intro z hz
    cases z with
    | array a => exact hz.elim
    | unit u => exact ⟨_, rfl, rfl, rfl⟩
    | quantity q => exact ⟨_, rfl, rfl, rfl⟩
    | uncertain a => exact ⟨_, rfl, rfl, rfl⟩
  obtain ⟨a, ea, da, pa⟩ := hq x hx
  obtain ⟨b, eb, db, pb⟩ := hq y hy
  rw [← da] at dx hs hc
  rw [← db] at dy hs hc
  rw [← pa, ← pb]
  by_cases hsub : subclassRight x y = true
  · have e : compareOp w op x y = b.cmp w op.swap (.quantity a) := by
      unfold compareOp
      simp only [hsub, if_true, ea, eb]
    rw [e]
    have := (cmp_quantity hw op.swap b a dy dx hs).2 hc
    rcases he with rfl | rfl <;> obtain ⟨m, h1, h2, h3⟩ := this <;> exact ⟨m, h1, .inr h2, by simpa using h3⟩
  · have e : compareOp w op x y = a.cmp w op (.quantity b) := by
      unfold compareOp
      simp only [hsub, if_false, ea, eb]
      rfl
    rw [e]
    have := (cmp_quantity hw op a b dx dy hs.symm).2 (fun h => hc (compatible_symm hw.wf h))
    rcases he with rfl | rfl <;> obtain ⟨m, h1, h2, h3⟩ := this <;> exact ⟨m, h1, .inl h2, by simpa using h3⟩

/-! ## The property -/

/-- C150: a comparison of compatible operands of any shapes, used as a condition.  `s` is the shape of the
result of the comparison. -/
theorem C150_condition (hw : Reachable h w) (op : CmpOp) (x y : PyVal K) (hx : x.HasUnits) (hy : y.HasUnits)
    (dx : DimOK w x.dim) (dy : DimOK w y.dim) (hs : HashSafe w x.dim y.dim) (hc : Compatible w x.dim y.dim) :
    (∀ s, bshape x.mag.shape y.mag.shape = some s →
      (s.prod = 0 → holds w op x y = .ok false) ∧
      (s.prod = 1 → ∀ i, InB s i → ∀ v : Valuation w, holds w op x y =
        .ok (op.fn ((x.phys v).elem (bidx x.mag.shape i)) ((y.phys v).elem (bidx y.mag.shape i)))) ∧
      (2 ≤ s.prod → holds w op x y = .error .valueError)) ∧
    (bshape x.mag.shape y.mag.shape = none → holds w op x y = .error .valueError) := by
  have h1 := (C56_comparison hw op x y hx hy dx dy hs).1 hc
  have hu : ∀ v : Valuation w, holds w op x y = (NDArr.bin op.fn (x.phys v) (y.phys v) >>= truthOf) := fun v => by
    unfold holds; rw [h1 v]
  obtain ⟨v0⟩ := exists_valuation hw.wf
  refine ⟨fun s hb => ?_, fun hb => ?_⟩
  · have hbin : ∀ v : Valuation w, holds w op x y = truthOf ⟨s, fun i =>
        op.fn ((x.phys v).elem (bidx x.mag.shape i)) ((y.phys v).elem (bidx y.mag.shape i))⟩ := fun v => by
      rw [hu v, NDArr.bin_intro (a := x.phys v) (b := y.phys v) (s := s) _ hb]; rfl
    exact ⟨fun h => by rw [hbin v0]; exact (truthOf_cases _).1 h,
      fun h i hi v => by rw [hbin v]; exact (truthOf_cases _).2.1 h i hi,
      fun h => by rw [hbin v0]; exact (truthOf_cases _).2.2 h⟩
  · rw [hu v0]
    unfold NDArr.bin
    rw [show bshape (x.phys v0).shape (y.phys v0).shape = none from hb]
    rfl

/-- C150: with incompatible units an ordering raises whatever the shapes; an equality test is `False`, an
inequality test `True`, for operands of one element, and an exception for operands of several. -/
theorem C150_incompatible (hw : Reachable h w) (op : CmpOp) (x y : PyVal K) (hx : x.HasUnits) (hy : y.HasUnits)
    (dx : DimOK w x.dim) (dy : DimOK w y.dim) (hs : HashSafe w x.dim y.dim) (hc : ¬ Compatible w x.dim y.dim) :
    (op ≠ .eq → op ≠ .ne → holds w op x y = .error .valueError) ∧
    (op = .eq ∨ op = .ne →
      (x.mag.shape.prod = 1 → y.mag.shape.prod = 1 → holds w op x y = .ok (decide (op = .ne))) ∧
      (2 ≤ x.mag.shape.prod → 2 ≤ y.mag.shape.prod → holds w op x y = .error .valueError)) := by
  have h2 := (C56_comparison hw op x y hx hy dx dy hs).2 hc
  refine ⟨fun e1 e2 => ?_, fun he => ?_⟩
  · unfold holds
    cases op with
    | eq => exact absurd rfl e1
    | ne => exact absurd rfl e2
    | lt => simp only at h2; rw [h2]; rfl
    | le => simp only at h2; rw [h2]; rfl
    | gt => simp only at h2; rw [h2]; rfl
    | ge => simp only at h2; rw [h2]; rfl
  · obtain ⟨m, hm, hsh, hall⟩ := compare_incompatible hw op x y hx hy dx dy hs hc he
    have e : holds w op x y = truthOf m := by unfold holds; rw [hm]; rfl
    rw [e]
    refine ⟨fun px py => ?_, fun px py => ?_⟩
    · have h1 : m.shape.prod = 1 := by rcases hsh with e | e <;> rw [e] <;> assumption
      have hne : m.toList ≠ [] := by
        intro h0
        have := toList_length m
        rw [h0] at this
        unfold size at this
        rw [h1] at this
        cases this
      obtain ⟨b, hb⟩ := List.exists_mem_of_ne_nil _ hne
      obtain ⟨i, hi, -⟩ := List.mem_map.mp hb
      rw [(truthOf_cases m).2.1 h1 i (mem_indices.mp hi), hall i (mem_indices.mp hi)]
    · refine (truthOf_cases m).2.2 ?_
      rcases hsh with e | e <;> rw [e] <;> assumption

/-- C150: two operands of the same shape with several elements cannot be used in a condition, whatever their
units. -/
theorem C150_arrays (hw : Reachable h w) (op : CmpOp) (x y : PyVal K) (hx : x.HasUnits) (hy : y.HasUnits)
    (dx : DimOK w x.dim) (dy : DimOK w y.dim) (hs : HashSafe w x.dim y.dim)
    (hsh : x.mag.shape = y.mag.shape) (hp : 2 ≤ x.mag.shape.prod) : holds w op x y = .error .valueError := by
  by_cases hc : Compatible w x.dim y.dim
  · exact ((C150_condition hw op x y hx hy dx dy hs hc).1 x.mag.shape (by rw [← hsh]; exact NDArr.bshape_self _)).2.2 hp
  · obtain ⟨h1, h2⟩ := C150_incompatible hw op x y hx hy dx dy hs hc
    by_cases he : op = .eq ∨ op = .ne
    · exact (h2 he).2 hp (hsh ▸ hp)
    · push Not at he
      exact h1 he.1 he.2

/-- C150: hence `max`, `min`, `in`, `index` and `count` raise `ValueError` for such operands, as soon as there is
anything to compare. -/
theorem C150_builtins (hw : Reachable h w) (x y : PyVal K) (ys : List (PyVal K)) (hx : x.HasUnits)
    (hy : y.HasUnits) (dx : DimOK w x.dim) (dy : DimOK w y.dim) (hs : HashSafe w x.dim y.dim)
    (hsh : x.mag.shape = y.mag.shape) (hp : 2 ≤ x.mag.shape.prod) :
    pyMax w (x :: y :: ys) = .error .valueError ∧ pyMin w (x :: y :: ys) = .error .valueError ∧
    pyContains w x (y :: ys) = .error .valueError ∧ pyIndex w x (y :: ys) = .error .valueError ∧
    pyCount w x (y :: ys) = .error .valueError := by
  have h1 : ∀ op, holds w op y x = .error .valueError := fun op =>
    C150_arrays hw op y x hy hx dy dx hs.symm hsh.symm (hsh ▸ hp)
  refine ⟨?_, ?_, ?_, ?_, ?_⟩
  · unfold pyMax pyBest; simp only [List.foldlM_cons, h1]; rfl
  · unfold pyMin pyBest; simp only [List.foldlM_cons, h1]; rfl
  · unfold pyContains pyFind; rw [h1]; rfl
  · unfold pyIndex pyFind; rw [h1]; rfl
  · unfold pyCount; simp only [h1]; rfl

/-! ## A concrete case -/

/-- Two lengths, in metres. -/
noncomputable def exTwo : PyVal ℝ := .quantity ⟨⟨[2], fun i => if i = [0] then 1 else 2⟩, dM⟩

example : pyMax exWorld [exTwo, exTwo] = .error .valueError :=
  (C150_builtins exWorld_reachable exTwo exTwo [] trivial trivial (ex_dimOK dM (by simp)) (ex_dimOK dM (by simp))
    (HashSafe.refl _ _) rfl (by decide)).1

/-- One element is fine, with any number of axes: `[[2 km]] > 500 m`. -/
example : holds exWorld .gt (.quantity ⟨⟨[1, 1], fun _ => 2⟩, dKm⟩) (.quantity ⟨NDArr.scalar 500, dM⟩) = .ok true := by
  have hc : Compatible exWorld dKm dM := ex_compat
  have := ((C150_condition exWorld_reachable .gt (.quantity ⟨⟨[1, 1], fun _ => 2⟩, dKm⟩)
    (.quantity ⟨NDArr.scalar 500, dM⟩) trivial trivial (ex_dimOK dKm (by simp)) (ex_dimOK dM (by simp)) ex_safe_km_m
    hc).1 [1, 1] rfl).2.1 rfl [0, 0] (by simp [NDArr.InB])
  obtain ⟨v⟩ := exists_valuation exWorld_reachable.wf
  rw [this v]
  have hkm : v.size dKm = 1000 * v.size dM := by
    have := v.defined uKm (exWorld.info uKm |>.get (by rfl)) ⟨1000, dM⟩ (by rfl) (by rfl)
    simp only [Valuation.size, dKm, dM, dsize_cons, dsize_nil, mul_one, LawfulRPow.rpow_one] at this ⊢
    exact this
  have hm : 0 < v.size dM := v.size_pos _
  have : (500 : ℝ) * v.size dM < 2 * v.size dKm := by rw [hkm]; nlinarith
  exact congrArg _ (decide_eq_true this)

end PQ
