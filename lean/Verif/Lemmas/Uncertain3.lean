import Verif.Lemmas.Uncertain2
import Verif.Lemmas.Simplified

/-! # Operators of uncertain quantities, continued -/

namespace PQ

open Dict LawfulRPow World

variable {K : Type _}
variable [Field K] [LinearOrder K] [IsStrictOrderedRing K] [RPow K] [LawfulRPow K]

/-! ### a plain other operand -/

/-- `(x ** 2 * y ** 2)**0.5` and the like. -/
theorem sqrt_part {P : Quantity K} {t : List Nat → K}
    (h : ∀ i, NDArr.InB P.mag.shape i → P.mag.elem i = t i ^ 2) :
    ∃ u, P.pow (expOf (1/2)) = .ok u ∧ u.dim = Dim.pow P.dim (1/2) ∧ u.mag.shape = P.mag.shape ∧
      ∀ i, NDArr.InB P.mag.shape i → u.mag.elem i = |t i| := by
  refine ⟨_, pow_expOf P (1/2), rfl, rfl, fun i hi => ?_⟩
  simp only [NDArr.bidx_self hi, h i hi, rpow_half_of_sq]

theorem except_bind_ok {α β : Type _} (x : α) (f : α → Py β) :
    ((Except.ok x : Py α) >>= f) = f x := rfl

theorem except_bind_error {α β : Type _} (e : PyErr) (f : α → Py β) :
    ((Except.error e : Py α) >>= f) = .error e := rfl

/-- A product with an exact operand. -/
theorem uq_mul_plain {w : World K} {a : UQ K} {o : Operand K} (ha : a.OK w) (ho : DimOK w o.dim) :
    (Returns (a.mul w (.plain o)) ↔ (NDArr.bshape a.val.mag.shape o.arr.shape).isSome) ∧
    (∀ e, a.mul w (.plain o) = .error e → e = .valueError) ∧
    (∀ r, a.mul w (.plain o) = .ok r → r.OK w ∧ SameContent r.val.dim (Dim.mul a.val.dim o.dim) ∧
      ∀ v : Valuation w, Elementwise IsProduct (v.meas a) (v.measOp (.plain o)) (v.meas r)) := by
  rcases hs : NDArr.bshape a.val.mag.shape o.arr.shape with _ | s
  · have hm : a.mul w (.plain o) = .error .valueError := by
      unfold UQ.mul
      cases o with
      | quantity q =>
        have he : NDArr.bin (· * ·) a.val.mag q.mag = .error .valueError := by
          unfold NDArr.bin; simp only [Operand.arr] at hs; simp [hs]
        simp only [UOperand.op, mul_qq, he, Except.map, except_bind_error]
      | array m =>
        have he : NDArr.bin (· * ·) a.val.mag m = .error .valueError := by
          unfold NDArr.bin; simp only [Operand.arr] at hs; simp [hs]
        simp only [UOperand.op, mul_qa, he, Except.map, except_bind_error]
    rw [hm]
    refine ⟨⟨fun hr => absurd hr (not_returns_error _), fun hr => by simp at hr⟩, ?_, ?_⟩
    · intro e he; simp only [Except.error.injEq] at he; exact he.symm
    · intro r hr; simp at hr
  · have hsu : NDArr.bshape a.unc.mag.shape o.arr.shape = some s := by rw [ha.aligned.2]; exact hs
    -- the result
    have key : ∃ r, a.mul w (.plain o) = .ok r ∧ DimOK w r.val.dim ∧ DimOK w r.unc.dim ∧
        SameContent r.unc.dim r.val.dim ∧ SameContent r.val.dim (Dim.mul a.val.dim o.dim) ∧
        r.val.mag.shape = s ∧ r.unc.mag.shape = s ∧
        (∀ i, r.val.mag.elem i = a.val.mag.elem (NDArr.bidx a.val.mag.shape i) *
            o.arr.elem (NDArr.bidx o.arr.shape i)) ∧
        (∀ i, NDArr.InB s i → r.unc.mag.elem i =
          |a.unc.mag.elem (NDArr.bidx a.val.mag.shape i) *
            o.arr.elem (NDArr.bidx o.arr.shape i)|) := by
      cases o with
      | quantity q =>
        simp only [Operand.arr, Operand.dim] at hs hsu ho ⊢
        have h1 := NDArr.bin_intro (fun x y : K => x * y) (a := a.val.mag) (b := q.mag) hs
        have h2 := NDArr.bin_intro (fun x y : K => x * y)
          (a := ⟨a.unc.mag.shape, fun i => rpow (a.unc.mag.elem (NDArr.bidx a.unc.mag.shape i)) 2⟩)
          (b := ⟨q.mag.shape, fun i => rpow (q.mag.elem (NDArr.bidx q.mag.shape i)) 2⟩) hsu
        obtain ⟨u, u1, u2, u3, u4⟩ := sqrt_part
          (P := ⟨⟨s, fun i =>
            rpow (a.unc.mag.elem (NDArr.bidx a.unc.mag.shape (NDArr.bidx a.unc.mag.shape i))) 2 *
            rpow (q.mag.elem (NDArr.bidx q.mag.shape (NDArr.bidx q.mag.shape i))) 2⟩,
            Dim.mul (Dim.pow a.unc.dim 2) (Dim.pow q.dim 2)⟩)
          (t := fun i => a.unc.mag.elem (NDArr.bidx a.val.mag.shape i) *
            q.mag.elem (NDArr.bidx q.mag.shape i))
          (h := fun i hi => by
            have ib := NDArr.bidx_inb_right hs hi
            have ia := NDArr.bidx_inb hsu hi
            show (⟨s, _⟩ : NDArr K).elem i = _
            exact (show rpow (a.unc.mag.elem (NDArr.bidx a.unc.mag.shape (NDArr.bidx a.unc.mag.shape i))) 2 *
              rpow (q.mag.elem (NDArr.bidx q.mag.shape (NDArr.bidx q.mag.shape i))) 2 = _ by
                rw [NDArr.bidx_self ia, NDArr.bidx_self ib, rpow_two, rpow_two, ha.aligned.2]; ring))
        refine ⟨⟨⟨⟨s, fun i => a.val.mag.elem (NDArr.bidx a.val.mag.shape i) *
          q.mag.elem (NDArr.bidx q.mag.shape i)⟩, Dim.mul a.val.dim q.dim⟩, u⟩, ?_, ha.vdim.mul ho, ?_, ?_, SameContent.refl _, rfl, u3,
          fun i => rfl, u4⟩
        · unfold UQ.mul
          simp only [UOperand.op, mul_qq, pow_expOf, UQ.sqOp, Except.map, except_bind_ok]
          rw [h1, h2]
          simp only [except_bind_ok]
          rw [pow_expOf, Except.ok.injEq] at u1
          rw [← u1]
          rfl
        · rw [u2]; exact ((ha.udim.pow 2).mul (ho.pow 2)).pow _
        · rw [u2]
          refine (canon_pow ((ha.udim.pow 2).mul (ho.pow 2)).canon _).sameContent
            (ha.vdim.mul ho).canon (fun x => ?_)
          rw [expo_pow, expo_mul (canon_pow ha.udim.canon _).nodup (canon_pow ho.canon _).nodup,
            expo_pow, expo_pow, expo_mul ha.vdim.canon.nodup ho.canon.nodup, expo_eq ha.aligned.1]
          ring
      | array m =>
        simp only [Operand.arr, Operand.dim] at hs hsu ho ⊢
        have h1 := NDArr.bin_intro (fun x y : K => x * y) (a := a.val.mag) (b := m) hs
        have h2 := NDArr.bin_intro (fun x y : K => x * y)
          (a := ⟨a.unc.mag.shape, fun i => rpow (a.unc.mag.elem (NDArr.bidx a.unc.mag.shape i)) 2⟩)
          (b := m.map (fun x => rpow x 2)) hsu
        obtain ⟨u, u1, u2, u3, u4⟩ := sqrt_part 
          (P := ⟨⟨s, fun i =>
            rpow (a.unc.mag.elem (NDArr.bidx a.unc.mag.shape (NDArr.bidx a.unc.mag.shape i))) 2 *
            rpow (m.elem (NDArr.bidx m.shape i)) 2⟩, Dim.pow a.unc.dim 2⟩)
          (t := fun i => a.unc.mag.elem (NDArr.bidx a.val.mag.shape i) *
            m.elem (NDArr.bidx m.shape i))
          (h := fun i hi => by
            have ia := NDArr.bidx_inb hsu hi
            show (⟨s, _⟩ : NDArr K).elem i = _
            exact (show rpow (a.unc.mag.elem (NDArr.bidx a.unc.mag.shape (NDArr.bidx a.unc.mag.shape i))) 2 *
              rpow (m.elem (NDArr.bidx m.shape i)) 2 = _ by
                rw [NDArr.bidx_self ia, rpow_two, rpow_two, ha.aligned.2]; ring))
        refine ⟨⟨⟨⟨s, fun i => a.val.mag.elem (NDArr.bidx a.val.mag.shape i) *
          m.elem (NDArr.bidx m.shape i)⟩, a.val.dim⟩, u⟩, ?_, ha.vdim, ?_, ?_, SameContent.refl _, rfl, u3,
          fun i => rfl, u4⟩
        · unfold UQ.mul
          simp only [UOperand.op, mul_qa, pow_expOf, UQ.sqOp, except_bind_ok]
          rw [h1, h2]
          simp only [Except.map, except_bind_ok]
          rw [pow_expOf, Except.ok.injEq] at u1
          rw [← u1]
          rfl
        · rw [u2]; exact (ha.udim.pow 2).pow _
        · rw [u2]; exact (sqrt_sq_dim ha.udim).trans ha.aligned.1
    obtain ⟨r, hr, d1, d2, d3, d4, s1, s2, e1, e2⟩ := key
    rw [hr]
    refine ⟨⟨fun _ => rfl, fun _ => returns_ok _⟩, fun e he => absurd he (by simp), ?_⟩
    intro r' hr'
    simp only [Except.ok.injEq] at hr'; subst hr'
    refine ⟨⟨d1, d2, d3, by rw [s1, s2]⟩, d4, fun v => ⟨?_, fun i hi => ?_⟩⟩
    · simp only [Valuation.meas, Valuation.measOp, physOp_eq', NDArr.map]; rw [hs, s1]
    · have hi' : NDArr.InB s i := by rw [← s1]; exact hi
      have zr : v.size r.unc.dim = v.size a.val.dim * v.size o.dim := by
        have := dsize_same v.val d2.canon.nodup (ha.vdim.mul ho).canon.nodup (d3.trans d4)
        rw [Valuation.size, this]; exact dsize_mul v.pos _ _
      have zv : v.size r.val.dim = v.size a.val.dim * v.size o.dim := by
        have := dsize_same v.val d1.canon.nodup (ha.vdim.mul ho).canon.nodup d4
        rw [Valuation.size, this]; exact dsize_mul v.pos _ _
      simp only [IsProduct, IsProductUpToSign, Valuation.meas, Valuation.measOp, physOp_eq', NDArr.map,
        e1 i, e2 i hi', zr, zv, ha.size v]
      have hz := mul_pos (v.size_pos a.val.dim) (v.size_pos o.dim)
      refine ⟨⟨by ring, ?_⟩, mul_nonneg (abs_nonneg _) hz.le⟩
      rw [mul_pow, sq_abs]; ring

/-- A quotient by an exact operand. -/
theorem uq_div_plain {w : World K} {a : UQ K} {o : Operand K} (ha : a.OK w) (ho : DimOK w o.dim) :
    (Returns (a.truediv w (.plain o)) ↔ (NDArr.bshape a.val.mag.shape o.arr.shape).isSome) ∧
    (∀ e, a.truediv w (.plain o) = .error e → e = .valueError) ∧
    (∀ r, a.truediv w (.plain o) = .ok r → r.OK w ∧ SameContent r.val.dim (Dim.div a.val.dim o.dim) ∧
      ∀ v : Valuation w, Elementwise IsQuotient (v.meas a) (v.measOp (.plain o)) (v.meas r)) := by
  rcases hs : NDArr.bshape a.val.mag.shape o.arr.shape with _ | s
  · have hm : a.truediv w (.plain o) = .error .valueError := by
      unfold UQ.truediv
      cases o with
      | quantity q =>
        have he : NDArr.bin (· / ·) a.val.mag q.mag = .error .valueError := by
          unfold NDArr.bin; simp only [Operand.arr] at hs; simp [hs]
        simp only [UOperand.op, div_qq, he, Except.map, except_bind_error]
      | array m =>
        have he : NDArr.bin (· / ·) a.val.mag m = .error .valueError := by
          unfold NDArr.bin; simp only [Operand.arr] at hs; simp [hs]
        simp only [UOperand.op, div_qa, he, Except.map, except_bind_error]
    rw [hm]
    refine ⟨⟨fun hr => absurd hr (not_returns_error _), fun hr => by simp at hr⟩, ?_, ?_⟩
    · intro e he; simp only [Except.error.injEq] at he; exact he.symm
    · intro r hr; simp at hr
  · have hsu : NDArr.bshape a.unc.mag.shape o.arr.shape = some s := by rw [ha.aligned.2]; exact hs
    have key : ∃ r, a.truediv w (.plain o) = .ok r ∧ DimOK w r.val.dim ∧ DimOK w r.unc.dim ∧
        SameContent r.unc.dim r.val.dim ∧ SameContent r.val.dim (Dim.div a.val.dim o.dim) ∧
        r.val.mag.shape = s ∧ r.unc.mag.shape = s ∧
        (∀ i, r.val.mag.elem i = a.val.mag.elem (NDArr.bidx a.val.mag.shape i) /
            o.arr.elem (NDArr.bidx o.arr.shape i)) ∧
        (∀ i, NDArr.InB s i → r.unc.mag.elem i =
          |a.unc.mag.elem (NDArr.bidx a.val.mag.shape i) /
            o.arr.elem (NDArr.bidx o.arr.shape i)|) := by
      cases o with
      | quantity q =>
        simp only [Operand.arr, Operand.dim] at hs hsu ho ⊢
        have h1 := NDArr.bin_intro (fun x y : K => x / y) (a := a.val.mag) (b := q.mag) hs
        have h2 := NDArr.bin_intro (fun x y : K => x / y)
          (a := ⟨a.unc.mag.shape, fun i => rpow (a.unc.mag.elem (NDArr.bidx a.unc.mag.shape i)) 2⟩)
          (b := ⟨q.mag.shape, fun i => rpow (q.mag.elem (NDArr.bidx q.mag.shape i)) 2⟩) hsu
        obtain ⟨u, u1, u2, u3, u4⟩ := sqrt_part
          (P := ⟨⟨s, fun i =>
            rpow (a.unc.mag.elem (NDArr.bidx a.unc.mag.shape (NDArr.bidx a.unc.mag.shape i))) 2 /
            rpow (q.mag.elem (NDArr.bidx q.mag.shape (NDArr.bidx q.mag.shape i))) 2⟩,
            Dim.div (Dim.pow a.unc.dim 2) (Dim.pow q.dim 2)⟩)
          (t := fun i => a.unc.mag.elem (NDArr.bidx a.val.mag.shape i) /
            q.mag.elem (NDArr.bidx q.mag.shape i))
          (h := fun i hi => by
            have ib := NDArr.bidx_inb_right hs hi
            have ia := NDArr.bidx_inb hsu hi
            show (⟨s, _⟩ : NDArr K).elem i = _
            exact (show rpow (a.unc.mag.elem (NDArr.bidx a.unc.mag.shape (NDArr.bidx a.unc.mag.shape i))) 2 /
              rpow (q.mag.elem (NDArr.bidx q.mag.shape (NDArr.bidx q.mag.shape i))) 2 = _ by
                rw [NDArr.bidx_self ia, NDArr.bidx_self ib, rpow_two, rpow_two, ha.aligned.2, div_pow]))
        refine ⟨⟨⟨⟨s, fun i => a.val.mag.elem (NDArr.bidx a.val.mag.shape i) /
          q.mag.elem (NDArr.bidx q.mag.shape i)⟩, Dim.div a.val.dim q.dim⟩, u⟩, ?_, ha.vdim.div ho, ?_, ?_, SameContent.refl _, rfl, u3,
          fun i => rfl, u4⟩
        · unfold UQ.truediv
          simp only [UOperand.op, div_qq, pow_expOf, UQ.sqOp, Except.map, except_bind_ok]
          rw [h1, h2]
          simp only [except_bind_ok]
          rw [pow_expOf, Except.ok.injEq] at u1
          rw [← u1]
          rfl
        · rw [u2]; exact ((ha.udim.pow 2).div (ho.pow 2)).pow _
        · rw [u2]
          refine (canon_pow ((ha.udim.pow 2).div (ho.pow 2)).canon _).sameContent
            (ha.vdim.div ho).canon (fun x => ?_)
          rw [expo_pow, expo_div (canon_pow ha.udim.canon _).nodup (canon_pow ho.canon _).nodup,
            expo_pow, expo_pow, expo_div ha.vdim.canon.nodup ho.canon.nodup, expo_eq ha.aligned.1]
          ring
      | array m =>
        simp only [Operand.arr, Operand.dim] at hs hsu ho ⊢
        have h1 := NDArr.bin_intro (fun x y : K => x / y) (a := a.val.mag) (b := m) hs
        have h2 := NDArr.bin_intro (fun x y : K => x / y)
          (a := ⟨a.unc.mag.shape, fun i => rpow (a.unc.mag.elem (NDArr.bidx a.unc.mag.shape i)) 2⟩)
          (b := m.map (fun x => rpow x 2)) hsu
        obtain ⟨u, u1, u2, u3, u4⟩ := sqrt_part 
          (P := ⟨⟨s, fun i =>
            rpow (a.unc.mag.elem (NDArr.bidx a.unc.mag.shape (NDArr.bidx a.unc.mag.shape i))) 2 /
            rpow (m.elem (NDArr.bidx m.shape i)) 2⟩, Dim.pow a.unc.dim 2⟩)
          (t := fun i => a.unc.mag.elem (NDArr.bidx a.val.mag.shape i) /
            m.elem (NDArr.bidx m.shape i))
          (h := fun i hi => by
            have ia := NDArr.bidx_inb hsu hi
            show (⟨s, _⟩ : NDArr K).elem i = _
            exact (show rpow (a.unc.mag.elem (NDArr.bidx a.unc.mag.shape (NDArr.bidx a.unc.mag.shape i))) 2 /
              rpow (m.elem (NDArr.bidx m.shape i)) 2 = _ by
                rw [NDArr.bidx_self ia, rpow_two, rpow_two, ha.aligned.2, div_pow]))
        refine ⟨⟨⟨⟨s, fun i => a.val.mag.elem (NDArr.bidx a.val.mag.shape i) /
          m.elem (NDArr.bidx m.shape i)⟩, a.val.dim⟩, u⟩, ?_, ha.vdim, ?_, ?_, SameContent.refl _, rfl, u3,
          fun i => rfl, u4⟩
        · unfold UQ.truediv
          simp only [UOperand.op, div_qa, pow_expOf, UQ.sqOp, except_bind_ok]
          rw [h1, h2]
          simp only [Except.map, except_bind_ok]
          rw [pow_expOf, Except.ok.injEq] at u1
          rw [← u1]
          rfl
        · rw [u2]; exact (ha.udim.pow 2).pow _
        · rw [u2]; exact (sqrt_sq_dim ha.udim).trans ha.aligned.1
    obtain ⟨r, hr, d1, d2, d3, d4, s1, s2, e1, e2⟩ := key
    rw [hr]
    refine ⟨⟨fun _ => rfl, fun _ => returns_ok _⟩, fun e he => absurd he (by simp), ?_⟩
    intro r' hr'
    simp only [Except.ok.injEq] at hr'; subst hr'
    refine ⟨⟨d1, d2, d3, by rw [s1, s2]⟩, d4, fun v => ⟨?_, fun i hi => ?_⟩⟩
    · simp only [Valuation.meas, Valuation.measOp, physOp_eq', NDArr.map]; rw [hs, s1]
    · have hi' : NDArr.InB s i := by rw [← s1]; exact hi
      have zr : v.size r.unc.dim = v.size a.val.dim / v.size o.dim := by
        have := dsize_same v.val d2.canon.nodup (ha.vdim.div ho).canon.nodup (d3.trans d4)
        rw [Valuation.size, this]; exact dsize_div v.pos _ _
      have zv : v.size r.val.dim = v.size a.val.dim / v.size o.dim := by
        have := dsize_same v.val d1.canon.nodup (ha.vdim.div ho).canon.nodup d4
        rw [Valuation.size, this]; exact dsize_div v.pos _ _
      simp only [IsQuotient, IsQuotientUpToSign, Valuation.meas, Valuation.measOp, physOp_eq', NDArr.map,
        e1 i, e2 i hi', zr, zv, ha.size v]
      have hz := div_pos (v.size_pos a.val.dim) (v.size_pos o.dim)
      refine ⟨⟨by rw [div_mul_div_comm], ?_⟩, mul_nonneg (abs_nonneg _) hz.le⟩
      rw [mul_pow, sq_abs, mul_zero, zero_div, zero_pow two_ne_zero, add_zero, ← mul_pow, div_mul_div_comm]

/-! ### construction -/

/-- `UncertainQuantity(array, d, uncertainty array)`. -/
theorem new_arrays {w : World K} (m u : NDArr K) (d : Dim) :
    UQ.new w (.array m) d (some (.array u)) =
      if m.shape = u.shape then .ok ⟨⟨m, d⟩, ⟨u, d⟩⟩ else .error .valueError := by
  simp only [UQ.new, UQ.mkQuantity, UQ.setUncertainty, Operand.toQuantity, dne_eq, deq_self,
    Bool.not_true, Bool.false_eq_true, if_false]

/-- `UncertainQuantity(array, d, uncertainty)` with an uncertainty in the units `d`. -/
theorem new_array_same {w : World K} {m : NDArr K} {d : Dim} {u : Quantity K} (hd : Nodup d)
    (hu : Nodup u.dim) (h : SameContent u.dim d) :
    UQ.new w (.array m) d (some (.quantity u)) =
      if m.shape = u.mag.shape then .ok ⟨⟨m, d⟩, u⟩ else .error .valueError := by
  have hr : UQ.mkQuantity w (.quantity u) d = .ok u := by
    simp only [UQ.mkQuantity]
    split
    · rfl
    · unfold Quantity.rescale; rw [if_pos (deq_same hu hd h)]
  simp only [UQ.new]
  rw [show UQ.mkQuantity w (.array m) d = .ok ⟨m, d⟩ from rfl]
  simp only [hr]
  exact setUncertainty_same (self := ⟨⟨m, d⟩, _⟩) hd hu h

/-! ### subscripts -/

theorem uq_getitem_spec {w : World K} {a : UQ K} (ha : a.OK w) (k : Key) :
    (∀ e, a.getitem w k = .error e ↔ k a.val.mag.shape = .error e) ∧
    (∀ r, a.getitem w k = .ok r → r.OK w ∧ r.val.dim = a.val.dim ∧
      ∀ v : Valuation w, (v.meas a).select k = .ok (v.meas r)) := by
  rcases hk : k a.val.mag.shape with e | ⟨s, f⟩
  · have h1 : a.getitem w k = .error e := by
      unfold UQ.getitem NDArr.select; rw [hk]; rfl
    rw [h1]
    exact ⟨fun e' => by simp, fun r hr => absurd hr (by simp)⟩
  · have h1 : a.getitem w k = .ok ⟨⟨⟨s, fun i => a.val.mag.elem (f i)⟩, a.val.dim⟩,
        ⟨⟨s, fun i => a.unc.mag.elem (f i)⟩, a.unc.dim⟩⟩ := by
      unfold UQ.getitem Quantity.getitem NDArr.select
      rw [ha.aligned.2, hk]
      simp only [except_bind_ok]
      rw [new_array_same ha.vdim.canon.nodup (u := ⟨⟨s, fun i => a.unc.mag.elem (f i)⟩, a.unc.dim⟩) ha.udim.canon.nodup ha.aligned.1]
      exact if_pos rfl
    rw [h1]
    refine ⟨fun e => by simp, fun r hr => ?_⟩
    simp only [Except.ok.injEq] at hr; subst hr
    refine ⟨⟨ha.vdim, ha.udim, ha.aligned.1, rfl⟩, rfl, fun v => ?_⟩
    simp only [NDArr.select, Valuation.meas, hk]

/-! ### sums and means -/

theorem sum_map_mul' (c : K) (l : List K) : (l.map (fun x => x * c)).sum = l.sum * c :=
  NDArr.sum_map_mul c l

theorem uq_sum_spec {w : World K} {a : UQ K} (ha : a.OK w) (ax : Axis) :
    (∀ e, a.sum w ax = .error e ↔ NDArr.axisMask a.val.mag.shape.length ax = .error e) ∧
    (∀ r, a.sum w ax = .ok r → r.OK w ∧ r.val.dim = a.val.dim ∧
      ∀ v : Valuation w, ReducedBy IsTotal ax (v.meas a) (v.meas r)) := by
  rcases hm : NDArr.axisMask a.val.mag.shape.length ax with e | m
  · have h1 : a.sum w ax = .error e := by
      unfold UQ.sum NDArr.reduce; rw [hm]; rfl
    rw [h1]
    exact ⟨fun e' => by simp, fun r hr => absurd hr (by simp)⟩
  · have hsh : (a.unc.mag.map (fun x => rpow x 2)).shape = a.val.mag.shape := ha.aligned.2
    have h1 : a.sum w ax = .ok ⟨⟨NDArr.reduceMask List.sum m a.val.mag, a.val.dim⟩,
        ⟨(NDArr.reduceMask List.sum m (a.unc.mag.map (fun x => rpow x 2))).map
          (fun x => rpow x (1/2)), a.val.dim⟩⟩ := by
      unfold UQ.sum NDArr.reduce
      rw [hsh, hm]
      simp only [except_bind_ok, new_arrays]
      refine if_pos ?_
      show NDArr.pick false m a.val.mag.shape = NDArr.pick false m (a.unc.mag.map _).shape
      rw [hsh]
    rw [h1]
    refine ⟨fun e => by simp, fun r hr => ?_⟩
    simp only [Except.ok.injEq] at hr; subst hr
    refine ⟨⟨ha.vdim, ha.vdim, SameContent.refl _, ?_⟩, rfl, fun v => ?_⟩
    · show NDArr.pick false m (a.unc.mag.map _).shape = NDArr.pick false m a.val.mag.shape
      rw [hsh]
    · refine ⟨NDArr.reduceMask id m (v.meas a), ?_, rfl, fun i hi => ?_⟩
      · unfold NDArr.reduce
        rw [show (v.meas a).shape = a.val.mag.shape from rfl, hm]
      · simp only [IsTotal, NDArr.reduceMask, id, Valuation.meas, NDArr.map, List.map_map, ha.size v,
          ha.aligned.2]
        have hnn : ∀ l : List (List Nat), 0 ≤ (l.map (fun r => rpow (a.unc.mag.elem (NDArr.merge m i r)) 2)).sum := by
          intro l
          refine List.sum_nonneg ?_
          intro x hx
          obtain ⟨y, _, rfl⟩ := List.mem_map.1 hx
          rw [rpow_two]; positivity
        refine ⟨?_, mul_nonneg (rpow_half_nonneg (hnn _)) (v.size_pos _).le, ?_⟩
        · rw [← sum_map_mul', List.map_map]; rfl
        · rw [mul_pow, rpow_half_sq (hnn _), ← sum_map_mul', List.map_map]
          congr 1
          refine List.map_congr_left fun x _ => ?_
          simp only [Function.comp_apply, rpow_two]; ring

theorem pick_true_length {s : List Nat} {ax : Axis} {m : List Bool} {n : Nat}
    (hm : NDArr.axisMask s.length ax = .ok m) (hn : UQ.npSize s ax = .ok n) :
    (NDArr.indices (NDArr.pick true m s)).length = n := by
  rw [NDArr.indices_length]
  cases ax with
  | all =>
    simp only [NDArr.axisMask, Except.ok.injEq] at hm
    simp only [UQ.npSize, Except.ok.injEq] at hn
    rw [← hm, ← hn, NDArr.pick_true_replicate]
  | one x =>
    simp only [NDArr.axisMask] at hm
    simp only [UQ.npSize, Quantity.shapeAt] at hn
    rcases hx : NDArr.normAxis s.length x with e | p
    · rw [hx] at hm; simp at hm
    · rw [hx] at hm hn
      simp only [Except.ok.injEq] at hm hn
      have := (NDArr.normAxis_ok.1 hx).1
      rw [← hm, ← hn, NDArr.pick_true_onehot this]
      simp
  | many l => simp [UQ.npSize] at hn

theorem uq_mean_spec {w : World K} {a : UQ K} (ha : a.OK w) (ax : Axis) (r : UQ K)
    (h : a.mean w ax = .ok r) : r.OK w ∧ r.val.dim = a.val.dim ∧
      ∀ v : Valuation w, ReducedBy IsAverage ax (v.meas a) (v.meas r) := by
  have hsh : (a.unc.mag.map (fun x => rpow x 2)).shape = a.val.mag.shape := ha.aligned.2
  rcases hm : NDArr.axisMask a.val.mag.shape.length ax with e | m
  · have h1 : a.mean w ax = .error e := by
      unfold UQ.mean NDArr.reduce; rw [hm]; rfl
    rw [h1] at h; simp at h
  · rcases hn : UQ.npSize a.val.mag.shape ax with e | n
    · have h1 : a.mean w ax = .error e := by
        unfold UQ.mean NDArr.reduce; rw [hm, hn]; rfl
      rw [h1] at h; simp at h
    · have hlen := pick_true_length hm hn
      have h1 : a.mean w ax = .ok ⟨⟨NDArr.reduceMask NDArr.lmean m a.val.mag, a.val.dim⟩,
          ⟨(NDArr.reduceMask List.sum m (a.unc.mag.map (fun x => rpow x 2))).map
            (fun x => rpow (rpow (1 / (n : K)) 2 * x) (1/2)), a.val.dim⟩⟩ := by
        unfold UQ.mean NDArr.reduce
        rw [hsh, hm, hn]
        simp only [except_bind_ok, new_arrays]
        refine if_pos ?_
        show NDArr.pick false m a.val.mag.shape = NDArr.pick false m (a.unc.mag.map _).shape
        rw [hsh]
      rw [h1] at h
      simp only [Except.ok.injEq] at h; subst h
      refine ⟨⟨ha.vdim, ha.vdim, SameContent.refl _, ?_⟩, rfl, fun v => ?_⟩
      · show NDArr.pick false m (a.unc.mag.map _).shape = NDArr.pick false m a.val.mag.shape
        rw [hsh]
      · refine ⟨NDArr.reduceMask id m (v.meas a), ?_, rfl, fun i hi => ?_⟩
        · unfold NDArr.reduce
          rw [show (v.meas a).shape = a.val.mag.shape from rfl, hm]
        · simp only [IsAverage, NDArr.reduceMask, id, Valuation.meas, NDArr.map, List.map_map, ha.size v,
            ha.aligned.2, NDArr.lmean, List.length_map, hlen]
          have hnn : ∀ l : List (List Nat), 0 ≤ rpow (1 / (n : K)) 2 *
              (l.map (fun r => rpow (a.unc.mag.elem (NDArr.merge m i r)) 2)).sum := by
            intro l
            refine mul_nonneg (by rw [rpow_two]; positivity) (List.sum_nonneg ?_)
            intro x hx
            obtain ⟨y, _, rfl⟩ := List.mem_map.1 hx
            rw [rpow_two]; positivity
          refine ⟨?_, mul_nonneg (rpow_half_nonneg (hnn _)) (v.size_pos _).le, ?_⟩
          · rw [div_mul_eq_mul_div, ← sum_map_mul', List.map_map]; rfl
          · have e1 : ∀ l : List (List Nat),
                (l.map ((fun x : Meas K => x.sigma ^ 2) ∘ fun r : List Nat =>
                  (⟨a.val.mag.elem (NDArr.merge m i r) * v.size a.val.dim,
                    a.unc.mag.elem (NDArr.merge m i r) * v.size a.val.dim⟩ : Meas K))).sum =
                (l.map (fun r => rpow (a.unc.mag.elem (NDArr.merge m i r)) 2)).sum *
                  v.size a.val.dim ^ 2 := by
              intro l
              rw [← sum_map_mul', List.map_map]
              congr 1
              refine List.map_congr_left fun x _ => ?_
              simp only [Function.comp_apply, rpow_two]; ring
            rw [mul_pow, rpow_half_sq (hnn _), e1, rpow_two]
            ring

end PQ
