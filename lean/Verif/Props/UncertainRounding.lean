import Verif.Lemmas.UncertainRounding3

/-!
# Property C149: error propagation is accurate up to a counted number of rounding errors

A sum of squares has no cancellation, so the uncertainties are accurate to a relative error, whatever the
values.  Every theorem also says that the result is again an uncertain quantity the next one applies to.
-/

namespace PQ

open Dict World

variable {A : Arith} {h : Hasher} {w : World (Fl A)}

/-! ## Auxiliary facts -/

theorem near_of_offL {n : ℝ} {R : Meas ℝ → Meas ℝ → Meas ℝ → Prop} {x y z e : Meas ℝ} (hR : R x y e)
    (h1 : OffL A n z.value e.value) (h2 : OffL A n z.sigma e.sigma) : Near A n R x y z := ⟨e, hR, h1.off, h2.off⟩

theorem isSum_sqrt (x y : Meas ℝ) : IsSum x y ⟨x.value + 1 * y.value, Real.sqrt (x.sigma ^ 2 + y.sigma ^ 2)⟩ :=
  ⟨by simp, Real.sqrt_nonneg _, Real.sq_sqrt (by positivity)⟩

theorem isDifference_sqrt (x y : Meas ℝ) :
    IsDifference x y ⟨x.value + (-1) * y.value, Real.sqrt (x.sigma ^ 2 + y.sigma ^ 2)⟩ :=
  ⟨by simp only; ring, Real.sqrt_nonneg _, Real.sq_sqrt (by positivity)⟩

/-! ## Construction and conversion -/

/-- C149: an uncertain quantity made of two arrays of the same shape, in any units, holds them unrounded. -/
theorem C149_new (m u : NDArr (Fl A)) (d : Dim) (hd : DimOK w d) (hs : m.shape = u.shape) :
    ∃ r, UQ.new w (.array m) d (some (.array u)) = .ok r ∧ r.OK w ∧ ∀ v : FlValuation w,
      v.meas r = ⟨m.shape, fun i => ⟨(m.elem i).val * v.size d, (u.elem i).val * v.size d⟩⟩ := by
  refine ⟨⟨⟨m, d⟩, ⟨u, d⟩⟩, ?_, ⟨hd, hd, SameContent.refl _, hs.symm⟩, fun v => rfl⟩
  rw [fl_new_arrays, if_pos hs]

/-- C149: `rescale` keeps the values and the uncertainties, each up to the errors the two units stand for,
plus four. -/
theorem C149_rescale (hr : Reachable h w) (cost : UKey → ℝ) (hb : ErrorBudget w cost) (a r : UQ (Fl A)) (d : Dim)
    (ha : a.OK w) (hd : DimOK w d) (hs : HashSafe w a.val.dim d) (hres : a.rescale w d = .ok r) :
    r.OK w ∧ SameContent r.val.dim d ∧ ∀ v : FlValuation w, (v.meas r).shape = (v.meas a).shape ∧ ∀ i,
      Off A (dimCost cost a.val.dim + dimCost cost d + 4) ((v.meas r).elem i).value ((v.meas a).elem i).value ∧
      Off A (dimCost cost a.val.dim + dimCost cost d + 4) ((v.meas r).elem i).sigma ((v.meas a).elem i).sigma := by
  obtain ⟨h1, h2, h3⟩ := fl_uq_rescale hr cost hb ha hd hs hres
  exact ⟨h1, h2, fun v => ⟨(h3 v).1, fun i => ⟨((h3 v).2 i).1.off, ((h3 v).2 i).2.off⟩⟩⟩

/-- C149: rounding never decides whether a conversion is possible. -/
theorem C149_rescale_returns (hr : Reachable h w) (a : UQ (Fl A)) (d : Dim) (ha : a.OK w) (hd : DimOK w d)
    (hs : HashSafe w a.val.dim d) : Returns (a.rescale w d) ↔ FlCompatible w a.val.dim d :=
  fl_uq_rescale_returns hr ha hd hs

/-! ## Sums and differences -/

/-- C149: in a sum the uncertainty is that of the exact rule up to the errors of converting the second
operand, plus two; the value has an absolute error, as in C94. -/
theorem C149_sum (hr : Reachable h w) (cost : UKey → ℝ) (hb : ErrorBudget w cost) (a b r : UQ (Fl A))
    (ha : a.OK w) (hob : b.OK w) (hs : HashSafe w b.val.dim a.val.dim) (hres : a.add w (.uq b) = .ok r) :
    r.OK w ∧ r.val.dim = a.val.dim ∧ ∀ v : FlValuation w,
      Elementwise (NearSum A (dimCost cost b.val.dim + dimCost cost a.val.dim + 6) IsSum)
        (v.meas a) (v.meas b) (v.meas r) := by
  have n1 := dimCost_nonneg hb.nonneg b.val.dim
  have n2 := dimCost_nonneg hb.nonneg a.val.dim
  unfold UQ.add at hres
  rcases ho : a.scaleOther w (.uq b) with e | o
  · rw [ho] at hres; exact absurd hres (by simp [bind, Except.bind])
  rw [ho] at hres
  obtain ⟨b', rfl, c1, c2, c3⟩ := fl_uq_scaleOther hr cost hb ha hob hs ho
  simp only [except_bind_ok] at hres
  rw [fl_add_deq (deq_same c1.vdim.canon.nodup ha.vdim.canon.nodup c2)] at hres
  obtain ⟨d1, d2, d3⟩ := fl_sum_part (n := dimCost cost b.val.dim + dimCost cost a.val.dim + 4) (by linarith) ha c1 c2
    _ 1 (by simp) add_form IsSum isSum_sqrt hres
  refine ⟨d1, d2, fun v => ?_⟩
  have := d3 v _ (c3 v)
  rwa [show dimCost cost b.val.dim + dimCost cost a.val.dim + 4 + 2 =
    dimCost cost b.val.dim + dimCost cost a.val.dim + 6 by ring] at this

/-- C149: the same for a difference. -/
theorem C149_difference (hr : Reachable h w) (cost : UKey → ℝ) (hb : ErrorBudget w cost) (a b r : UQ (Fl A))
    (ha : a.OK w) (hob : b.OK w) (hs : HashSafe w b.val.dim a.val.dim) (hres : a.sub w (.uq b) = .ok r) :
    r.OK w ∧ r.val.dim = a.val.dim ∧ ∀ v : FlValuation w,
      Elementwise (NearSum A (dimCost cost b.val.dim + dimCost cost a.val.dim + 6) IsDifference)
        (v.meas a) (v.meas b) (v.meas r) := by
  have n1 := dimCost_nonneg hb.nonneg b.val.dim
  have n2 := dimCost_nonneg hb.nonneg a.val.dim
  unfold UQ.sub at hres
  rcases ho : a.scaleOther w (.uq b) with e | o
  · rw [ho] at hres; exact absurd hres (by simp [bind, Except.bind])
  rw [ho] at hres
  obtain ⟨b', rfl, c1, c2, c3⟩ := fl_uq_scaleOther hr cost hb ha hob hs ho
  simp only [except_bind_ok] at hres
  rw [fl_sub_deq (deq_same c1.vdim.canon.nodup ha.vdim.canon.nodup c2)] at hres
  obtain ⟨d1, d2, d3⟩ := fl_sum_part (n := dimCost cost b.val.dim + dimCost cost a.val.dim + 4) (by linarith) ha c1 c2
    _ (-1) (by simp) sub_form IsDifference isDifference_sqrt hres
  refine ⟨d1, d2, fun v => ?_⟩
  have := d3 v _ (c3 v)
  rwa [show dimCost cost b.val.dim + dimCost cost a.val.dim + 4 + 2 =
    dimCost cost b.val.dim + dimCost cost a.val.dim + 6 by ring] at this

/-! ## Products and quotients with an exact operand -/

/-- C149: multiplying by an exact quantity or number, from either side. -/
theorem C149_times_exact (a r : UQ (Fl A)) (o : Operand (Fl A)) (ha : a.OK w) (ho : DimOK w o.dim)
    (hres : a.mul w (.plain o) = .ok r ∨ a.rmul w (.plain o) = .ok r) :
    r.OK w ∧ SameContent r.val.dim (Dim.mul a.val.dim o.dim) ∧ ∀ v : FlValuation w,
      Elementwise (Near A (5/2) IsProduct) (v.meas a) (v.exact o) (v.meas r) := by
  have hres : a.mul w (.plain o) = .ok r := by rcases hres with e | e <;> exact e
  obtain ⟨h1, h2, h3, h4⟩ := fl_mul_plain ha ho hres
  refine ⟨h1, h2, fun v => ⟨by rw [fl_exact_shape]; exact h3, fun i hi => ?_⟩⟩
  obtain ⟨k1, k2⟩ := h4 v 0 0 (v.meas a) rfl i hi (OffL.refl le_rfl _) (OffL.refl le_rfl _)
  rw [zero_add] at k1 k2
  rw [fl_exact_shape]
  refine near_of_offL (e := ⟨_, _⟩) ⟨⟨rfl, ?_⟩, abs_nonneg _⟩ (k1.mono (by norm_num)) k2
  change |_| ^ 2 = _
  rw [sq_abs]
  simp only [fl_exact_elem]
  ring

/-- C149: dividing by an exact quantity or number, where it is not zero. -/
theorem C149_over_exact (a r : UQ (Fl A)) (o : Operand (Fl A)) (ha : a.OK w) (ho : DimOK w o.dim)
    (hres : a.truediv w (.plain o) = .ok r) :
    r.OK w ∧ SameContent r.val.dim (Dim.div a.val.dim o.dim) ∧ ∀ v : FlValuation w,
      Elementwise (fun x y z => y.value ≠ 0 → Near A (5/2) IsQuotient x y z)
        (v.meas a) (v.exact o) (v.meas r) := by
  obtain ⟨h1, h2, h3⟩ := fl_div_plain ha ho hres
  refine ⟨h1, h2, fun v => ⟨(h3 v).1, fun i hi h0 => ?_⟩⟩
  obtain ⟨k1, k2⟩ := (h3 v).2 i hi h0
  refine near_of_offL (e := ⟨_, _⟩) ⟨⟨rfl, ?_⟩, abs_nonneg _⟩ (k1.mono (by norm_num)) k2
  change |_| ^ 2 = _
  rw [sq_abs]
  simp only [fl_exact_elem, mul_zero, zero_div]
  ring

/-- C149: dividing an exact quantity or number by an uncertain quantity, where its value is not zero. -/
theorem C149_exact_over (a r : UQ (Fl A)) (o : Operand (Fl A)) (ha : a.OK w) (ho : DimOK w o.dim)
    (hres : a.rtruediv w o = .ok r) :
    r.OK w ∧ SameContent r.val.dim (Dim.div o.dim a.val.dim) ∧ ∀ v : FlValuation w,
      Elementwise (fun x y z => y.value ≠ 0 → Near A (9/2) IsQuotient x y z)
        (v.exact o) (v.meas a) (v.meas r) := by
  obtain ⟨h1, h2, h3⟩ := fl_rdiv ha ho hres
  refine ⟨h1, h2, fun v => ⟨(h3 v).1, fun i hi h0 => ?_⟩⟩
  obtain ⟨k1, k2⟩ := (h3 v).2 i hi h0
  refine near_of_offL (e := ⟨_, _⟩) ⟨⟨rfl, ?_⟩, abs_nonneg _⟩ (k1.mono (by norm_num)) k2
  change |_| ^ 2 = _
  rw [sq_abs]
  simp only [fl_exact_elem, zero_div]
  ring

/-! ## Products, quotients and powers of uncertain quantities -/

/-- C149: the product of two uncertain quantities, where both values are not zero (up to the sign of the
uncertainty, as in C75). -/
theorem C149_product (a b r : UQ (Fl A)) (ha : a.OK w) (hob : b.OK w) (hres : a.mul w (.uq b) = .ok r) :
    r.OK w ∧ r.val.dim = Dim.mul a.val.dim b.val.dim ∧ ∀ v : FlValuation w,
      Elementwise (fun x y z => x.value ≠ 0 → y.value ≠ 0 → Near A 5 IsProductUpToSign x y z)
        (v.meas a) (v.meas b) (v.meas r) := by
  obtain ⟨h1, h2, h3⟩ := fl_mul_uq ha hob hres
  refine ⟨h1, h2, fun v => ⟨(h3 v).1, fun i hi hx hy => ?_⟩⟩
  obtain ⟨k1, k2⟩ := (h3 v).2 i hi hx hy
  refine near_of_offL (e := ⟨_, _⟩) ⟨rfl, ?_⟩ (k1.mono (by norm_num)) k2
  rw [mul_pow, Real.sq_sqrt (by positivity)]
  field_simp

/-- C149: the quotient of two uncertain quantities. -/
theorem C149_quotient (a b r : UQ (Fl A)) (ha : a.OK w) (hob : b.OK w) (hres : a.truediv w (.uq b) = .ok r) :
    r.OK w ∧ r.val.dim = Dim.div a.val.dim b.val.dim ∧ ∀ v : FlValuation w,
      Elementwise (fun x y z => x.value ≠ 0 → y.value ≠ 0 → Near A 5 IsQuotientUpToSign x y z)
        (v.meas a) (v.meas b) (v.meas r) := by
  obtain ⟨h1, h2, h3⟩ := fl_div_uq ha hob hres
  refine ⟨h1, h2, fun v => ⟨(h3 v).1, fun i hi hx hy => ?_⟩⟩
  obtain ⟨k1, k2⟩ := (h3 v).2 i hi hx hy
  refine near_of_offL (e := ⟨_, _⟩) ⟨rfl, ?_⟩ (k1.mono (by norm_num)) k2
  rw [mul_pow, Real.sq_sqrt (by positivity)]
  field_simp

/-- C149: powers of an uncertain quantity (`sqrt` is the power 1/2), where its value is positive. -/
theorem C149_power (a r : UQ (Fl A)) (e : ExpArg) (ha : a.OK w) (hres : a.pow w e = .ok r) :
    ∃ p : ℚ, (∀ i, NDArr.InB e.vals.shape i → e.vals.elem i = p) ∧ r.OK w ∧ r.val.dim = Dim.pow a.val.dim p ∧
      ∀ v : FlValuation w, Elementwise (fun x _ z => 0 < x.value → ∃ m : Meas ℝ, IsPowerUpToSign p x m ∧
        Off A 5 z.value m.value ∧ Off A 5 z.sigma m.sigma) (v.meas a) e.vals (v.meas r) := by
  obtain ⟨h1, p, h2, h3, h4⟩ := fl_pow_uq ha hres
  refine ⟨p, uniformExp_ok h2, h1, h3, fun v => ⟨(h4 v).1, fun i hi hx => ?_⟩⟩
  obtain ⟨k1, k2⟩ := (h4 v).2 i hi hx
  refine ⟨⟨_, _⟩, ⟨rfl, ?_⟩, (k1.mono (by norm_num)).off, k2.off⟩
  have e1 := LawfulRPow.rpow_add ((v.meas a).elem (NDArr.bidx (v.meas a).shape i)).value (p - 1) 1 hx
  rw [sub_add_cancel, LawfulRPow.rpow_one] at e1
  simp only
  rw [e1]
  field_simp

/-- C149: powers with one exponent for all elements always return. -/
theorem C149_power_returns (a : UQ (Fl A)) (p : ℚ) (ha : a.OK w) : Returns (a.pow w (expOf p)) := by
  have hs : a.unc.mag.shape = a.val.mag.shape := ha.aligned.2
  unfold UQ.pow
  rw [pow_expOf]
  simp only [except_bind_ok, Quantity.mul, applyUF2, UQ.relative, ufunc2Dim, dMultiply, Operand.arr]
  obtain ⟨Q, hQ⟩ : ∃ Q : NDArr (Fl A), Q = ⟨a.val.mag.shape, fun i =>
    rpow (a.val.mag.elem (NDArr.bidx a.val.mag.shape i)) p⟩ := ⟨_, rfl⟩
  have hQs : Q.shape = a.val.mag.shape := by rw [hQ]
  rw [← hQ]
  rw [NDArr.bin_intro (a := Q) (b := NDArr.map _ (expOf p).vals) (s := Q.shape) _ (NDArr.bshape_nil_right _)]
  rw [NDArr.bin_intro (a := a.unc.mag) (b := a.val.mag) (s := Q.shape) _
    (by rw [hs, hQs]; exact NDArr.bshape_self _)]
  simp only [except_bind_ok]
  have hB : ∀ F G : List Nat → Fl A, NDArr.bin (fun x1 x2 => x1 * x2) (⟨Q.shape, F⟩ : NDArr (Fl A)) ⟨Q.shape, G⟩ =
      .ok ⟨Q.shape, fun i => F (NDArr.bidx Q.shape i) * G (NDArr.bidx Q.shape i)⟩ :=
    fun F G => NDArr.bin_intro _ (NDArr.bshape_self _)
  rw [hB]
  simp only [except_bind_ok]
  have hn := (ha.vdim.pow p).canon.nodup
  generalize Dim.pow a.val.dim p = D at hn
  unfold UQ.setUncertainty
  simp only [Operand.toQuantity, dne_eq, deq_same hn hn (SameContent.refl _), Bool.not_true, Bool.false_eq_true, if_false]
  exact ⟨_, if_pos trivial⟩

theorem fl_mul_plain_returns {x : UQ (Fl A)} (o : Operand (Fl A)) (hs : x.unc.mag.shape = x.val.mag.shape)
    {s : List Nat} (hb : NDArr.bshape x.val.mag.shape o.arr.shape = some s) : Returns (x.mul w (.plain o)) := by
  have hq : ∀ q : Quantity (Fl A), q.mag.shape = x.val.mag.shape → ∀ o : Operand (Fl A),
      NDArr.bshape x.val.mag.shape o.arr.shape = some s → ∃ r, q.mul w o = .ok r ∧ r.mag.shape = s := by
    intro q hq o hb
    unfold Quantity.mul applyUF2
    rw [show Operand.arr (.quantity q) = q.mag from rfl, NDArr.bin_intro (a := q.mag) (b := o.arr) (s := s) _ (by rw [hq, hb])]
    cases o <;> exact ⟨_, rfl, rfl⟩
  obtain ⟨r, hr, -⟩ := hq x.val rfl o hb
  have hy : ∃ y, UQ.sqOp o = .ok y ∧ y.arr.shape = o.arr.shape := by
    cases o with
    | quantity q => exact ⟨.quantity ⟨⟨q.mag.shape, fun i => rpow (q.mag.elem (NDArr.bidx q.mag.shape i)) 2⟩, Dim.pow q.dim 2⟩,
        by rw [UQ.sqOp, pow_expOf]; rfl, rfl⟩
    | array m => exact ⟨_, rfl, rfl⟩
  obtain ⟨y, hy, ys⟩ := hy
  unfold UQ.mul
  simp only [UOperand.op, hr, hy, except_bind_ok, pow_expOf]
  obtain ⟨p, hp, -⟩ := hq ⟨⟨x.unc.mag.shape, fun i => rpow (x.unc.mag.elem (NDArr.bidx x.unc.mag.shape i)) 2⟩,
    Dim.pow x.unc.dim 2⟩ hs y (by rw [ys, hb])
  rw [hp]
  exact ⟨_, by simp only [except_bind_ok]; rfl⟩

/-- C149: dividing an exact operand by an uncertain quantity returns when their shapes fit together. -/
theorem C149_exact_over_returns (a : UQ (Fl A)) (o : Operand (Fl A)) (ha : a.OK w)
    (hb : (NDArr.bshape a.val.mag.shape o.arr.shape).isSome) : Returns (a.rtruediv w o) := by
  have hs : a.unc.mag.shape = a.val.mag.shape := ha.aligned.2
  have hB : ∀ F : List Nat → Fl A, NDArr.bin (fun x1 x2 => x1 / x2) (⟨a.val.mag.shape, F⟩ : NDArr (Fl A)) a.val.mag =
      .ok ⟨a.val.mag.shape, fun i => F (NDArr.bidx a.val.mag.shape i) / a.val.mag.elem (NDArr.bidx a.val.mag.shape i)⟩ :=
    fun F => NDArr.bin_intro _ (NDArr.bshape_self _)
  unfold UQ.rtruediv UQ.relative
  rw [NDArr.bin_intro (a := a.unc.mag) (b := a.val.mag) (s := a.val.mag.shape) _
    (by rw [hs]; exact NDArr.bshape_self _)]
  simp only [except_bind_ok]
  rw [hB]
  simp only [except_bind_ok]
  rw [fl_new_arrays, if_pos (show (NDArr.map (fun x => 1 / x) a.val.mag).shape = a.val.mag.shape from rfl)]
  simp only [except_bind_ok]
  obtain ⟨s, hb⟩ := Option.isSome_iff_exists.mp hb
  exact fl_mul_plain_returns o rfl (s := s) hb

/-! ## A concrete case -/

/-- `[2] km` with an uncertainty of 0.1 km, and `[-3] m` with an uncertainty of 0, in an arithmetic in which
every result comes out ten percent too small. -/
noncomputable def flUKm : UQ (Fl exArith) := ⟨⟨⟨[1], fun _ => ⟨2⟩⟩, dKm⟩, ⟨⟨[1], fun _ => ⟨1/10⟩⟩, dKm⟩⟩
noncomputable def flUM : UQ (Fl exArith) := ⟨⟨⟨[1], fun _ => ⟨-3⟩⟩, dM⟩, ⟨⟨[1], fun _ => ⟨0⟩⟩, dM⟩⟩

theorem flUKm_ok : flUKm.OK flWorld :=
  ⟨fl_dimOK _ (.inl rfl), fl_dimOK _ (.inl rfl), SameContent.refl _, rfl⟩
theorem flUM_ok : flUM.OK flWorld :=
  ⟨fl_dimOK _ (.inr rfl), fl_dimOK _ (.inr rfl), SameContent.refl _, rfl⟩

/-- Every operator returns, and the values are not zero. -/
example : Returns (flUKm.mul flWorld (.uq flUM)) ∧ Returns (flUKm.truediv flWorld (.uq flUM)) ∧
    Returns (flUKm.mul flWorld (.plain (.quantity flQ))) ∧ Returns (flUKm.truediv flWorld (.plain (.quantity flQ))) ∧
    Returns (flUKm.rtruediv flWorld (.quantity flQ)) ∧ Returns (flUKm.pow flWorld (expOf (1/2))) ∧
    (∀ v : FlValuation flWorld, 0 < ((v.meas flUKm).elem [0]).value ∧ ((v.meas flUM).elem [0]).value ≠ 0) := by
  refine ⟨⟨_, rfl⟩, ⟨_, rfl⟩, ⟨_, rfl⟩, ⟨_, rfl⟩, C149_exact_over_returns _ _ flUKm_ok rfl, C149_power_returns _ _ flUKm_ok, fun v => ⟨?_, ?_⟩⟩
  · exact mul_pos (by norm_num : (0 : ℝ) < 2) (v.size_pos _)
  · exact mul_ne_zero (by norm_num : (-3 : ℝ) ≠ 0) (v.size_pos _).ne'

end PQ
