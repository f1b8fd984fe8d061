import Verif.Lemmas.UncertainRounding

/-! # Operators of uncertain quantities under rounding -/

namespace PQ

open Dict World

variable {A : Arith} {h : Hasher} {w : World (Fl A)}

/-! ### pieces of the operators -/

theorem fl_add_deq {x y : Quantity (Fl A)} (hd : w.deq y.dim x.dim = true) :
    x.add w (.quantity y) = (NDArr.bin (· + ·) x.mag y.mag).map (fun m => ⟨m, x.dim⟩) := by
  unfold Quantity.add Quantity.scaleOther
  simp only [Operand.toQuantity, dne_eq, hd, Bool.not_true, Bool.false_eq_true, if_false, applyUF2,
    ufunc2Dim, dCheckUniform, deq_comm w x.dim y.dim, if_true, Operand.arr]
  rcases NDArr.bin (fun a b => a + b) x.mag y.mag with e | m <;> rfl

theorem fl_sub_deq {x y : Quantity (Fl A)} (hd : w.deq y.dim x.dim = true) :
    x.sub w (.quantity y) = (NDArr.bin (· - ·) x.mag y.mag).map (fun m => ⟨m, x.dim⟩) := by
  unfold Quantity.sub Quantity.scaleOther
  simp only [Operand.toQuantity, dne_eq, hd, Bool.not_true, Bool.false_eq_true, if_false, applyUF2,
    ufunc2Dim, dCheckUniform, deq_comm w x.dim y.dim, if_true, Operand.arr]
  rcases NDArr.bin (fun a b => a - b) x.mag y.mag with e | m <;> rfl

theorem fl_mul_elim {x r : Quantity (Fl A)} {o : Operand (Fl A)} (hr : x.mul w o = .ok r) :
    r.dim = (match o with | .quantity y => Dim.mul x.dim y.dim | .array _ => x.dim) ∧
      NDArr.bshape x.mag.shape o.arr.shape = some r.mag.shape ∧
      ∀ i, r.mag.elem i = x.mag.elem (NDArr.bidx x.mag.shape i) * o.arr.elem (NDArr.bidx o.arr.shape i) := by
  obtain ⟨h1, h2⟩ := fl_applyUF2 hr
  refine ⟨?_, NDArr.bin_elim h2⟩
  cases o <;> simp only [ufunc2Dim, dMultiply, Except.ok.injEq] at h1 <;> exact h1.symm

theorem fl_div_elim {x r : Quantity (Fl A)} {o : Operand (Fl A)} (hr : x.truediv w o = .ok r) :
    r.dim = (match o with | .quantity y => Dim.div x.dim y.dim | .array _ => x.dim) ∧
      NDArr.bshape x.mag.shape o.arr.shape = some r.mag.shape ∧
      ∀ i, r.mag.elem i = x.mag.elem (NDArr.bidx x.mag.shape i) / o.arr.elem (NDArr.bidx o.arr.shape i) := by
  obtain ⟨h1, h2⟩ := fl_applyUF2 hr
  refine ⟨?_, NDArr.bin_elim h2⟩
  cases o <;> simp only [ufunc2Dim, dDivide, Except.ok.injEq] at h1 <;> exact h1.symm

theorem fl_setUncertainty_same {self : UQ (Fl A)} {u : Quantity (Fl A)}
    (hv : Nodup self.val.dim) (hu : Nodup u.dim) (hs : SameContent u.dim self.val.dim) :
    self.setUncertainty w (.quantity u) =
      if self.val.mag.shape = u.mag.shape then .ok ⟨self.val, u⟩ else .error .valueError := by
  unfold UQ.setUncertainty
  simp only [Operand.toQuantity, dne_eq, deq_same hu hv hs, Bool.not_true, Bool.false_eq_true, if_false]

theorem fl_new_same {q u : Quantity (Fl A)} (hv : Nodup q.dim) (hu : Nodup u.dim)
    (hs : SameContent u.dim q.dim) :
    UQ.new w (.quantity q) [] (some (.quantity u)) =
      if q.mag.shape = u.mag.shape then .ok ⟨q, u⟩ else .error .valueError := by
  have hr : UQ.mkQuantity w (.quantity u) q.dim = .ok u := by
    simp only [UQ.mkQuantity]
    split
    · rfl
    · unfold Quantity.rescale; rw [if_pos (deq_same hu hv hs)]
  unfold UQ.new
  rw [show UQ.mkQuantity w (.quantity q) [] = .ok q from rfl]
  simp only [hr]
  exact fl_setUncertainty_same hv hu hs

theorem fl_sqrt_sq_dim {a : Dim} (ha : Canon a) : SameContent (Dim.pow (Dim.pow a 2) (1/2)) a := by
  refine (canon_pow (canon_pow ha 2) (1/2)).sameContent ha (fun u => ?_)
  rw [expo_pow, expo_pow]; ring

/-- `(a**2 + b**2)**0.5`. -/
theorem fl_quad {a b r : Quantity (Fl A)} (ha : Canon a.dim) (hb : Canon b.dim) (hs : SameContent b.dim a.dim)
    (hr : UQ.quad w a b = .ok r) : r.dim = Dim.pow (Dim.pow a.dim 2) (1/2) ∧
      NDArr.bshape a.mag.shape b.mag.shape = some r.mag.shape ∧
      ∀ i, NDArr.InB r.mag.shape i → (r.mag.elem i).val =
        A.pow (A.add (A.pow (a.mag.elem (NDArr.bidx a.mag.shape i)).val 2)
          (A.pow (b.mag.elem (NDArr.bidx b.mag.shape i)).val 2)) (1/2) := by
  have hd : w.deq (Dim.pow b.dim 2) (Dim.pow a.dim 2) = true :=
    deq_same (canon_pow hb 2).nodup (canon_pow ha 2).nodup (hs.pow hb ha 2)
  unfold UQ.quad at hr
  simp only [pow_expOf, except_bind_ok] at hr
  rw [fl_add_deq hd] at hr
  rcases hm : NDArr.bin (fun x y : Fl A => x + y)
      (⟨a.mag.shape, fun i => rpow (a.mag.elem (NDArr.bidx a.mag.shape i)) 2⟩ : NDArr (Fl A))
      ⟨b.mag.shape, fun i => rpow (b.mag.elem (NDArr.bidx b.mag.shape i)) 2⟩ with e | m
  · rw [hm] at hr; exact absurd hr (by simp [Except.map, bind, Except.bind])
  rw [hm] at hr
  simp only [Except.map, except_bind_ok, Except.ok.injEq] at hr
  subst hr
  obtain ⟨m1, m2⟩ := NDArr.bin_elim hm
  refine ⟨rfl, m1, fun i hi => ?_⟩
  simp only at hi m1 m2 ⊢
  rw [NDArr.bidx_self hi, m2, NDArr.bidx_self (NDArr.bidx_inb m1 hi), NDArr.bidx_self (NDArr.bidx_inb_right m1 hi)]
  rfl

/-! ### conversions -/

theorem fl_rescale_shape {q r : Quantity (Fl A)} {d : Dim} (hq : DimOK w q.dim) (hd : DimOK w d)
    (hr : q.rescale w d = .ok r) : DimOK w r.dim ∧ r.mag.shape = q.mag.shape := by
  unfold Quantity.rescale at hr
  split at hr
  · simp only [Except.ok.injEq] at hr; subst hr; exact ⟨hq, rfl⟩
  · split at hr <;> simp only [reduceCtorEq, Except.ok.injEq] at hr
    subst hr; exact ⟨hd, rfl⟩

theorem dimCost_same (cost : UKey → ℝ) {a b : Dim} (ha : Nodup a) (hb : Nodup b) (hs : SameContent a b) :
    dimCost cost a = dimCost cost b := by
  unfold dimCost
  have : a.Perm b := perm_of_get?_eq ha hb hs
  exact (this.map _).sum_eq

theorem fl_hashSafe_congr (hr : Reachable h w) {a a' b : Dim} (ha : DimOK w a) (ha' : DimOK w a') (hb : DimOK w b)
    (hs : SameContent a a') (hh : HashSafe w a b) : HashSafe w a' b := by
  obtain ⟨cost, hc⟩ := exists_budget hr
  obtain ⟨κ, hw⟩ := hr.flWF cost hc
  obtain ⟨-, a2, -, -⟩ := hw.refUnits hc.nonneg ha
  obtain ⟨-, a2', -, -⟩ := hw.refUnits hc.nonneg ha'
  obtain ⟨-, b2, -, -⟩ := hw.refUnits hc.nonneg hb
  have hcomp : FlCompatible w a a' := ⟨1, fun v => by
    rw [one_mul]; exact dsize_same v.val ha.canon.nodup ha'.canon.nodup hs⟩
  exact ⟨hh.direct.congr ha.canon.nodup ha'.canon.nodup hb.canon.nodup hb.canon.nodup hs (SameContent.refl _),
    hh.refs.congr a2.canon.nodup a2'.canon.nodup b2.canon.nodup b2.canon.nodup
      ((hw.compatible_iff hc.nonneg ha ha').1 hcomp) (SameContent.refl _)⟩

theorem fl_OK_size {u : UQ (Fl A)} (hu : u.OK w) (v : FlValuation w) : v.size u.unc.dim = v.size u.val.dim :=
  dsize_same v.val hu.udim.canon.nodup hu.vdim.canon.nodup hu.aligned.1

/-- Two arrays of measurements, equal up to `n` rounding errors. -/
def MeasOffL (A : Arith) (n : ℝ) (x y : NDArr (Meas ℝ)) : Prop :=
  x.shape = y.shape ∧ ∀ i, OffL A n (x.elem i).value (y.elem i).value ∧ OffL A n (x.elem i).sigma (y.elem i).sigma

theorem fl_uq_rescale (hr : Reachable h w) (cost : UKey → ℝ) (hb : ErrorBudget w cost) {u r : UQ (Fl A)} {d : Dim}
    (hu : u.OK w) (hd : DimOK w d) (hs : HashSafe w u.val.dim d) (hres : u.rescale w d = .ok r) :
    r.OK w ∧ SameContent r.val.dim d ∧ ∀ v : FlValuation w,
      MeasOffL A (dimCost cost u.val.dim + dimCost cost d + 4) (v.meas r) (v.meas u) := by
  have hs' : HashSafe w u.unc.dim d := fl_hashSafe_congr hr hu.vdim hu.udim hd hu.aligned.1.symm hs
  unfold UQ.rescale at hres
  rcases h1 : u.val.rescale w d with e | q
  · rw [h1] at hres; exact absurd hres (by simp)
  rw [h1] at hres
  rcases h2 : u.unc.rescale w d with e | q'
  · rw [h2] at hres; exact absurd hres (by simp)
  rw [h2] at hres
  simp only at hres
  obtain ⟨a1, a2⟩ := C58_rescale hr cost hb _ _ _ hu.vdim hd hs h1
  obtain ⟨b1, b2⟩ := C58_rescale hr cost hb _ _ _ hu.udim hd hs' h2
  obtain ⟨a3, a4⟩ := fl_rescale_shape hu.vdim hd h1
  obtain ⟨b3, b4⟩ := fl_rescale_shape hu.udim hd h2
  rw [fl_setUncertainty_same a3.canon.nodup b3.canon.nodup (b1.trans a1.symm)] at hres
  split at hres
  · rename_i hsh
    simp only [Except.ok.injEq] at hres; subst hres
    rw [dimCost_same cost hu.udim.canon.nodup hu.vdim.canon.nodup hu.aligned.1] at b2
    refine ⟨⟨a3, b3, b1.trans a1.symm, hsh.symm⟩, a1, fun v => ⟨a4, fun i => ⟨?_, ?_⟩⟩⟩
    · exact (a2 v).log.2 i
    · exact (b2 v).log.2 i
  · exact absurd hres (by simp)

theorem fl_uq_rescale_returns (hr : Reachable h w) {u : UQ (Fl A)} {d : Dim}
    (hu : u.OK w) (hd : DimOK w d) (hs : HashSafe w u.val.dim d) :
    Returns (u.rescale w d) ↔ FlCompatible w u.val.dim d := by
  have hs' : HashSafe w u.unc.dim d := fl_hashSafe_congr hr hu.vdim hu.udim hd hu.aligned.1.symm hs
  have hsz : FlCompatible w u.unc.dim d ↔ FlCompatible w u.val.dim d := by
    constructor <;> rintro ⟨c, hc⟩ <;> refine ⟨c, fun v => ?_⟩
    · rw [← fl_OK_size hu v]; exact hc v
    · rw [fl_OK_size hu v]; exact hc v
  have k1 := C58_returns hr u.val d hu.vdim hd hs
  have k2 := (C58_returns hr u.unc d hu.udim hd hs').trans hsz
  rw [← k1]
  unfold UQ.rescale
  rcases h1 : u.val.rescale w d with e | q
  · exact ⟨fun h => absurd h (not_returns_error _), fun h => absurd h (not_returns_error _)⟩
  · obtain ⟨q', h2⟩ := k2.2 (k1.1 (by rw [h1]; exact returns_ok _))
    obtain ⟨cost, hc⟩ := exists_budget hr
    obtain ⟨a1, -⟩ := C58_rescale hr cost hc _ _ _ hu.vdim hd hs h1
    obtain ⟨b1, -⟩ := C58_rescale hr cost hc _ _ _ hu.udim hd hs' h2
    obtain ⟨a3, a4⟩ := fl_rescale_shape hu.vdim hd h1
    obtain ⟨b3, b4⟩ := fl_rescale_shape hu.udim hd h2
    simp only [h2]
    rw [fl_setUncertainty_same a3.canon.nodup b3.canon.nodup (b1.trans a1.symm),
      if_pos (by rw [a4, b4]; exact hu.aligned.2.symm)]
    exact ⟨fun _ => returns_ok _, fun _ => returns_ok _⟩

/-- The other operand as it is used. -/
theorem fl_uq_scaleOther (hr : Reachable h w) (cost : UKey → ℝ) (hb : ErrorBudget w cost) {a b : UQ (Fl A)}
    {o : UOperand (Fl A)} (ha : a.OK w) (hob : b.OK w) (hs : HashSafe w b.val.dim a.val.dim)
    (ho : a.scaleOther w (.uq b) = .ok o) : ∃ b', o = .uq b' ∧ b'.OK w ∧ SameContent b'.val.dim a.val.dim ∧
      ∀ v : FlValuation w, MeasOffL A (dimCost cost b.val.dim + dimCost cost a.val.dim + 4) (v.meas b') (v.meas b) := by
  unfold UQ.scaleOther at ho
  simp only at ho
  split at ho
  · rcases hres : b.rescale w a.val.dim with e | b'
    · rw [hres] at ho; exact absurd ho (by simp)
    · rw [hres] at ho
      simp only [Except.ok.injEq] at ho; subst ho
      obtain ⟨c1, c2, c3⟩ := fl_uq_rescale hr cost hb hob ha.vdim hs hres
      exact ⟨b', rfl, c1, c2, c3⟩
  · rename_i hne
    simp only [Except.ok.injEq] at ho; subst ho
    rw [dne_eq, Bool.not_eq_true, Bool.not_eq_false'] at hne
    have n1 := dimCost_nonneg hb.nonneg b.val.dim
    have n2 := dimCost_nonneg hb.nonneg a.val.dim
    exact ⟨b, rfl, hob, hs.direct hne, fun v => ⟨rfl, fun i => ⟨OffL.refl (by linarith) _, OffL.refl (by linarith) _⟩⟩⟩

/-! ### sums -/

theorem MeasOffL.elem {n : ℝ} {x y : NDArr (Meas ℝ)} (hx : MeasOffL A n x y) (i : List Nat) :
    OffL A n (x.elem i).value (y.elem i).value ∧ OffL A n (x.elem i).sigma (y.elem i).sigma := hx.2 i

/-- The common part of `__add__` and `__sub__` after the other operand is converted. -/
theorem fl_sum_part {n : ℝ} (hn : 0 ≤ n) {a b r : UQ (Fl A)} (ha : a.OK w) (hb : b.OK w)
    (hab : SameContent b.val.dim a.val.dim) (g : Fl A → Fl A → Fl A) (s : ℝ) (hs : |s| = 1)
    (hg : ∀ x y, ∃ t, 0 < t ∧ |Real.log t| ≤ A.L ∧ (g x y).val = t * (x.val + s * y.val))
    (R : Meas ℝ → Meas ℝ → Meas ℝ → Prop)
    (hR : ∀ x y : Meas ℝ, R x y ⟨x.value + s * y.value, Real.sqrt (x.sigma ^ 2 + y.sigma ^ 2)⟩)
    (hres : (do
        let q ← (NDArr.bin g a.val.mag b.val.mag).map (fun m => (⟨m, a.val.dim⟩ : Quantity (Fl A)))
        let u ← UQ.quad w a.unc b.unc
        UQ.new w (.quantity q) [] (some (.quantity u))) = .ok r) :
    r.OK w ∧ r.val.dim = a.val.dim ∧ ∀ (v : FlValuation w) (y : NDArr (Meas ℝ)), MeasOffL A n (v.meas b) y →
      Elementwise (NearSum A (n + 2) R) (v.meas a) y (v.meas r) := by
  rcases hbin : NDArr.bin g a.val.mag b.val.mag with e | m
  · rw [hbin] at hres; exact absurd hres (by simp [Except.map, bind, Except.bind])
  rw [hbin] at hres
  simp only [Except.map, except_bind_ok] at hres
  obtain ⟨m1, m2⟩ := NDArr.bin_elim hbin
  rcases hu : UQ.quad w a.unc b.unc with e | u
  · rw [hu] at hres; exact absurd hres (by simp [bind, Except.bind])
  rw [hu] at hres
  simp only [except_bind_ok] at hres
  obtain ⟨u1, u2, u3⟩ := fl_quad ha.udim.canon hb.udim.canon ((hb.aligned.1.trans hab).trans ha.aligned.1.symm) hu
  rw [ha.aligned.2, hb.aligned.2, m1, Option.some.injEq] at u2
  have ud : DimOK w u.dim := by rw [u1]; exact (ha.udim.pow 2).pow _
  have us : SameContent u.dim a.val.dim := by
    rw [u1]; exact (fl_sqrt_sq_dim ha.udim.canon).trans ha.aligned.1
  rw [fl_new_same (q := ⟨m, a.val.dim⟩) ha.vdim.canon.nodup ud.canon.nodup us, if_pos u2] at hres
  simp only [Except.ok.injEq] at hres; subst hres
  refine ⟨⟨ha.vdim, ud, us, u2.symm⟩, rfl, fun v y hy => ?_⟩
  have hysh : y.shape = b.val.mag.shape := hy.1.symm
  refine ⟨by rw [hysh]; exact m1, fun i hi => ?_⟩
  have hi' : NDArr.InB u.mag.shape i := by rw [← u2]; exact hi
  have z1 : v.size b.val.dim = v.size a.val.dim := dsize_same v.val hb.vdim.canon.nodup ha.vdim.canon.nodup hab
  have z2 : v.size u.dim = v.size a.val.dim := dsize_same v.val ud.canon.nodup ha.vdim.canon.nodup us
  obtain ⟨⟨t, t1, t2, t3⟩, hsig⟩ := hy.2 (NDArr.bidx y.shape i)
  simp only [FlValuation.meas] at t3 hsig
  have hpos := v.size_pos a.val.dim
  refine ⟨_, hR _ _, ?_, ?_⟩
  · obtain ⟨p, p1, p2, p3⟩ := hg (a.val.mag.elem (NDArr.bidx a.val.mag.shape i))
      (b.val.mag.elem (NDArr.bidx b.val.mag.shape i))
    have := two_term (A := A) (n := n + 1)
      (x := ((v.meas a).elem (NDArr.bidx (v.meas a).shape i)).value)
      (y := (y.elem (NDArr.bidx y.shape i)).value)
      (z := ((v.meas ⟨⟨m, a.val.dim⟩, u⟩).elem i).value) s hs (by linarith) p1 t1 p2
      (t2.trans (mul_le_mul_of_nonneg_right (by linarith) A.L_nonneg)) ?_
    · rw [show n + 2 = n + 1 + 1 by ring]; exact this
    · rw [← t3]
      simp only [FlValuation.meas]
      rw [m2, p3, hysh, z1]; ring
  · rw [hysh] at hsig
    have h1 : OffL A n ((v.meas a).elem (NDArr.bidx (v.meas a).shape i)).sigma
      ((v.meas a).elem (NDArr.bidx (v.meas a).shape i)).sigma := OffL.refl hn _
    have hz : ((v.meas ⟨⟨m, a.val.dim⟩, u⟩).elem i).sigma = A.pow (A.add
        (A.pow (a.unc.mag.elem (NDArr.bidx a.val.mag.shape i)).val 2)
        (A.pow (b.unc.mag.elem (NDArr.bidx b.val.mag.shape i)).val 2)) (1/2) * v.size a.val.dim := by
      simp only [FlValuation.meas]
      rw [u3 i hi', z2, ha.aligned.2, hb.aligned.2]
    rw [hz]
    have e1 : OffL A n (a.unc.mag.elem (NDArr.bidx a.val.mag.shape i)).val
        (((v.meas a).elem (NDArr.bidx (v.meas a).shape i)).sigma / v.size a.val.dim) := by
      have : (a.unc.mag.elem (NDArr.bidx a.val.mag.shape i)).val =
          ((v.meas a).elem (NDArr.bidx (v.meas a).shape i)).sigma / v.size a.val.dim := by
        simp only [FlValuation.meas]
        rw [fl_OK_size ha v]; field_simp
      rw [← this]; exact OffL.refl hn _
    have e2 : OffL A n (b.unc.mag.elem (NDArr.bidx b.val.mag.shape i)).val
        ((y.elem (NDArr.bidx y.shape i)).sigma / v.size a.val.dim) := by
      have := hsig.scale (v.size a.val.dim)⁻¹
      rw [fl_OK_size hb v, z1, mul_assoc, mul_inv_cancel₀ hpos.ne', mul_one] at this
      rw [div_eq_mul_inv, hysh]; exact this
    have := ((e1.quad e2).scale (v.size a.val.dim)).off
    refine (congrArg (Off A (n + 2) _) ?_).mp this
    rw [div_pow, div_pow, ← add_div, Real.sqrt_div' _ (by positivity), Real.sqrt_sq hpos.le]
    field_simp

end PQ
