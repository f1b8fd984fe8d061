import Verif.Lemmas.UncertainRounding2
import Verif.Lemmas.Uncertain4

/-! # Products, quotients and powers of uncertain quantities under rounding -/

namespace PQ

open Dict World

variable {A : Arith} {h : Hasher} {w : World (Fl A)}

theorem fl_relative {a : UQ (Fl A)} (ha : a.OK w) {r : NDArr (Fl A)} (hr : a.relative = .ok r) :
    r.shape = a.val.mag.shape ∧
      ∀ i, NDArr.InB a.val.mag.shape i → r.elem i = a.unc.mag.elem i / a.val.mag.elem i := by
  obtain ⟨h1, h2⟩ := NDArr.bin_elim_same hr ha.aligned.2
  rw [ha.aligned.2] at h1 h2
  exact ⟨h1, h2⟩

/-- The uncertainty of a product or quotient of uncertain quantities. -/
theorem fl_relPart {a b r : UQ (Fl A)} (ha : a.OK w) (hb : b.OK w) {q : Quantity (Fl A)}
    (hq : NDArr.bshape a.val.mag.shape b.val.mag.shape = some q.mag.shape)
    (hr : (do
      let sru ← a.relative
      let oru ← b.relative
      let ru ← UQ.quadRel sru oru
      let u ← q.mul w (.array ru)
      return (⟨q, u⟩ : UQ (Fl A))) = .ok r) : r.val = q ∧ r.unc.dim = q.dim ∧ r.unc.mag.shape = q.mag.shape ∧
      ∀ i, NDArr.InB q.mag.shape i → r.unc.mag.elem i = q.mag.elem i *
        rpow (rpow (a.unc.mag.elem (NDArr.bidx a.val.mag.shape i) /
            a.val.mag.elem (NDArr.bidx a.val.mag.shape i)) 2 +
          rpow (b.unc.mag.elem (NDArr.bidx b.val.mag.shape i) /
            b.val.mag.elem (NDArr.bidx b.val.mag.shape i)) 2) (1/2) := by
  rcases hra : a.relative with e | ra
  · rw [hra] at hr; exact absurd hr (by simp [bind, Except.bind])
  rcases hrb : b.relative with e | rb
  · rw [hra, hrb] at hr; exact absurd hr (by simp [bind, Except.bind])
  rw [hra, hrb] at hr
  simp only [except_bind_ok] at hr
  obtain ⟨sa, ea⟩ := fl_relative ha hra
  obtain ⟨sb, eb⟩ := fl_relative hb hrb
  rcases hru : UQ.quadRel ra rb with e | ru
  · rw [hru] at hr; exact absurd hr (by simp [bind, Except.bind])
  rw [hru] at hr
  simp only [except_bind_ok] at hr
  rcases hu : q.mul w (.array ru) with e | u
  · rw [hu] at hr; exact absurd hr (by simp [bind, Except.bind])
  rw [hu] at hr
  simp only [except_bind_ok, pure, Except.pure, Except.ok.injEq] at hr
  subst hr
  obtain ⟨u1, u2, u3⟩ := fl_mul_elim hu
  obtain ⟨q1, q2⟩ := NDArr.bin_elim hru
  rw [sa, sb, hq, Option.some.injEq] at q1
  simp only [Operand.arr] at u2 u3
  rw [← q1, NDArr.bshape_self, Option.some.injEq] at u2
  refine ⟨rfl, u1, u2.symm, fun i hi => ?_⟩
  have ia := NDArr.bidx_inb hq hi
  have ib := NDArr.bidx_inb_right hq hi
  simp only [u3, ← q1, NDArr.bidx_self hi, q2, sa, sb, ea _ ia, eb _ ib]

/-- Up to five errors on the uncertainty of a product or quotient. -/
theorem OffL.rel {x y z z' sx sy : ℝ} (hx : x ≠ 0) (hy : y ≠ 0) (hz : OffL A 1 z z') :
    OffL A 5 (A.mul z (A.pow (A.add (A.pow (A.div sx x) 2) (A.pow (A.div sy y) 2)) (1/2)))
      (z' * Real.sqrt ((sx / x) ^ 2 + (sy / y) ^ 2)) := by
  have h1 : OffL A 1 (A.div sx x) (sx / x) := OffL.of_err (A.div_err _ _ hx)
  have h2 : OffL A 1 (A.div sy y) (sy / y) := OffL.of_err (A.div_err _ _ hy)
  exact (hz.mul (h1.quad h2)).mono (by norm_num)

theorem fl_mul_uq {a b r : UQ (Fl A)} (ha : a.OK w) (hb : b.OK w) (hr : a.mul w (.uq b) = .ok r) :
    r.OK w ∧ r.val.dim = Dim.mul a.val.dim b.val.dim ∧ ∀ v : FlValuation w,
      Elementwise (fun x y z => x.value ≠ 0 → y.value ≠ 0 → OffL A 1 z.value (x.value * y.value) ∧
        OffL A 5 z.sigma (x.value * y.value * Real.sqrt ((x.sigma / x.value) ^ 2 + (y.sigma / y.value) ^ 2)))
        (v.meas a) (v.meas b) (v.meas r) := by
  unfold UQ.mul at hr
  simp only [UOperand.op] at hr
  rcases hq : a.val.mul w (.quantity b.val) with e | q
  · rw [hq] at hr; exact absurd hr (by simp [bind, Except.bind])
  rw [hq, except_bind_ok] at hr
  obtain ⟨q1, q2, q3⟩ := fl_mul_elim hq
  simp only [Operand.arr] at q1 q2 q3
  obtain ⟨r1, r2, r3, r4⟩ := fl_relPart ha hb q2 hr
  have hd : DimOK w q.dim := by rw [q1]; exact ha.vdim.mul hb.vdim
  refine ⟨⟨by rw [r1]; exact hd, by rw [r2]; exact hd, by rw [r1, r2]; exact SameContent.refl _, by rw [r1]; exact r3⟩,
    by rw [r1, q1], fun v => ⟨by simp only [FlValuation.meas, r1]; exact q2, fun i hi => ?_⟩⟩
  have hi' : NDArr.InB q.mag.shape i := by rw [← r1]; exact hi
  have sz : v.size q.dim = v.size a.val.dim * v.size b.val.dim := by rw [q1]; exact dsize_mul v.pos _ _
  have za := (v.size_pos a.val.dim).ne'
  have zb := (v.size_pos b.val.dim).ne'
  simp only [FlValuation.meas, r1, r2, q3 i, r4 i hi', fl_OK_size ha v, fl_OK_size hb v, sz]
  intro hx hy
  have hx := left_ne_zero_of_mul hx
  have hy := left_ne_zero_of_mul hy
  generalize a.val.mag.elem (NDArr.bidx a.val.mag.shape i) = x at hx ⊢
  generalize b.val.mag.elem (NDArr.bidx b.val.mag.shape i) = y at hy ⊢
  have h1 : OffL A 1 (A.mul x.val y.val) (x.val * y.val) := OffL.of_err (A.mul_err _ _)
  rw [mul_div_mul_right _ _ za, mul_div_mul_right _ _ zb]
  refine ⟨?_, ?_⟩
  · rw [show x.val * v.size a.val.dim * (y.val * v.size b.val.dim) =
      x.val * y.val * (v.size a.val.dim * v.size b.val.dim) by ring]
    exact h1.scale _
  · rw [show ∀ c, x.val * v.size a.val.dim * (y.val * v.size b.val.dim) * c =
      x.val * y.val * c * (v.size a.val.dim * v.size b.val.dim) by intro c; ring]
    exact (OffL.rel hx hy h1).scale _

theorem fl_div_uq {a b r : UQ (Fl A)} (ha : a.OK w) (hb : b.OK w) (hr : a.truediv w (.uq b) = .ok r) :
    r.OK w ∧ r.val.dim = Dim.div a.val.dim b.val.dim ∧ ∀ v : FlValuation w,
      Elementwise (fun x y z => x.value ≠ 0 → y.value ≠ 0 → OffL A 1 z.value (x.value / y.value) ∧
        OffL A 5 z.sigma (x.value / y.value * Real.sqrt ((x.sigma / x.value) ^ 2 + (y.sigma / y.value) ^ 2)))
        (v.meas a) (v.meas b) (v.meas r) := by
  unfold UQ.truediv at hr
  simp only [UOperand.op] at hr
  rcases hq : a.val.truediv w (.quantity b.val) with e | q
  · rw [hq] at hr; exact absurd hr (by simp [bind, Except.bind])
  rw [hq, except_bind_ok] at hr
  obtain ⟨q1, q2, q3⟩ := fl_div_elim hq
  simp only [Operand.arr] at q1 q2 q3
  obtain ⟨r1, r2, r3, r4⟩ := fl_relPart ha hb q2 hr
  have hd : DimOK w q.dim := by rw [q1]; exact ha.vdim.div hb.vdim
  refine ⟨⟨by rw [r1]; exact hd, by rw [r2]; exact hd, by rw [r1, r2]; exact SameContent.refl _, by rw [r1]; exact r3⟩,
    by rw [r1, q1], fun v => ⟨by simp only [FlValuation.meas, r1]; exact q2, fun i hi => ?_⟩⟩
  have hi' : NDArr.InB q.mag.shape i := by rw [← r1]; exact hi
  have sz : v.size q.dim = v.size a.val.dim / v.size b.val.dim := by rw [q1]; exact dsize_div v.pos _ _
  have za := (v.size_pos a.val.dim).ne'
  have zb := (v.size_pos b.val.dim).ne'
  simp only [FlValuation.meas, r1, r2, q3 i, r4 i hi', fl_OK_size ha v, fl_OK_size hb v, sz]
  intro hx hy
  have hx := left_ne_zero_of_mul hx
  have hy := left_ne_zero_of_mul hy
  generalize a.val.mag.elem (NDArr.bidx a.val.mag.shape i) = x at hx ⊢
  generalize b.val.mag.elem (NDArr.bidx b.val.mag.shape i) = y at hy ⊢
  have h1 : OffL A 1 (A.div x.val y.val) (x.val / y.val) := OffL.of_err (A.div_err _ _ hy)
  rw [mul_div_mul_right _ _ za, mul_div_mul_right _ _ zb, mul_div_mul_comm]
  refine ⟨h1.scale _, ?_⟩
  rw [mul_right_comm]
  exact (OffL.rel hx hy h1).scale _

/-! ### a plain other operand -/

theorem fl_new_arrays (m u : NDArr (Fl A)) (d : Dim) :
    UQ.new w (.array m) d (some (.array u)) =
      if m.shape = u.shape then .ok ⟨⟨m, d⟩, ⟨u, d⟩⟩ else .error .valueError := by
  simp only [UQ.new, UQ.mkQuantity, UQ.setUncertainty, Operand.toQuantity, dne_eq, deq_self,
    Bool.not_true, Bool.false_eq_true, if_false]


/-- The squares of the magnitudes of a plain operand. -/
theorem fl_sqOp {o y : Operand (Fl A)} (hy : UQ.sqOp o = .ok y) :
    y.arr.shape = o.arr.shape ∧ (∀ i, NDArr.InB o.arr.shape i → y.arr.elem i = rpow (o.arr.elem i) 2) ∧
      match o with
      | .quantity q => ∃ m, y = .quantity ⟨m, Dim.pow q.dim 2⟩
      | .array _ => ∃ m, y = .array m := by
  cases o with
  | quantity q =>
    simp only [UQ.sqOp, pow_expOf, Except.map, Except.ok.injEq] at hy
    subst hy
    refine ⟨rfl, fun i hi => ?_, _, rfl⟩
    simp only [Operand.arr] at hi ⊢
    rw [NDArr.bidx_self hi]
  | array m =>
    simp only [UQ.sqOp, Except.ok.injEq] at hy
    subst hy
    exact ⟨rfl, fun i _ => rfl, _, rfl⟩

theorem fl_exact_elem (v : FlValuation w) (o : Operand (Fl A)) (i : List Nat) :
    (v.exact o).elem i = ⟨(o.arr.elem i).val * v.size o.dim, 0⟩ := by
  cases o <;> rfl

theorem fl_exact_shape (v : FlValuation w) (o : Operand (Fl A)) : (v.exact o).shape = o.arr.shape := by
  cases o <;> rfl

theorem fl_mul_plain {a r : UQ (Fl A)} {o : Operand (Fl A)} (ha : a.OK w) (ho : DimOK w o.dim)
    (hr : a.mul w (.plain o) = .ok r) : r.OK w ∧ SameContent r.val.dim (Dim.mul a.val.dim o.dim) ∧
      NDArr.bshape a.val.mag.shape o.arr.shape = some r.val.mag.shape ∧
      ∀ v : FlValuation w, ∀ m n : ℝ, ∀ x : NDArr (Meas ℝ), x.shape = a.val.mag.shape →
        ∀ i, NDArr.InB r.val.mag.shape i →
          OffL A m ((v.meas a).elem (NDArr.bidx a.val.mag.shape i)).value (x.elem (NDArr.bidx x.shape i)).value →
          OffL A n ((v.meas a).elem (NDArr.bidx a.val.mag.shape i)).sigma (x.elem (NDArr.bidx x.shape i)).sigma →
          OffL A (m + 1) ((v.meas r).elem i).value
            ((x.elem (NDArr.bidx x.shape i)).value * ((v.exact o).elem (NDArr.bidx o.arr.shape i)).value) ∧
          OffL A (n + 5/2) ((v.meas r).elem i).sigma
            |(x.elem (NDArr.bidx x.shape i)).sigma * ((v.exact o).elem (NDArr.bidx o.arr.shape i)).value| := by
  unfold UQ.mul at hr
  simp only [UOperand.op] at hr
  rcases hq : a.val.mul w o with e | q
  · rw [hq] at hr; exact absurd hr (by simp [bind, Except.bind])
  rw [hq] at hr
  simp only [except_bind_ok, pow_expOf] at hr
  rcases hy : UQ.sqOp o with e | y
  · rw [hy] at hr; exact absurd hr (by simp [bind, Except.bind])
  rw [hy] at hr
  simp only [except_bind_ok] at hr
  obtain ⟨q1, q2, q3⟩ := fl_mul_elim hq
  obtain ⟨y1, y2, y3⟩ := fl_sqOp hy
  rcases hp : Quantity.mul w (⟨⟨a.unc.mag.shape, fun i => rpow (a.unc.mag.elem (NDArr.bidx a.unc.mag.shape i)) 2⟩,
      Dim.pow a.unc.dim 2⟩ : Quantity (Fl A)) y with e | p
  · rw [hp] at hr; exact absurd hr (by simp [bind, Except.bind])
  rw [hp] at hr
  simp only [except_bind_ok, pow_expOf, pure, Except.pure, Except.ok.injEq] at hr
  subst hr
  obtain ⟨p1, p2, p3⟩ := fl_mul_elim hp
  simp only at p1 p2 p3
  rw [y1, ha.aligned.2, q2, Option.some.injEq] at p2
  have hqd : q.dim = Dim.mul a.val.dim o.dim ∨ (o.dim = [] ∧ q.dim = a.val.dim) := by
    cases o
    · exact .inl q1
    · exact .inr ⟨rfl, q1⟩
  have hqok : DimOK w q.dim := by
    rcases hqd with e | ⟨-, e⟩ <;> rw [e]
    · exact ha.vdim.mul ho
    · exact ha.vdim
  have hpd : DimOK w p.dim ∧ ∀ u, expo p.dim u = 2 * expo a.unc.dim u + 2 * expo o.dim u := by
    cases o with
    | quantity o' =>
      obtain ⟨m, rfl⟩ := y3
      simp only at p1
      rw [p1]
      refine ⟨(ha.udim.pow 2).mul (ho.pow 2), fun u => ?_⟩
      simp only [Operand.dim] at ho ⊢
      rw [expo_mul (canon_pow ha.udim.canon _).nodup (canon_pow ho.canon _).nodup, expo_pow, expo_pow]
      ring
    | array o' =>
      obtain ⟨m, rfl⟩ := y3
      simp only at p1
      rw [p1]
      refine ⟨ha.udim.pow 2, fun u => ?_⟩
      rw [expo_pow]
      show _ = _ + 2 * expo [] u
      simp [expo]; ring
  have hqe : ∀ u, expo q.dim u = expo a.val.dim u + expo o.dim u := by
    intro u
    rcases hqd with e | ⟨e0, e⟩ <;> rw [e]
    · rw [expo_mul ha.vdim.canon.nodup ho.canon.nodup]
    · rw [e0]; simp [expo]
  have hsame : SameContent (Dim.pow p.dim (1/2)) q.dim := by
    refine (canon_pow hpd.1.canon _).sameContent hqok.canon (fun u => ?_)
    rw [expo_pow, hpd.2, hqe, expo_eq ha.aligned.1]; ring
  have hsq : SameContent q.dim (Dim.mul a.val.dim o.dim) := by
    refine hqok.canon.sameContent (ha.vdim.mul ho).canon (fun u => ?_)
    rw [hqe, expo_mul ha.vdim.canon.nodup ho.canon.nodup]
  have hud : DimOK w (Dim.pow p.dim (1/2)) := hpd.1.pow _
  refine ⟨⟨hqok, hud, hsame, p2.symm⟩, hsq, q2, fun v m n x hxs i hi hv hsg => ?_⟩
  have hi' : NDArr.InB p.mag.shape i := by rw [← p2]; exact hi
  have sz : v.size q.dim = v.size a.val.dim * v.size o.dim := by
    have := dsize_same v.val hqok.canon.nodup (ha.vdim.mul ho).canon.nodup hsq
    rw [FlValuation.size, this]; exact dsize_mul v.pos _ _
  have sz' : v.size (Dim.pow p.dim (1/2)) = v.size a.val.dim * v.size o.dim := by
    rw [← sz]; exact dsize_same v.val hud.canon.nodup hqok.canon.nodup hsame
  have ia : NDArr.InB a.unc.mag.shape (NDArr.bidx a.val.mag.shape i) := by
    rw [ha.aligned.2]; exact NDArr.bidx_inb q2 hi
  have io := NDArr.bidx_inb_right q2 hi
  have hz := mul_pos (v.size_pos a.val.dim) (v.size_pos o.dim)
  have ea := (v.size_pos a.val.dim)
  simp only [FlValuation.meas] at hv hsg ⊢
  rw [fl_exact_elem]
  simp only [q3 i, sz, sz', NDArr.bidx_self hi', p3 i, y1, y2 _ io]
  rw [fl_OK_size ha v] at hsg
  rw [ha.aligned.2] at ia ⊢
  rw [NDArr.bidx_self ia]
  have h1 : OffL A m (a.val.mag.elem (NDArr.bidx a.val.mag.shape i)).val
      ((x.elem (NDArr.bidx x.shape i)).value / v.size a.val.dim) := by
    have := hv.scale (v.size a.val.dim)⁻¹
    rwa [mul_assoc, mul_inv_cancel₀ ea.ne', mul_one, ← div_eq_mul_inv] at this
  have h2 : OffL A n (a.unc.mag.elem (NDArr.bidx a.val.mag.shape i)).val
      ((x.elem (NDArr.bidx x.shape i)).sigma / v.size a.val.dim) := by
    have := hsg.scale (v.size a.val.dim)⁻¹
    rwa [mul_assoc, mul_inv_cancel₀ ea.ne', mul_one, ← div_eq_mul_inv] at this
  have h3 : OffL A 0 (o.arr.elem (NDArr.bidx o.arr.shape i)).val (o.arr.elem (NDArr.bidx o.arr.shape i)).val :=
    OffL.refl le_rfl _
  refine ⟨?_, ?_⟩
  · have := ((h1.mul h3).scale (v.size a.val.dim * v.size o.dim)).mono (m := m + 1) (by linarith)
    refine (congrArg (OffL A (m + 1) _) ?_).mp this
    field_simp
  · have := ((h2.rootMul h3).scale (v.size a.val.dim * v.size o.dim)).mono (m := n + 5/2) (by linarith)
    refine (congrArg (OffL A (n + 5/2) _) ?_).mp this
    rw [← abs_of_pos hz, ← abs_mul]
    congr 1
    field_simp

theorem fl_div_plain {a r : UQ (Fl A)} {o : Operand (Fl A)} (ha : a.OK w) (ho : DimOK w o.dim)
    (hr : a.truediv w (.plain o) = .ok r) : r.OK w ∧ SameContent r.val.dim (Dim.div a.val.dim o.dim) ∧
      ∀ v : FlValuation w, Elementwise (fun x y z => y.value ≠ 0 → OffL A 1 z.value (x.value / y.value) ∧
        OffL A (5/2) z.sigma |x.sigma / y.value|) (v.meas a) (v.exact o) (v.meas r) := by
  unfold UQ.truediv at hr
  simp only [UOperand.op] at hr
  rcases hq : a.val.truediv w o with e | q
  · rw [hq] at hr; exact absurd hr (by simp [bind, Except.bind])
  rw [hq] at hr
  simp only [except_bind_ok, pow_expOf] at hr
  rcases hy : UQ.sqOp o with e | y
  · rw [hy] at hr; exact absurd hr (by simp [bind, Except.bind])
  rw [hy] at hr
  simp only [except_bind_ok] at hr
  obtain ⟨q1, q2, q3⟩ := fl_div_elim hq
  obtain ⟨y1, y2, y3⟩ := fl_sqOp hy
  rcases hp : Quantity.truediv w (⟨⟨a.unc.mag.shape, fun i => rpow (a.unc.mag.elem (NDArr.bidx a.unc.mag.shape i)) 2⟩,
      Dim.pow a.unc.dim 2⟩ : Quantity (Fl A)) y with e | p
  · rw [hp] at hr; exact absurd hr (by simp [bind, Except.bind])
  rw [hp] at hr
  simp only [except_bind_ok, pow_expOf, pure, Except.pure, Except.ok.injEq] at hr
  subst hr
  obtain ⟨p1, p2, p3⟩ := fl_div_elim hp
  simp only at p1 p2 p3
  rw [y1, ha.aligned.2, q2, Option.some.injEq] at p2
  have hqd : q.dim = Dim.div a.val.dim o.dim ∨ (o.dim = [] ∧ q.dim = a.val.dim) := by
    cases o
    · exact .inl q1
    · exact .inr ⟨rfl, q1⟩
  have hqok : DimOK w q.dim := by
    rcases hqd with e | ⟨-, e⟩ <;> rw [e]
    · exact ha.vdim.div ho
    · exact ha.vdim
  have hpd : DimOK w p.dim ∧ ∀ u, expo p.dim u = 2 * expo a.unc.dim u - 2 * expo o.dim u := by
    cases o with
    | quantity o' =>
      obtain ⟨m, rfl⟩ := y3
      simp only at p1
      rw [p1]
      refine ⟨(ha.udim.pow 2).div (ho.pow 2), fun u => ?_⟩
      simp only [Operand.dim] at ho ⊢
      rw [expo_div (canon_pow ha.udim.canon _).nodup (canon_pow ho.canon _).nodup, expo_pow, expo_pow]
      ring
    | array o' =>
      obtain ⟨m, rfl⟩ := y3
      simp only at p1
      rw [p1]
      refine ⟨ha.udim.pow 2, fun u => ?_⟩
      rw [expo_pow]
      show _ = _ - 2 * expo [] u
      simp [expo]; ring
  have hqe : ∀ u, expo q.dim u = expo a.val.dim u - expo o.dim u := by
    intro u
    rcases hqd with e | ⟨e0, e⟩ <;> rw [e]
    · rw [expo_div ha.vdim.canon.nodup ho.canon.nodup]
    · rw [e0]; simp [expo]
  have hsame : SameContent (Dim.pow p.dim (1/2)) q.dim := by
    refine (canon_pow hpd.1.canon _).sameContent hqok.canon (fun u => ?_)
    rw [expo_pow, hpd.2, hqe, expo_eq ha.aligned.1]; ring
  have hsq : SameContent q.dim (Dim.div a.val.dim o.dim) := by
    refine hqok.canon.sameContent (ha.vdim.div ho).canon (fun u => ?_)
    rw [hqe, expo_div ha.vdim.canon.nodup ho.canon.nodup]
  have hud : DimOK w (Dim.pow p.dim (1/2)) := hpd.1.pow _
  refine ⟨⟨hqok, hud, hsame, p2.symm⟩, hsq, fun v => ⟨by rw [fl_exact_shape]; exact q2, fun i hi => ?_⟩⟩
  have hi : NDArr.InB q.mag.shape i := hi
  have hi' : NDArr.InB p.mag.shape i := by rw [← p2]; exact hi
  have sz : v.size q.dim = v.size a.val.dim / v.size o.dim := by
    have := dsize_same v.val hqok.canon.nodup (ha.vdim.div ho).canon.nodup hsq
    rw [FlValuation.size, this]; exact dsize_div v.pos _ _
  have sz' : v.size (Dim.pow p.dim (1/2)) = v.size a.val.dim / v.size o.dim := by
    rw [← sz]; exact dsize_same v.val hud.canon.nodup hqok.canon.nodup hsame
  have ia : NDArr.InB a.unc.mag.shape (NDArr.bidx a.val.mag.shape i) := by
    rw [ha.aligned.2]; exact NDArr.bidx_inb q2 hi
  have io := NDArr.bidx_inb_right q2 hi
  have hz := div_pos (v.size_pos a.val.dim) (v.size_pos o.dim)
  rw [fl_exact_shape, fl_exact_elem]
  simp only [FlValuation.meas, q3 i, sz, sz', NDArr.bidx_self hi', p3 i, y1, y2 _ io, fl_OK_size ha v]
  rw [ha.aligned.2] at ia ⊢
  rw [NDArr.bidx_self ia]
  intro h0
  have h0 := left_ne_zero_of_mul h0
  have h3 : OffL A 0 (o.arr.elem (NDArr.bidx o.arr.shape i)).val (o.arr.elem (NDArr.bidx o.arr.shape i)).val :=
    OffL.refl le_rfl _
  refine ⟨?_, ?_⟩
  · rw [mul_div_mul_comm]
    exact (OffL.of_err (A.div_err _ _ h0)).scale _
  · rw [mul_div_mul_comm, abs_mul, abs_of_pos hz]
    exact (((OffL.refl le_rfl _).rootDiv h3 h0).scale _).mono (by norm_num)

/-- `exact / uncertain`. -/
theorem fl_rdiv {a r : UQ (Fl A)} {o : Operand (Fl A)} (ha : a.OK w) (ho : DimOK w o.dim)
    (hr : a.rtruediv w o = .ok r) : r.OK w ∧ SameContent r.val.dim (Dim.div o.dim a.val.dim) ∧
      ∀ v : FlValuation w, Elementwise (fun x y z => y.value ≠ 0 → OffL A 2 z.value (x.value / y.value) ∧
        OffL A (9/2) z.sigma |x.value * y.sigma / y.value ^ 2|) (v.exact o) (v.meas a) (v.meas r) := by
  unfold UQ.rtruediv at hr
  rcases hra : a.relative with e | rel
  · rw [hra] at hr; exact absurd hr (by simp [bind, Except.bind])
  rw [hra] at hr
  simp only [except_bind_ok] at hr
  obtain ⟨t1, t2⟩ := fl_relative ha hra
  have hb := NDArr.bin_intro (fun x y : Fl A => x / y) (a := rel) (b := a.val.mag) (s := a.val.mag.shape)
    (by rw [t1, NDArr.bshape_self])
  rw [hb] at hr
  simp only [except_bind_ok, fl_new_arrays] at hr
  rw [if_pos (show (NDArr.map (fun x => 1 / x) a.val.mag).shape = a.val.mag.shape from rfl)] at hr
  simp only [except_bind_ok, UQ.rmul] at hr
  set temp : UQ (Fl A) := ⟨⟨a.val.mag.map (fun x => 1 / x), Dim.pow a.val.dim (-1)⟩,
    ⟨⟨a.val.mag.shape, fun i => rel.elem (NDArr.bidx rel.shape i) /
      a.val.mag.elem (NDArr.bidx a.val.mag.shape i)⟩, Dim.pow a.val.dim (-1)⟩⟩ with htemp
  have hd := ha.vdim.pow (-1)
  have htok : temp.OK w := ⟨hd, hd, SameContent.refl _, rfl⟩
  obtain ⟨r1, r2, e1, r3⟩ := fl_mul_plain htok ho hr
  refine ⟨r1, r2.trans ?_, fun v => ⟨?_, fun i hi hne => ?_⟩⟩
  · refine (htok.vdim.mul ho).canon.sameContent (ho.div ha.vdim).canon (fun u => ?_)
    rw [expo_mul htok.vdim.canon.nodup ho.canon.nodup, expo_div ho.canon.nodup ha.vdim.canon.nodup]
    show expo (Dim.pow a.val.dim (-1)) u + _ = _
    rw [expo_pow]; ring
  · rw [NDArr.bshape_comm, fl_exact_shape]; exact e1
  · have ia : NDArr.InB a.val.mag.shape (NDArr.bidx a.val.mag.shape i) := NDArr.bidx_inb e1 hi
    have zs : v.size (Dim.pow a.val.dim (-1)) = (v.size a.val.dim)⁻¹ := by
      rw [FlValuation.size, dsize_pow v.pos]; exact rpow_neg_one (v.size_pos _)
    have hz := (v.size_pos a.val.dim).ne'
    simp only [FlValuation.meas] at hne
    have hx := left_ne_zero_of_mul hne
    let X : NDArr (Meas ℝ) := ⟨a.val.mag.shape, fun j =>
      ⟨1 / ((v.meas a).elem j).value, ((v.meas a).elem j).sigma / ((v.meas a).elem j).value / ((v.meas a).elem j).value⟩⟩
    have g1 : OffL A 1 ((v.meas temp).elem (NDArr.bidx temp.val.mag.shape i)).value
        (X.elem (NDArr.bidx X.shape i)).value := by
      have : OffL A 1 (A.div 1 (a.val.mag.elem (NDArr.bidx a.val.mag.shape i)).val)
        (1 / (a.val.mag.elem (NDArr.bidx a.val.mag.shape i)).val) := OffL.of_err (A.div_err _ _ hx)
      have := this.scale (v.size a.val.dim)⁻¹
      simp only [X, FlValuation.meas, htemp, zs, NDArr.map]
      refine (congrArg (OffL A 1 _) ?_).mp this
      field_simp
    have g2 : OffL A 2 ((v.meas temp).elem (NDArr.bidx temp.val.mag.shape i)).sigma
        (X.elem (NDArr.bidx X.shape i)).sigma := by
      have k1 : OffL A 1 (A.div (a.unc.mag.elem (NDArr.bidx a.val.mag.shape i)).val
        (a.val.mag.elem (NDArr.bidx a.val.mag.shape i)).val) _ := OffL.of_err (A.div_err _ _ hx)
      have k2 := ((k1.div (OffL.refl le_rfl (a.val.mag.elem (NDArr.bidx a.val.mag.shape i)).val) hx).scale
        (v.size a.val.dim)⁻¹).mono (m := 2) (by norm_num)
      simp only [X, FlValuation.meas, htemp, zs, NDArr.map, NDArr.bidx_self ia, t1, t2 _ ia, fl_OK_size ha v]
      refine (congrArg (OffL A 2 _) ?_).mp k2
      field_simp
    obtain ⟨k1, k2⟩ := r3 v 1 2 X rfl i hi g1 g2
    rw [fl_exact_shape]
    refine ⟨(congrArg (OffL A 2 _) ?_).mp (k1.mono (by norm_num)),
      (congrArg (OffL A (9/2) _) ?_).mp (k2.mono (by norm_num))⟩
    · simp only [X, FlValuation.meas]
      rw [one_div, inv_mul_eq_div]
    · simp only [X, FlValuation.meas]
      congr 1
      rw [fl_OK_size ha v]
      field_simp

/-! ### powers -/

theorem fl_pow_uq {a r : UQ (Fl A)} {e : ExpArg} (ha : a.OK w) (hr : a.pow w e = .ok r) :
    r.OK w ∧ ∃ p : ℚ, uniformExp e.vals = .ok p ∧ r.val.dim = Dim.pow a.val.dim p ∧ ∀ v : FlValuation w,
      Elementwise (fun x _ z => 0 < x.value → OffL A 1 z.value (rpow x.value p) ∧
        OffL A 5 z.sigma (rpow x.value p * p * (x.sigma / x.value))) (v.meas a) e.vals (v.meas r) := by
  unfold UQ.pow at hr
  rcases hq : a.val.pow e with e' | q
  · rw [hq] at hr; exact absurd hr (by simp [bind, Except.bind])
  rw [hq] at hr
  simp only [except_bind_ok] at hr
  obtain ⟨p, p1, p2, p3⟩ := pow_ok hq
  obtain ⟨s1, s2⟩ := NDArr.bin_elim p3
  obtain ⟨ab1, ab2⟩ := NDArr.bshape_absorb s1
  rcases ht : q.mul w (.array (e.vals.map (fun p : ℚ => (p : Fl A)))) with e' | t
  · rw [ht] at hr; exact absurd hr (by simp [bind, Except.bind])
  rw [ht] at hr
  simp only [except_bind_ok] at hr
  rcases hra : a.relative with e' | rel
  · rw [hra] at hr; exact absurd hr (by simp [bind, Except.bind])
  rw [hra] at hr
  simp only [except_bind_ok] at hr
  rcases hu : t.mul w (.array rel) with e' | u
  · rw [hu] at hr; exact absurd hr (by simp [bind, Except.bind])
  rw [hu] at hr
  simp only [except_bind_ok] at hr
  obtain ⟨t1, t2, t3⟩ := fl_mul_elim ht
  obtain ⟨u1, u2, u3⟩ := fl_mul_elim hu
  obtain ⟨l1, l2⟩ := fl_relative ha hra
  simp only [Operand.arr] at t1 t2 t3 u1 u2 u3
  change NDArr.bshape q.mag.shape e.vals.shape = _ at t2
  rw [ab1, Option.some.injEq] at t2
  rw [← t2, l1, ab2, Option.some.injEq] at u2
  have hqd : DimOK w q.dim := by rw [p2]; exact ha.vdim.pow p
  have hud : u.dim = q.dim := by rw [u1, t1]
  rw [fl_setUncertainty_same (self := ⟨q, UQ.zeroUnc q.mag []⟩) hqd.canon.nodup (by rw [hud]; exact hqd.canon.nodup)
    (by rw [hud]; exact SameContent.refl _), if_pos u2] at hr
  simp only [Except.ok.injEq] at hr; subst hr
  refine ⟨⟨hqd, by rw [hud]; exact hqd, by rw [hud]; exact SameContent.refl _, u2.symm⟩, p, p1, p2, fun v =>
    ⟨s1, fun i hi => ?_⟩⟩
  have hi : NDArr.InB q.mag.shape i := hi
  have ie := uniformExp_ok p1 _ (NDArr.bidx_inb_right s1 hi)
  have ia := NDArr.bidx_inb s1 hi
  have zq : v.size q.dim = rpow (v.size a.val.dim) p := by
    rw [p2, FlValuation.size, dsize_pow v.pos]; rfl
  have za := v.size_pos a.val.dim
  simp only [FlValuation.meas, hud, zq, s2 i, ie, u3 i, t3, ← t2, NDArr.bidx_self hi, NDArr.map, l1, l2 _ ia,
    fl_OK_size ha v]
  intro hpos
  have hxp := pos_of_mul_pos_left hpos za.le
  generalize a.val.mag.elem (NDArr.bidx a.val.mag.shape i) = x at hxp ⊢
  generalize a.unc.mag.elem (NDArr.bidx a.val.mag.shape i) = y
  have h1 : OffL A 1 (A.pow x.val p) (rpow x.val p) := OffL.of_err (A.pow_err _ _ hxp)
  have h2 : OffL A 1 (A.div y.val x.val) (y.val / x.val) := OffL.of_err (A.div_err _ _ hxp.ne')
  have h3 : OffL A 0 ((p : Fl A)).val (p : ℝ) := OffL.refl le_rfl _
  rw [LawfulRPow.mul_rpow _ _ _ hxp za, mul_div_mul_right _ _ za.ne']
  refine ⟨h1.scale _, ?_⟩
  have := (((h1.mul h3).mul h2).scale (rpow (v.size a.val.dim) p)).mono (m := 5) (by norm_num)
  refine (congrArg (OffL A 5 _) ?_).mp this
  ring

end PQ
