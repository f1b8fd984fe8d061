import Verif.Props.Rounding
import Verif.Lemmas.Arith
import Verif.Lemmas.Uncertain

/-!
# Property C94: operators, comparisons and `simplified` under rounding
-/

namespace PQ

open Dict World

variable {A : Arith} {h : Hasher} {w : World (Fl A)}

/-! ## Auxiliary facts -/

theorem Arith.bound_eq (A : Arith) (n : ℝ) : A.bound n = Real.exp (n * A.L) - 1 := by
  unfold Arith.bound Arith.L
  rw [Real.rpow_def_of_pos A.one_sub_pos, ← Real.exp_neg]
  congr 2; ring

theorem Arith.near_one (A : Arith) {t n : ℝ} (h0 : 0 < t) (h : |Real.log t| ≤ n * A.L) :
    |t - 1| ≤ A.bound n := by
  rw [A.bound_eq]
  rw [abs_le] at h
  have e : t = Real.exp (Real.log t) := (Real.exp_log h0).symm
  have h1 : t ≤ Real.exp (n * A.L) := by rw [e]; exact Real.exp_le_exp.2 h.2
  have h2 : Real.exp (-(n * A.L)) ≤ t := by
    conv_rhs => rw [e]
    exact Real.exp_le_exp.2 h.1
  have h3 : 1 ≤ Real.exp (n * A.L) := Real.one_le_exp (by linarith)
  have h4 : Real.exp (-(n * A.L)) * Real.exp (n * A.L) = 1 := by rw [← Real.exp_add]; simp
  have h5 := Real.exp_pos (-(n * A.L))
  rw [abs_le]
  constructor <;> nlinarith

theorem WithinErrors.log {n : ℝ} {x y : NDArr ℝ} (hx : WithinErrors A n x y) :
    x.shape = y.shape ∧ ∀ i, ∃ t, 0 < t ∧ |Real.log t| ≤ n * A.L ∧ x.elem i = t * y.elem i := by
  refine ⟨hx.1, fun i => ?_⟩
  obtain ⟨t, t1, t2, t3⟩ := hx.2 i
  have hp := A.one_sub_pos
  have hr : 0 < (1 - A.eps) ^ n := Real.rpow_pos_of_pos hp _
  have hl : Real.log ((1 - A.eps) ^ n) = -(n * A.L) := by
    rw [Real.log_rpow hp]; unfold Arith.L; ring
  have t0 : 0 < t := hr.trans_le t1
  refine ⟨t, t0, ?_, t3⟩
  have h1 := Real.log_le_log hr t1
  have h2 := Real.log_le_log t0 t2
  rw [Real.log_inv] at h2
  rw [abs_le]; constructor <;> linarith

theorem withinErrorsWhere_of_log {n : ℝ} {c : ℝ → ℝ → Prop} {f : ℝ → ℝ → ℝ} {x : NDArr ℝ} {p : NDArr (ℝ × ℝ)}
    (hs : x.shape = p.shape)
    (hx : ∀ i, c (p.elem i).1 (p.elem i).2 → ∃ t, 0 < t ∧ |Real.log t| ≤ n * A.L ∧
      x.elem i = t * f (p.elem i).1 (p.elem i).2) : WithinErrorsWhere A n c f x p := by
  refine ⟨hs, fun i hi => ?_⟩
  obtain ⟨t, t1, t2, t3⟩ := hx i hi
  obtain ⟨t', h1, h2, h3⟩ := (withinErrors_of_log (A := A) (n := n) (x := ⟨[], fun _ => t⟩)
    (y := ⟨[], fun _ => 1⟩) rfl (fun _ => ⟨t, t1, t2, (mul_one _).symm⟩)).2 []
  have : t = t' := by simpa using h3
  subst this
  exact ⟨t, h1, h2, t3⟩

/-- The operand as it is used: converted, if it has other units. -/
theorem fl_scaleOther (hr : Reachable h w) (cost : UKey → ℝ) (hb : ErrorBudget w cost)
    {a o : Quantity (Fl A)} {b : Operand (Fl A)} (ha : DimOK w a.dim) (hbd : DimOK w b.toQuantity.dim)
    (hs : HashSafe w b.toQuantity.dim a.dim) (hsc : a.scaleOther w b = .ok o) :
    ∀ v : FlValuation w, v.size o.dim = v.size a.dim ∧
      WithinErrors A (dimCost cost b.toQuantity.dim + dimCost cost a.dim + 4) (v.phys o) (v.phys b.toQuantity) := by
  unfold Quantity.scaleOther at hsc
  simp only at hsc
  intro v
  split at hsc
  · obtain ⟨h1, h2⟩ := C58_rescale hr cost hb _ _ _ hbd ha hs hsc
    refine ⟨?_, h2 v⟩
    unfold Quantity.rescale at hsc
    split at hsc
    · rename_i he
      simp only [Except.ok.injEq] at hsc; subst hsc
      exact dsize_same v.val hbd.canon.nodup ha.canon.nodup h1
    · split at hsc
      · simp only [Except.ok.injEq] at hsc; subst hsc; rfl
      all_goals exact absurd hsc (by simp)
  · rename_i hne
    simp only [Except.ok.injEq] at hsc; subst hsc
    rw [dne_eq, Bool.not_eq_true, Bool.not_eq_false'] at hne
    refine ⟨dsize_same v.val hbd.canon.nodup ha.canon.nodup (hs.direct hne),
      withinErrors_of_log rfl fun i => ⟨1, one_pos, ?_, (one_mul _).symm⟩⟩
    rw [Real.log_one, abs_zero]
    have n1 := dimCost_nonneg hb.nonneg b.toQuantity.dim
    have n2 := dimCost_nonneg hb.nonneg a.dim
    exact mul_nonneg (by linarith) A.L_nonneg

theorem fl_applyUF2 {f : UF2} {g : Fl A → Fl A → Fl A} {x y : Operand (Fl A)} {r : Quantity (Fl A)}
    (hr : applyUF2 w f g x y = .ok r) :
    ufunc2Dim w f x y = .ok r.dim ∧ NDArr.bin g x.arr y.arr = .ok r.mag := by
  unfold applyUF2 at hr
  rcases hd : ufunc2Dim w f x y with e | d
  · rw [hd] at hr; exact absurd hr (by simp)
  rw [hd] at hr
  simp only at hr
  rcases hm : NDArr.bin g x.arr y.arr with e | m
  · rw [hm] at hr; exact absurd hr (by simp)
  rw [hm] at hr
  simp only [Except.ok.injEq] at hr; subst hr
  exact ⟨rfl, rfl⟩

/-- Two errors on a sum or difference. -/
theorem two_term {A : Arith} {n s t x y z : ℝ} (e : ℝ) (he : |e| = 1) (hn : 0 ≤ n) (s0 : 0 < s) (t0 : 0 < t)
    (hs : |Real.log s| ≤ A.L) (ht : |Real.log t| ≤ n * A.L) (hz : z = s * (x + e * (t * y))) :
    |z - (x + e * y)| ≤ A.bound (n + 1) * (|x| + |y|) := by
  have hL := A.L_nonneg
  have h1 : |s - 1| ≤ A.bound (n + 1) := A.near_one s0 (by nlinarith)
  have h2 : |s * t - 1| ≤ A.bound (n + 1) := by
    refine A.near_one (mul_pos s0 t0) ?_
    rw [Real.log_mul s0.ne' t0.ne']
    refine (abs_add_le _ _).trans ?_
    nlinarith
  have : z - (x + e * y) = (s - 1) * x + (s * t - 1) * (e * y) := by rw [hz]; ring
  rw [this]
  refine (abs_add_le _ _).trans ?_
  rw [abs_mul, abs_mul, abs_mul, he, one_mul, mul_add]
  exact add_le_add (mul_le_mul_of_nonneg_right h1 (abs_nonneg _))
    (mul_le_mul_of_nonneg_right h2 (abs_nonneg _))

/-- A sum or difference in which one operand has been converted. -/
theorem fl_linear {n : ℝ} (hn : 0 ≤ n) {g : Fl A → Fl A → Fl A} {a o b r : Quantity (Fl A)} (e : ℝ) (he : |e| = 1)
    (hg : ∀ x y, ∃ s, 0 < s ∧ |Real.log s| ≤ A.L ∧ (g x y).val = s * (x.val + e * y.val))
    (hm : NDArr.bin g a.mag o.mag = .ok r.mag) (v : FlValuation w) (hrd : v.size r.dim = v.size a.dim)
    (hod : v.size o.dim = v.size a.dim) (ho : WithinErrors A n (v.phys o) (v.phys b)) :
    ∃ p, NDArr.bin Prod.mk (v.phys a) (v.phys b) = .ok p ∧
      WithinOperandErrors A (n + 1) (fun x y => x + e * y) (v.phys r) p := by
  obtain ⟨o1, o2⟩ := ho.log
  obtain ⟨m1, m2⟩ := NDArr.bin_elim hm
  have sh : NDArr.bshape (v.phys a).shape (v.phys b).shape = some r.mag.shape := by
    rw [← o1]; exact m1
  refine ⟨_, NDArr.bin_intro Prod.mk sh, rfl, fun i => ?_⟩
  show |(r.mag.elem i).val * v.size r.dim - _| ≤ _
  obtain ⟨s, s1, s2, s3⟩ := hg (a.mag.elem (NDArr.bidx a.mag.shape i)) (o.mag.elem (NDArr.bidx o.mag.shape i))
  obtain ⟨t, t1, t2, t3⟩ := o2 (NDArr.bidx o.mag.shape i)
  refine two_term e he hn s1 t1 s2 t2 ?_
  have t4 : (o.mag.elem (NDArr.bidx o.mag.shape i)).val * v.size o.dim
      = t * (v.phys b).elem (NDArr.bidx (v.phys b).shape i) := by
    rw [← o1]; exact t3
  rw [m2, s3, hrd, ← t4, hod]
  show _ = s * ((a.mag.elem (NDArr.bidx a.mag.shape i)).val * v.size a.dim + _)
  ring

/-! ## Addition and subtraction -/

theorem fl_toQuantity_arr (b : Operand (Fl A)) : b.toQuantity.mag = b.arr := by cases b <;> rfl

theorem add_form (x y : Fl A) : ∃ s, 0 < s ∧ |Real.log s| ≤ A.L ∧ (x + y).val = s * (x.val + 1 * y.val) := by
  obtain ⟨s, s1, s2, s3⟩ := A.factor (A.add_err x.val y.val)
  exact ⟨s, s1, s2, by rw [one_mul]; exact s3⟩

theorem sub_form (x y : Fl A) : ∃ s, 0 < s ∧ |Real.log s| ≤ A.L ∧ (x - y).val = s * (x.val + (-1) * y.val) := by
  obtain ⟨s, s1, s2, s3⟩ := A.factor (A.sub_err x.val y.val)
  exact ⟨s, s1, s2, by rw [show x.val + (-1) * y.val = x.val - y.val by ring]; exact s3⟩

theorem checkUniform_dim {x y : Quantity (Fl A)} {d : Dim} {f : UF2} (hf : f = .add ∨ f = .subtract)
    (h : ufunc2Dim w f (.quantity x) (.quantity y) = .ok d) : d = x.dim := by
  rcases hf with rfl | rfl <;>
  · simp only [ufunc2Dim, dCheckUniform] at h
    split at h
    · exact (Except.ok.inj h).symm
    · exact absurd h (by simp)

/-- C94: `a + b` has the units of `a`, and its physical value differs from the exact sum by at most what
the counted rounding errors of the two units, plus five, make of the two operands. -/
theorem C94_add (hr : Reachable h w) (cost : UKey → ℝ) (hb : ErrorBudget w cost)
    (a r : Quantity (Fl A)) (b : Operand (Fl A)) (ha : DimOK w a.dim) (hbd : DimOK w b.toQuantity.dim)
    (hs : HashSafe w b.toQuantity.dim a.dim) (hres : a.add w b = .ok r) :
    r.dim = a.dim ∧ ∀ v : FlValuation w, ∃ p,
      NDArr.bin Prod.mk (v.phys a) (v.phys b.toQuantity) = .ok p ∧
      WithinOperandErrors A (dimCost cost b.toQuantity.dim + dimCost cost a.dim + 5) (· + ·) (v.phys r) p := by
  unfold Quantity.add at hres
  rcases hsc : a.scaleOther w b with e | o
  · rw [hsc] at hres; exact absurd hres (by simp)
  rw [hsc] at hres
  obtain ⟨u1, u2⟩ := fl_applyUF2 hres
  have ud := checkUniform_dim (.inl rfl) u1
  have n1 := dimCost_nonneg hb.nonneg b.toQuantity.dim
  have n2 := dimCost_nonneg hb.nonneg a.dim
  refine ⟨ud, fun v => ?_⟩
  obtain ⟨s1, s2⟩ := fl_scaleOther hr cost hb ha hbd hs hsc v
  obtain ⟨p, p1, p2⟩ := fl_linear (by linarith) 1 (by simp) add_form u2 v (by rw [ud]) s1 s2
  refine ⟨p, p1, ?_⟩
  simp only [one_mul] at p2
  rw [show dimCost cost b.toQuantity.dim + dimCost cost a.dim + 5 =
    dimCost cost b.toQuantity.dim + dimCost cost a.dim + 4 + 1 by ring]
  exact p2

/-- C94: the same for `a - b`. -/
theorem C94_sub (hr : Reachable h w) (cost : UKey → ℝ) (hb : ErrorBudget w cost)
    (a r : Quantity (Fl A)) (b : Operand (Fl A)) (ha : DimOK w a.dim) (hbd : DimOK w b.toQuantity.dim)
    (hs : HashSafe w b.toQuantity.dim a.dim) (hres : a.sub w b = .ok r) :
    r.dim = a.dim ∧ ∀ v : FlValuation w, ∃ p,
      NDArr.bin Prod.mk (v.phys a) (v.phys b.toQuantity) = .ok p ∧
      WithinOperandErrors A (dimCost cost b.toQuantity.dim + dimCost cost a.dim + 5) (· - ·) (v.phys r) p := by
  unfold Quantity.sub at hres
  rcases hsc : a.scaleOther w b with e | o
  · rw [hsc] at hres; exact absurd hres (by simp)
  rw [hsc] at hres
  obtain ⟨u1, u2⟩ := fl_applyUF2 hres
  have ud := checkUniform_dim (.inr rfl) u1
  have n1 := dimCost_nonneg hb.nonneg b.toQuantity.dim
  have n2 := dimCost_nonneg hb.nonneg a.dim
  refine ⟨ud, fun v => ?_⟩
  obtain ⟨s1, s2⟩ := fl_scaleOther hr cost hb ha hbd hs hsc v
  obtain ⟨p, p1, p2⟩ := fl_linear (by linarith) (-1) (by simp) sub_form u2 v (by rw [ud]) s1 s2
  refine ⟨p, p1, ?_⟩
  rw [show dimCost cost b.toQuantity.dim + dimCost cost a.dim + 5 =
    dimCost cost b.toQuantity.dim + dimCost cost a.dim + 4 + 1 by ring]
  refine ⟨p2.1, fun i => ?_⟩
  have := p2.2 i
  beta_reduce at this
  rw [show (p.elem i).1 + (-1) * (p.elem i).2 = (p.elem i).1 - (p.elem i).2 by ring] at this
  exact this

theorem fl_rescale_deq {q r : Quantity (Fl A)} {d : Dim} (hres : q.rescale w d = .ok r) : w.deq r.dim d = true := by
  unfold Quantity.rescale at hres
  split at hres
  · rename_i hd
    simp only [Except.ok.injEq] at hres; subst hres; exact hd
  · split at hres <;> simp only [reduceCtorEq, Except.ok.injEq] at hres
    subst hres; exact deq_self _ _

/-- C94: rounding never decides whether a sum exists: it does exactly when the ratio of the exact sizes
is fixed by the definitions and the shapes broadcast. -/
theorem C94_add_returns (hr : Reachable h w) (a : Quantity (Fl A)) (b : Operand (Fl A)) (ha : DimOK w a.dim)
    (hbd : DimOK w b.toQuantity.dim) (hs : HashSafe w b.toQuantity.dim a.dim) :
    Returns (a.add w b) ↔ FlCompatible w b.toQuantity.dim a.dim ∧
      (NDArr.bshape a.mag.shape b.arr.shape).isSome := by
  have key : ∀ o : Quantity (Fl A), w.deq a.dim o.dim = true → o.mag.shape = b.arr.shape →
      (Returns (applyUF2 w .add (· + ·) (.quantity a) (.quantity o)) ↔
        (NDArr.bshape a.mag.shape b.arr.shape).isSome) := by
    intro o hd ho
    have e : ufunc2Dim w .add (.quantity a) (.quantity o) = .ok a.dim := by
      simp only [ufunc2Dim, dCheckUniform, hd, if_true]
    rw [← ho]
    unfold applyUF2
    rw [e]
    simp only [Operand.arr]
    rcases hbs : NDArr.bshape a.mag.shape o.mag.shape with _ | s
    · have : NDArr.bin (· + ·) a.mag o.mag = .error .valueError := by unfold NDArr.bin; rw [hbs]
      rw [this]
      exact ⟨fun h => absurd h (not_returns_error _), fun h => absurd h (by simp)⟩
    · rw [NDArr.bin_intro _ hbs]
      exact ⟨fun _ => rfl, fun _ => returns_ok _⟩
  unfold Quantity.add Quantity.scaleOther
  simp only
  by_cases hne : w.dne b.toQuantity.dim a.dim = true
  · rw [if_pos hne, ← C58_returns hr b.toQuantity a.dim hbd ha hs]
    rcases hres : b.toQuantity.rescale w a.dim with e | o
    · exact ⟨fun h => absurd h (not_returns_error _), fun h => absurd h.1 (not_returns_error _)⟩
    · have hsh : o.mag.shape = b.arr.shape := by
        rw [← fl_toQuantity_arr]
        unfold Quantity.rescale at hres
        split at hres
        · simp only [Except.ok.injEq] at hres; subst hres; rfl
        · split at hres <;> simp only [reduceCtorEq, Except.ok.injEq] at hres
          subst hres; rfl
      simp only
      rw [key o (by rw [deq_comm]; exact fl_rescale_deq hres) hsh]
      exact ⟨fun h => ⟨returns_ok _, h⟩, fun h => h.2⟩
  · rw [if_neg hne]
    rw [dne_eq, Bool.not_eq_true, Bool.not_eq_false'] at hne
    simp only
    rw [key _ (by rw [deq_comm]; exact hne) (by rw [fl_toQuantity_arr])]
    exact ⟨fun h => ⟨⟨1, fun v => by
      rw [one_mul]; exact dsize_same v.val hbd.canon.nodup ha.canon.nodup (hs.direct hne)⟩, h⟩, fun h => h.2⟩

/-! ## Multiplication, division, powers -/

/-- C94: `a * b` is the exact product up to one rounding error, whatever the units: nothing is
converted. -/
theorem C94_mul (a r : Quantity (Fl A)) (b : Operand (Fl A)) (hres : a.mul w b = .ok r) :
    ∀ v : FlValuation w, ∃ p, NDArr.bin (· * ·) (v.phys a) (v.phys b.toQuantity) = .ok p ∧
      WithinErrors A 1 (v.phys r) p := by
  intro v
  obtain ⟨u1, u2⟩ := fl_applyUF2 hres
  have hsz : v.size r.dim = v.size a.dim * v.size b.toQuantity.dim := by
    cases b with
    | quantity b =>
      simp only [ufunc2Dim, dMultiply, Except.ok.injEq] at u1
      rw [← u1]; exact dsize_mul v.pos _ _
    | array b =>
      simp only [ufunc2Dim, dMultiply, Except.ok.injEq] at u1
      rw [← u1]
      show _ = v.size a.dim * v.size []
      simp [FlValuation.size]
  obtain ⟨m1, m2⟩ := NDArr.bin_elim u2
  have sh : NDArr.bshape (v.phys a).shape (v.phys b.toQuantity).shape = some r.mag.shape := by
    rw [show (v.phys b.toQuantity).shape = b.arr.shape by rw [← fl_toQuantity_arr]; rfl]; exact m1
  refine ⟨_, NDArr.bin_intro _ sh, withinErrors_of_log rfl fun i => ?_⟩
  obtain ⟨t, t1, t2, t3⟩ := A.mul_factor (a.mag.elem (NDArr.bidx a.mag.shape i)).val
    (b.arr.elem (NDArr.bidx b.arr.shape i)).val
  refine ⟨t, t1, by rw [one_mul]; exact t2, ?_⟩
  show (r.mag.elem i).val * v.size r.dim = t * ((a.mag.elem (NDArr.bidx a.mag.shape i)).val * v.size a.dim *
    ((b.toQuantity.mag.elem (NDArr.bidx b.toQuantity.mag.shape i)).val * v.size b.toQuantity.dim))
  rw [m2, hsz, fl_toQuantity_arr]
  show A.mul _ _ * _ = _
  rw [show (Operand.quantity a : Operand (Fl A)).arr = a.mag from rfl, t3]
  ring

/-- C94: `a / b` is the exact quotient up to one rounding error wherever the divisor is not zero. -/
theorem C94_div (a r : Quantity (Fl A)) (b : Operand (Fl A)) (hres : a.truediv w b = .ok r) :
    ∀ v : FlValuation w, ∃ p, NDArr.bin Prod.mk (v.phys a) (v.phys b.toQuantity) = .ok p ∧
      WithinErrorsWhere A 1 (fun _ y => y ≠ 0) (· / ·) (v.phys r) p := by
  intro v
  obtain ⟨u1, u2⟩ := fl_applyUF2 hres
  have hsz : v.size r.dim = v.size a.dim / v.size b.toQuantity.dim := by
    cases b with
    | quantity b =>
      simp only [ufunc2Dim, dDivide, Except.ok.injEq] at u1
      rw [← u1]; exact dsize_div v.pos _ _
    | array b =>
      simp only [ufunc2Dim, dDivide, Except.ok.injEq] at u1
      rw [← u1]
      show _ = v.size a.dim / v.size []
      simp [FlValuation.size]
  obtain ⟨m1, m2⟩ := NDArr.bin_elim u2
  have sh : NDArr.bshape (v.phys a).shape (v.phys b.toQuantity).shape = some r.mag.shape := by
    rw [show (v.phys b.toQuantity).shape = b.arr.shape by rw [← fl_toQuantity_arr]; rfl]; exact m1
  refine ⟨_, NDArr.bin_intro _ sh, withinErrorsWhere_of_log rfl fun i hi => ?_⟩
  have hy : (b.arr.elem (NDArr.bidx b.arr.shape i)).val ≠ 0 := by
    intro h0
    apply hi
    show (b.toQuantity.mag.elem (NDArr.bidx b.toQuantity.mag.shape i)).val * _ = 0
    rw [fl_toQuantity_arr, h0, zero_mul]
  obtain ⟨t, t1, t2, t3⟩ := A.factor (A.div_err (a.mag.elem (NDArr.bidx a.mag.shape i)).val _ hy)
  refine ⟨t, t1, by rw [one_mul]; exact t2, ?_⟩
  show (r.mag.elem i).val * v.size r.dim = t * ((a.mag.elem (NDArr.bidx a.mag.shape i)).val * v.size a.dim /
    ((b.toQuantity.mag.elem (NDArr.bidx b.toQuantity.mag.shape i)).val * v.size b.toQuantity.dim))
  rw [m2, hsz, fl_toQuantity_arr]
  show A.div _ _ * _ = _
  rw [show (Operand.quantity a : Operand (Fl A)).arr = a.mag from rfl, t3]
  have := (v.size_pos b.toQuantity.dim).ne'
  field_simp

/-- C94: `a ** p` is the exact power up to one rounding error wherever the base is positive. -/
theorem C94_pow (a r : Quantity (Fl A)) (p : ℚ) (hres : a.pow ⟨NDArr.scalar p, none⟩ = .ok r) :
    r.dim = Dim.pow a.dim p ∧ ∀ v : FlValuation w, r.mag.shape = a.mag.shape ∧
      ∀ i, NDArr.InB a.mag.shape i → 0 < (v.phys a).elem i → ∃ t : ℝ, 1 - A.eps ≤ t ∧ t ≤ (1 - A.eps)⁻¹ ∧
        (v.phys r).elem i = t * (v.phys a).elem i ^ (p : ℝ) := by
  have hu : uniformExp (NDArr.scalar p) = .ok p := by simp [uniformExp, NDArr.scalar, NDArr.toList, NDArr.indices]
  unfold Quantity.pow dPower at hres
  simp only [hasDims, hu, Bool.false_eq_true, if_false] at hres
  rcases hm : NDArr.bin (fun (x : Fl A) p => rpow x p) a.mag (NDArr.scalar p) with e | m
  · rw [hm] at hres; exact absurd hres (by simp)
  rw [hm] at hres
  simp only [Except.ok.injEq] at hres; subst hres
  obtain ⟨m1, m2⟩ := NDArr.bin_elim hm
  have hsh : m.shape = a.mag.shape := by
    have := m1
    rw [show (NDArr.scalar p).shape = [] from rfl, NDArr.bshape_nil_right] at this
    exact (Option.some.inj this).symm
  refine ⟨rfl, fun v => ⟨hsh, fun i hi h0 => ?_⟩⟩
  have hpos := v.size_pos a.dim
  have hx : 0 < (a.mag.elem i).val := by
    by_contra hc
    have : (a.mag.elem i).val * v.size a.dim ≤ 0 := mul_nonpos_of_nonpos_of_nonneg (not_lt.1 hc) hpos.le
    exact absurd h0 (not_lt.2 this)
  obtain ⟨t, t1, t2, t3⟩ := A.factor (A.pow_err (a.mag.elem i).val p hx)
  have hp := A.one_sub_pos
  refine ⟨t, ?_, ?_, ?_⟩
  · refine (Real.log_le_log_iff hp t1).1 ?_
    have := (abs_le.1 t2).1
    unfold Arith.L at this; linarith
  · refine (Real.log_le_log_iff t1 (inv_pos.2 hp)).1 ?_
    have := (abs_le.1 t2).2
    rw [Real.log_inv]; unfold Arith.L at this; linarith
  · show (m.elem i).val * v.size (Dim.pow a.dim p) = t * ((a.mag.elem i).val * v.size a.dim) ^ (p : ℝ)
    rw [m2, NDArr.bidx_self hi]
    show A.pow _ p * _ = _
    rw [t3, Real.mul_rpow hx.le hpos.le]
    have : v.size (Dim.pow a.dim p) = v.size a.dim ^ (p : ℝ) := dsize_pow v.pos _ _
    rw [this]; ring

/-! ## Comparisons -/

theorem close_lt {x y y' e : ℝ} (h1 : |y' - y| ≤ e) (h2 : e < |x - y|) : (x < y' ↔ x < y) ∧ (y' < x ↔ y < x) ∧ x ≠ y' := by
  rw [abs_le] at h1
  rcases lt_abs.1 h2 with h | h
  · exact ⟨⟨fun _ => by linarith, fun _ => by linarith⟩, ⟨fun _ => by linarith, fun _ => by linarith⟩,
      fun h => by linarith⟩
  · exact ⟨⟨fun _ => by linarith, fun _ => by linarith⟩, ⟨fun _ => by linarith, fun _ => by linarith⟩,
      fun h => by linarith⟩

/-- A comparison with a converted operand. -/
theorem fl_compare {n : ℝ} (g : Fl A → Fl A → Bool) (r : ℝ → ℝ → Prop)
    (hg : ∀ x y : Fl A, ∀ s z : ℝ, 0 < s → A.bound n * |z| < |x.val * s - z| → |y.val * s - z| ≤ A.bound n * |z| →
      (g x y = true ↔ r (x.val * s) z))
    {a o b : Quantity (Fl A)} {m : NDArr Bool} (hm : NDArr.bin g a.mag o.mag = .ok m) (v : FlValuation w)
    (hod : v.size o.dim = v.size a.dim) (ho : WithinErrors A n (v.phys o) (v.phys b)) :
    ∃ p, NDArr.bin Prod.mk (v.phys a) (v.phys b) = .ok p ∧ RightUnlessClose A n r m p := by
  obtain ⟨o1, o2⟩ := ho.log
  obtain ⟨m1, m2⟩ := NDArr.bin_elim hm
  have sh : NDArr.bshape (v.phys a).shape (v.phys b).shape = some m.shape := by rw [← o1]; exact m1
  refine ⟨_, NDArr.bin_intro Prod.mk sh, rfl, fun i hi => ?_⟩
  obtain ⟨t, t1, t2, t3⟩ := o2 (NDArr.bidx o.mag.shape i)
  have t4 : (o.mag.elem (NDArr.bidx o.mag.shape i)).val * v.size a.dim
      = t * (v.phys b).elem (NDArr.bidx (v.phys b).shape i) := by
    rw [← o1, ← hod]; exact t3
  rw [m2]
  refine hg _ _ _ _ (v.size_pos a.dim) hi ?_
  rw [t4, show t * (v.phys b).elem (NDArr.bidx (v.phys b).shape i) - (v.phys b).elem (NDArr.bidx (v.phys b).shape i)
    = (t - 1) * (v.phys b).elem (NDArr.bidx (v.phys b).shape i) by ring, abs_mul]
  exact mul_le_mul_of_nonneg_right (A.near_one t1 t2) (abs_nonneg _)

theorem fl_wrapComparison {a b : Quantity (Fl A)} {m : NDArr (Fl A)}
    (hm : a.wrapComparison w (.quantity b) = .ok m) :
    ∃ o, a.scaleOther w (.quantity b) = .ok o ∧ o.mag = m := by
  unfold Quantity.wrapComparison at hm
  rw [show a.scaleOther w (.quantity b) = if w.dne b.dim a.dim then b.rescale w a.dim else .ok b from rfl]
  simp only at hm
  split at hm
  · rename_i hd
    rw [if_pos hd]
    rcases hr : b.rescale w a.dim with e | o
    · rw [hr] at hm; exact absurd hm (by simp)
    · rw [hr] at hm
      exact ⟨o, rfl, Except.ok.inj hm⟩
  · rename_i hd
    rw [if_neg hd]
    exact ⟨b, rfl, Except.ok.inj hm⟩

theorem fl_compare_all (hr : Reachable h w) (cost : UKey → ℝ) (hb : ErrorBudget w cost)
    {a b : Quantity (Fl A)} {m : NDArr Bool} (ha : DimOK w a.dim) (hbd : DimOK w b.dim)
    (hs : HashSafe w b.dim a.dim) (g : Fl A → Fl A → Bool) (r : ℝ → ℝ → Prop)
    (hg : ∀ x y : Fl A, ∀ s z : ℝ, 0 < s → ∀ e, e < |x.val * s - z| → |y.val * s - z| ≤ e →
      (g x y = true ↔ r (x.val * s) z))
    (hm : a.compare g w (.quantity b) = .ok m) (v : FlValuation w) :
    ∃ p, NDArr.bin Prod.mk (v.phys a) (v.phys b) = .ok p ∧
      RightUnlessClose A (dimCost cost b.dim + dimCost cost a.dim + 4) r m p := by
  unfold Quantity.compare at hm
  rcases hc : a.wrapComparison w (.quantity b) with e | m'
  · rw [hc] at hm; exact absurd hm (by simp)
  rw [hc] at hm
  obtain ⟨o, o1, rfl⟩ := fl_wrapComparison hc
  obtain ⟨s1, s2⟩ := fl_scaleOther hr cost hb ha (b := .quantity b) hbd hs o1 v
  exact fl_compare g r (fun x y s z h1 h2 h3 => hg x y s z h1 _ h2 h3) hm v s1 s2

/-- C94: `<`, `<=`, `>`, `>=` give the truth about the physical values except where these agree up to the
rounding errors of the conversion. -/
theorem C94_order (hr : Reachable h w) (cost : UKey → ℝ) (hb : ErrorBudget w cost)
    (a b : Quantity (Fl A)) (m : NDArr Bool) (ha : DimOK w a.dim) (hbd : DimOK w b.dim)
    (hs : HashSafe w b.dim a.dim) (v : FlValuation w) :
    (a.lt w (.quantity b) = .ok m → ∃ p, NDArr.bin Prod.mk (v.phys a) (v.phys b) = .ok p ∧
      RightUnlessClose A (dimCost cost b.dim + dimCost cost a.dim + 4) (· < ·) m p) ∧
    (a.le w (.quantity b) = .ok m → ∃ p, NDArr.bin Prod.mk (v.phys a) (v.phys b) = .ok p ∧
      RightUnlessClose A (dimCost cost b.dim + dimCost cost a.dim + 4) (· ≤ ·) m p) ∧
    (a.gt w (.quantity b) = .ok m → ∃ p, NDArr.bin Prod.mk (v.phys a) (v.phys b) = .ok p ∧
      RightUnlessClose A (dimCost cost b.dim + dimCost cost a.dim + 4) (· > ·) m p) ∧
    (a.ge w (.quantity b) = .ok m → ∃ p, NDArr.bin Prod.mk (v.phys a) (v.phys b) = .ok p ∧
      RightUnlessClose A (dimCost cost b.dim + dimCost cost a.dim + 4) (· ≥ ·) m p) := by
  refine ⟨fun hm => fl_compare_all hr cost hb ha hbd hs _ _ (fun x y s z h1 e h2 h3 => ?_) hm v,
    fun hm => fl_compare_all hr cost hb ha hbd hs _ _ (fun x y s z h1 e h2 h3 => ?_) hm v,
    fun hm => fl_compare_all hr cost hb ha hbd hs _ _ (fun x y s z h1 e h2 h3 => ?_) hm v,
    fun hm => fl_compare_all hr cost hb ha hbd hs _ _ (fun x y s z h1 e h2 h3 => ?_) hm v⟩
  all_goals
    obtain ⟨c1, c2, c3⟩ := close_lt h3 h2
    have hne : x.val * s ≠ z := fun hz => by rw [hz, sub_self, abs_zero] at h2; linarith [abs_nonneg (y.val * s - z)]
    rw [decide_eq_true_eq]
  · rw [← c1]; exact (mul_lt_mul_iff_left₀ h1).symm
  · show x.val ≤ y.val ↔ _
    rw [← mul_le_mul_iff_left₀ h1, le_iff_lt_or_eq, le_iff_lt_or_eq, c1]
    simp [c3, hne]
  · show y.val < x.val ↔ _
    rw [← mul_lt_mul_iff_left₀ h1, c2]
  · show y.val ≤ x.val ↔ _
    rw [← mul_le_mul_iff_left₀ h1, le_iff_lt_or_eq, c2, ge_iff_le, le_iff_lt_or_eq]
    simp [c3.symm, hne.symm]

/-- C94: `==` of quantities in convertible units is `True` only where the physical values agree up to the
rounding errors of the conversion. -/
theorem C94_equal (hr : Reachable h w) (cost : UKey → ℝ) (hb : ErrorBudget w cost)
    (a b : Quantity (Fl A)) (m : NDArr Bool) (ha : DimOK w a.dim) (hbd : DimOK w b.dim)
    (hs : HashSafe w b.dim a.dim) (hc : FlCompatible w b.dim a.dim) (hm : a.eq w (.quantity b) = .ok m)
    (v : FlValuation w) :
    ∃ p, NDArr.bin Prod.mk (v.phys a) (v.phys b) = .ok p ∧
      RightUnlessClose A (dimCost cost b.dim + dimCost cost a.dim + 4) (· = ·) m p := by
  obtain ⟨o, ho⟩ := (C58_returns hr b a.dim hbd ha hs).2 hc
  unfold Quantity.eq at hm
  simp only [ho] at hm
  have hso : v.size o.dim = v.size a.dim := by
    have h1 := (C58_rescale hr cost hb b o a.dim hbd ha hs ho).1
    unfold Quantity.rescale at ho
    split at ho
    · simp only [Except.ok.injEq] at ho; subst ho
      exact dsize_same v.val hbd.canon.nodup ha.canon.nodup h1
    · split at ho
      · simp only [Except.ok.injEq] at ho; subst ho; rfl
      all_goals exact absurd ho (by simp)
  refine fl_compare _ _ (fun x y s z h1 h2 h3 => ?_) hm v hso ((C58_rescale hr cost hb b o a.dim hbd ha hs ho).2 v)
  obtain ⟨c1, c2, c3⟩ := close_lt h3 h2
  have hne : x.val * s ≠ z := fun hz => by rw [hz, sub_self, abs_zero] at h2; linarith [abs_nonneg (y.val * s - z)]
  rw [decide_eq_true_eq]
  exact ⟨fun hxy => absurd (by rw [hxy]) c3, fun hz => absurd hz hne⟩

/-! ## `simplified` -/

theorem fl_mem_keys_same {a b : Dim} (hs : SameContent a b) {x : UKey} (hx : x ∈ a.map Prod.fst) :
    x ∈ b.map Prod.fst := by
  by_contra hc
  have := hs x
  rw [(get?_eq_none_iff _ _).2 hc] at this
  exact (get?_eq_none_iff _ _).1 this hx

/-- What simplifying one unit delivers. -/
structure FlSimpOK (w : World (Fl A)) (scost : UKey → ℝ) (s : SQ (Fl A)) (u : UKey) : Prop where
  pos : 0 < s.mag.val
  ok : DimOK w s.dim
  dflt : ∀ x ∈ s.dim.map Prod.fst, IsDefaultUnit w x
  err : ∃ c : ℝ, 0 < c ∧ (∀ v : FlValuation w, v.val u = c * v.size s.dim) ∧
    |Real.log s.mag.val - Real.log c| ≤ scost u * A.L

theorem fl_unitDim_size {u : UKey} (hd : u.cls ≠ .dimensionless) (v : FlValuation w) :
    v.size (unitDim u) = v.val u := by
  simp [FlValuation.size, unitDim, hd, dsize_cons, LawfulRPow.rpow_one]

theorem fl_irreducible {κ cost scost : UKey → ℝ} (hw : FlWF w κ cost) (hc : ∀ u, 0 ≤ cost u)
    (hsb : SimplifyBudget w cost scost) (hds : DefaultsSafe w) {u : UKey} {d : Dim}
    (hk : u ∈ w.units.map Prod.fst) (hi : u.cls.irreducible = true) (hd : w.defaults u.cls = some d)
    {s : SQ (Fl A)} (hs : w.rescaleS ⟨1, unitDim u⟩ d = .ok s) : FlSimpOK w scost s u := by
  have hnd : u.cls ≠ .dimensionless := by
    intro e; rw [e] at hi; exact absurd hi (by decide)
  have hu := unitDim_ok hk
  have hdo := hw.defaultsOK _ _ hd
  have safe := hds u d hk hd
  unfold World.rescaleS at hs
  split at hs
  · rename_i he
    simp only [Except.ok.injEq] at hs; subst hs
    refine ⟨one_pos, hu, fun x hx => ⟨u.cls, d, hd, fl_mem_keys_same (safe.direct he) hx⟩, 1, one_pos,
      fun v => by rw [one_mul, fl_unitDim_size hnd], ?_⟩
    simp only [Fl.one_val, sub_self, abs_zero]
    exact mul_nonneg (hsb.nonneg u) A.L_nonneg
  · rcases hcf : w.convFactor (unitDim u) d with e | cf
    · simp only [hcf] at hs
      have := convFactor_error hcf; subst this
      exact absurd hs (by simp)
    · simp only [hcf, Except.ok.injEq] at hs; subst hs
      obtain ⟨c1, c, c2, c3, c4⟩ := hw.convFactor hc hu hdo safe.refs hcf
      obtain ⟨m1, m2⟩ := A.mul_log c1 one_pos
      refine ⟨m1, hdo, fun x hx => ⟨u.cls, d, hd, hx⟩, c, c2, fun v => by rw [← c3 v, fl_unitDim_size hnd], ?_⟩
      rw [Real.log_one, add_zero] at m2
      have hb := hsb.base u d hi hd
      have hL := A.L_nonneg
      have hb' := mul_le_mul_of_nonneg_right hb hL
      show |Real.log (A.mul cf.val 1) - _| ≤ _
      rw [abs_le] at m2 c4 ⊢
      constructor <;> nlinarith [m2.1, m2.2, c4.1, c4.2]

theorem fl_loop {scost : UKey → ℝ} {fuel : Nat}
    (ih : ∀ u s, u ∈ w.units.map Prod.fst → u.cls ≠ .dimensionless →
      unitSimplified w fuel u = .ok s → FlSimpOK w scost s u)
    (d : Dim) (hk : ∀ kv ∈ d, kv.1 ∈ w.units.map Prod.fst) (hd : ∀ kv ∈ d, kv.1.cls ≠ .dimensionless)
    (rq rq' : SQ (Fl A)) (h0 : 0 < rq.mag.val) (hok : DimOK w rq.dim)
    (hdf : ∀ x ∈ rq.dim.map Prod.fst, IsDefaultUnit w x) (x e : ℝ) (hx : 0 < x)
    (he : |Real.log rq.mag.val - Real.log x| ≤ e * A.L) (h : simplifiedLoop w fuel rq d = .ok rq') :
    0 < rq'.mag.val ∧ DimOK w rq'.dim ∧ (∀ x ∈ rq'.dim.map Prod.fst, IsDefaultUnit w x) ∧
    ∃ y, 0 < y ∧ (∀ v : FlValuation w, x * v.size rq.dim * v.size d = y * v.size rq'.dim) ∧
      |Real.log rq'.mag.val - Real.log y| ≤ (e + dimCost scost d) * A.L := by
  induction d generalizing rq x e with
  | nil =>
    simp only [simplifiedLoop, Except.ok.injEq] at h; subst h
    exact ⟨h0, hok, hdf, x, hx, fun v => by simp [FlValuation.size], by simpa [dimCost] using he⟩
  | cons kv d ihd =>
    obtain ⟨u, p⟩ := kv
    rw [simplifiedLoop] at h
    rcases hs : unitSimplified w fuel u with e | s
    · rw [hs] at h; exact absurd h (by simp)
    rw [hs] at h
    simp only at h
    obtain ⟨s1, s2, s3, c, c1, c2, c3⟩ :=
      ih u s (hk (u, p) List.mem_cons_self) (hd (u, p) List.mem_cons_self) hs
    obtain ⟨p1, p2⟩ := A.pow_log s1 p
    obtain ⟨m1, m2⟩ := A.mul_log h0 p1
    have hcp : 0 < c ^ (p : ℝ) := Real.rpow_pos_of_pos c1 _
    have he' : |Real.log (rq.mag * rpow s.mag p).val - Real.log (x * c ^ (p : ℝ))| ≤
        (e + (|(p : ℝ)| * scost u + 2)) * A.L := by
      show |Real.log (A.mul rq.mag.val (A.pow s.mag.val p)) - _| ≤ _
      rw [Real.log_mul hx.ne' hcp.ne', Real.log_rpow c1]
      have q1 : |(p : ℝ) * Real.log s.mag.val - p * Real.log c| ≤ |(p : ℝ)| * scost u * A.L := by
        rw [← mul_sub, abs_mul, mul_assoc]
        exact mul_le_mul_of_nonneg_left c3 (abs_nonneg _)
      rw [abs_le] at m2 p2 he q1 ⊢
      constructor <;> nlinarith [m2.1, m2.2, p2.1, p2.2, he.1, he.2, q1.1, q1.2]
    obtain ⟨t1, t2, t3, y, y1, y2, y3⟩ := ihd (fun kv hkv => hk kv (by simp [hkv]))
      (fun kv hkv => hd kv (by simp [hkv]))
      ⟨rq.mag * rpow s.mag p, Dim.mul rq.dim (Dim.pow s.dim p)⟩ m1 (hok.mul (s2.pow p)) (fun x hx => by
        rcases mem_keys_mul hx with hx | hx
        · exact hdf x hx
        · exact s3 x (mem_keys_pow hx)) _ _ (mul_pos hx hcp) he' h
    refine ⟨t1, t2, t3, y, y1, fun v => ?_, ?_⟩
    · rw [← y2 v]
      have e1 : v.size (Dim.mul rq.dim (Dim.pow s.dim p)) = v.size rq.dim * v.size s.dim ^ (p : ℝ) := by
        simp only [FlValuation.size]
        rw [dsize_mul v.pos, dsize_pow v.pos]; rfl
      have e2 : v.size ((u, p) :: d) = c ^ (p : ℝ) * v.size s.dim ^ (p : ℝ) * v.size d := by
        simp only [FlValuation.size]
        rw [dsize_cons, c2 v, real_rpow_def, Real.mul_rpow c1.le (v.size_pos _).le]
        rfl
      rw [e1, e2]; ring
    · have ec : dimCost scost ((u, p) :: d) = (|(p : ℝ)| * scost u + 2) + dimCost scost d := by
        unfold dimCost; rw [List.map_cons, List.sum_cons]
      rw [ec, ← add_assoc]; exact y3

theorem fl_unitSimplified {κ cost scost : UKey → ℝ} (hw : FlWF w κ cost) (hc : ∀ u, 0 ≤ cost u)
    (hsb : SimplifyBudget w cost scost) (hds : DefaultsSafe w) (fuel : Nat) (u : UKey) (s : SQ (Fl A))
    (hk : u ∈ w.units.map Prod.fst) (hd : u.cls ≠ .dimensionless) (h : unitSimplified w fuel u = .ok s) :
    FlSimpOK w scost s u := by
  induction fuel using Nat.strong_induction_on generalizing u s with
  | _ fuel ih =>
    cases fuel with
    | zero => rw [unitSimplified] at h; exact absurd h (by simp)
    | succ fuel =>
      rw [unitSimplified] at h
      split at h
      · rename_i hi
        rcases hdf : w.defaults u.cls with _ | d
        · rw [hdf] at h; exact absurd h (by simp)
        · rw [hdf] at h
          exact fl_irreducible hw hc hsb hds hk hi hdf h
      · rename_i hni
        rcases hcr : w.convRef u with _ | r
        · rw [hcr] at h
          exact ih fuel (Nat.lt_succ_self _) u s hk hd h
        · rw [hcr] at h
          simp only at h
          cases fuel with
          | zero => rw [scalarSimplified] at h; exact absurd h (by simp)
          | succ fuel =>
            rw [scalarSimplified] at h
            rcases hl : simplifiedLoop w fuel ⟨1, []⟩ r.dim with e | rq
            · rw [hl] at h; exact absurd h (by simp)
            rw [hl] at h
            simp only [Except.ok.injEq] at h; subst h
            obtain ⟨rpos, rbase⟩ := hw.refBase u r hcr
            obtain ⟨t1, t2, t3, y, y1, y2, y3⟩ := fl_loop (scost := scost)
              (fun u s hk hd hs => ih fuel (by omega) u s hk hd hs) r.dim rbase.known rbase.notDimless
              ⟨1, []⟩ rq one_pos (DimOK.nil w) (by simp) 1 0 one_pos (by simp) hl
            obtain ⟨m1, m2⟩ := A.mul_log t1 rpos
            have herr := hw.err u r hcr
            have hκ := hw.κpos u
            refine ⟨m1, t2, t3, κ u * y, mul_pos hκ y1, fun v => ?_, ?_⟩
            · rw [hw.refSize u r v hcr]
              have := y2 v
              rw [show v.size ([] : Dim) = 1 from rfl, one_mul, one_mul] at this
              rw [this]; ring
            · show |Real.log (A.mul rq.mag.val r.mag.val) - _| ≤ _
              rw [Real.log_mul hκ.ne' y1.ne']
              have hb := mul_le_mul_of_nonneg_right
                (hsb.derived u r (by simpa using hni) hcr) A.L_nonneg
              rw [abs_le] at m2 herr y3 ⊢
              constructor <;> nlinarith [m2.1, m2.2, herr.1, herr.2, y3.1, y3.2]

/-- C94: `simplified` gives default units only, and the exact physical value up to the number of rounding
errors that simplifying the units costs, plus one. -/
theorem C94_simplified (hr : Reachable h w) (hds : DefaultsSafe w) (cost scost : UKey → ℝ)
    (hb : ErrorBudget w cost) (hsb : SimplifyBudget w cost scost) (q r : Quantity (Fl A)) (fuel : Nat)
    (hq : DimOK w q.dim) (hres : q.simplified w fuel = .ok r) :
    (∀ u ∈ r.dim.map Prod.fst, IsDefaultUnit w u) ∧
    ∀ v : FlValuation w, WithinErrors A (dimCost scost q.dim + 1) (v.phys r) (v.phys q) := by
  obtain ⟨κ, hw⟩ := hr.flWF cost hb
  unfold Quantity.simplified at hres
  rcases hl : simplifiedLoop w fuel ⟨1, []⟩ q.dim with e | rq
  · rw [hl] at hres; exact absurd hres (by simp)
  rw [hl] at hres
  simp only [Except.ok.injEq] at hres; subst hres
  obtain ⟨t1, t2, t3, y, y1, y2, y3⟩ := fl_loop (scost := scost)
    (fun u s hk hd hs => fl_unitSimplified hw hb.nonneg hsb hds fuel u s hk hd hs) q.dim hq.known hq.notDimless
    ⟨1, []⟩ rq one_pos (DimOK.nil w) (by simp) 1 0 one_pos (by simp) hl
  refine ⟨t3, fun v => withinErrors_of_log rfl fun i => ?_⟩
  obtain ⟨t, m1, m2, m3⟩ := A.mul_factor rq.mag.val (q.mag.elem i).val
  refine ⟨t * (rq.mag.val / y), mul_pos m1 (div_pos t1 y1), ?_, ?_⟩
  · rw [Real.log_mul m1.ne' (div_pos t1 y1).ne', Real.log_div t1.ne' y1.ne']
    rw [abs_le] at m2 y3 ⊢
    constructor <;> nlinarith [m2.1, m2.2, y3.1, y3.2]
  · show A.mul rq.mag.val (q.mag.elem i).val * v.size rq.dim = _ * ((q.mag.elem i).val * v.size q.dim)
    have := y2 v
    rw [show v.size ([] : Dim) = 1 from rfl, one_mul, one_mul] at this
    rw [m3, this]
    field_simp

/-- C94: every state reached by any history has budgets for conversion and for simplification. -/
theorem C94_budgets_exist (hr : Reachable h w) :
    ∃ cost scost, ErrorBudget w cost ∧ SimplifyBudget w cost scost := by
  obtain ⟨cost, hb⟩ := exists_budget hr
  obtain ⟨κ, hw⟩ := hr.flWF cost hb
  let base : UKey → ℝ := fun u =>
    if u.cls.irreducible = true then
      match w.defaults u.cls with
      | some d => dimCost cost (unitDim u) + dimCost cost d + 4
      | none => 0
    else 0
  let scost : UKey → ℝ := fun u =>
    if u.cls.irreducible = true then base u
    else
      match w.convRef u with
      | some r => cost u + dimCost base r.dim + 1
      | none => 0
  have hbase : ∀ u, 0 ≤ base u := by
    intro u
    simp only [base]
    split
    · split
      · have := dimCost_nonneg hb.nonneg (unitDim u)
        rename_i d _
        have := dimCost_nonneg hb.nonneg d
        linarith
      · exact le_rfl
    · exact le_rfl
  refine ⟨cost, scost, hb, ?_, ?_, ?_⟩
  · intro u
    simp only [scost]
    split
    · exact hbase u
    · split
      · rename_i r _
        have := dimCost_nonneg hbase r.dim
        have := hb.nonneg u
        linarith
      · exact le_rfl
  · intro u d hi hd
    simp only [scost, base, hi, if_true, hd, le_refl]
  · intro u r hi hr'
    have hsame : dimCost scost r.dim = dimCost base r.dim := by
      refine dimCost_congr fun kv hkv => ?_
      have := (hw.refBase u r hr').2.base kv hkv
      by_cases hk : kv.1.cls.irreducible = true
      · simp only [scost, if_pos hk]
      · simp only [scost, base, if_neg hk, this]
    rw [hsame]
    simp only [scost, hi, Bool.false_eq_true, if_false, hr', le_refl]

/-! ## A concrete case -/

/-- `5 m`. -/
noncomputable def flB : Quantity (Fl exArith) := ⟨NDArr.scalar ⟨5⟩, dM⟩

theorem fl_safe' : HashSafe flWorld dM dKm := by
  refine ⟨?_, fun _ => by rw [flRef_km, flRef_m]; exact SameContent.refl _⟩
  intro he
  rw [deq_comm] at he
  exact (fl_safe.direct he).symm

theorem fl_compat' : FlCompatible flWorld dM dKm := by
  obtain ⟨κ, hw⟩ := flWorld_reachable.flWF _ fl_budget
  rw [hw.compatible_iff fl_budget.nonneg (fl_dimOK _ (.inr rfl)) (fl_dimOK _ (.inl rfl)), flRef_km, flRef_m]
  exact SameContent.refl _

/-- `[2, 3] km + 5 m` returns, and is right up to twelve errors of ten percent; so do `==` and `*`. -/
example : ∃ r, flQ.add flWorld (.quantity flB) = .ok r ∧ r.dim = dKm ∧ ∀ v : FlValuation flWorld, ∃ p,
    NDArr.bin Prod.mk (v.phys flQ) (v.phys flB) = .ok p ∧
    WithinOperandErrors exArith (2 + 5 + 5) (· + ·) (v.phys r) p := by
  obtain ⟨r, hr⟩ := (C94_add_returns flWorld_reachable flQ (.quantity flB) (fl_dimOK _ (.inl rfl))
    (fl_dimOK _ (.inr rfl)) fl_safe').2 ⟨fl_compat', by rfl⟩
  obtain ⟨h1, h2⟩ := C94_add flWorld_reachable _ fl_budget flQ r (.quantity flB) (fl_dimOK _ (.inl rfl))
    (fl_dimOK _ (.inr rfl)) fl_safe' hr
  refine ⟨r, hr, h1, fun v => ?_⟩
  obtain ⟨p, p1, p2⟩ := h2 v
  have e1 : dimCost (fun u => if u = uKm then 3 else 0) flQ.dim = 5 := by
    simp [dimCost, flQ, dKm]; norm_num
  have e2 : dimCost (fun u => if u = uKm then 3 else 0) dM = 2 := by
    have : uM ≠ uKm := by decide
    simp [dimCost, dM, this]
  refine ⟨p, p1, ?_⟩
  have p3 := p2
  rw [e1, show (Operand.quantity flB).toQuantity.dim = dM from rfl, e2] at p3
  exact p3

example : ∃ m, flQ.eq flWorld (.quantity flB) = .ok m := by
  obtain ⟨o, ho⟩ := (C58_returns flWorld_reachable flB dKm (fl_dimOK _ (.inr rfl)) (fl_dimOK _ (.inl rfl)) fl_safe').2
    fl_compat'
  have hsh : o.mag.shape = [] := by
    unfold Quantity.rescale at ho
    split at ho
    · simp only [Except.ok.injEq] at ho; subst ho; rfl
    · split at ho <;> simp only [reduceCtorEq, Except.ok.injEq] at ho
      subst ho; rfl
  unfold Quantity.eq
  simp only [show flQ.dim = dKm from rfl, ho]
  exact ⟨_, NDArr.bin_intro _ (by rw [hsh]; rfl)⟩

example : ∃ r, flQ.mul flWorld (.quantity flB) = .ok r := ⟨_, rfl⟩
example : ∃ r, flQ.truediv flWorld (.quantity flB) = .ok r := ⟨_, rfl⟩
example : ∃ r, flB.pow ⟨NDArr.scalar (1/2), none⟩ = .ok r := ⟨_, rfl⟩

theorem fl_defaults : flWorld.defaults .length = some dM := by rfl

theorem fl_defaultsSafe : DefaultsSafe flWorld := by
  intro u d hu hd
  rw [flKeys] at hu
  simp only [List.mem_cons, List.not_mem_nil, or_false] at hu
  rcases hu with rfl | rfl
  · rw [show uM.cls = .length from rfl, fl_defaults] at hd
    rw [← Option.some.inj hd]
    exact ⟨fun _ => SameContent.refl _, fun _ => SameContent.refl _⟩
  · rw [show uKm.cls = .length from rfl, fl_defaults] at hd
    rw [← Option.some.inj hd]
    exact fl_safe

theorem fl_simplifyBudget : SimplifyBudget flWorld (fun u => if u = uKm then 3 else 0) (fun u => 13) := by
  refine ⟨fun _ => by norm_num, ?_, ?_⟩
  · intro u d hi hd
    have hnd : u.cls ≠ .dimensionless := by
      intro e; rw [e] at hi; exact absurd hi (by decide)
    have h1 : d = dM := by
      have : ∀ c, flWorld.defaults c = if c = .length then some dM else none := by
        intro c
        by_cases hc : c = .length
        · subst hc; rw [if_pos rfl]; exact fl_defaults
        · rw [if_neg hc]
          cases c <;> first | rfl | exact absurd rfl hc
      rw [this] at hd
      split at hd
      · exact (Option.some.inj hd).symm
      · exact absurd hd (by simp)
    subst h1
    have hne : uM ≠ uKm := by decide
    unfold unitDim
    rw [if_neg hnd]
    simp only [dimCost, dM, List.map_cons, List.map_nil, List.sum_cons, List.sum_nil, hne, if_false]
    split <;> norm_num
  · intro u r hi hr
    exfalso
    rcases hinf : flWorld.info u with _ | i
    · simp [World.convRef, hinf] at hr
    · have hk := known_of_info hinf
      rw [flKeys] at hk
      simp only [List.mem_cons, List.not_mem_nil, or_false] at hk
      rcases hk with rfl | rfl <;> exact absurd hi (by decide)

/-- `[2, 3] km` simplifies, with at most sixteen errors of ten percent. -/
example : ∃ r, flQ.simplified flWorld 3 = .ok r ∧ ∀ v : FlValuation flWorld,
    WithinErrors exArith 16 (v.phys r) (v.phys flQ) := by
  have hret : Returns (flQ.simplified flWorld 3) := by
    obtain ⟨κ, hw⟩ := flWorld_reachable.flWF _ fl_budget
    have hcf : flWorld.convFactor dKm dM = .ok
        ((flWorld.refUnits dKm).mag * 1 / ((flWorld.refUnits dM).mag * 1)) := by
      rw [convFactor_def, flRef_km, flRef_m, if_pos (deq_self _ _)]
    have hu : Returns (unitSimplified flWorld 3 uKm) := by
      rw [unitSimplified, if_pos (by rfl), show uKm.cls = .length from rfl, fl_defaults]
      simp only
      rw [show unitDim uKm = dKm from rfl]
      unfold World.rescaleS
      simp only
      split
      · exact returns_ok _
      · rw [hcf]; exact returns_ok _
    obtain ⟨s, hs⟩ := hu
    unfold Quantity.simplified
    rw [show flQ.dim = [(uKm, 1)] from rfl, simplifiedLoop, hs]
    simp only [simplifiedLoop]
    exact returns_ok _
  obtain ⟨r, hr⟩ := hret
  refine ⟨r, hr, fun v => ?_⟩
  have := (C94_simplified flWorld_reachable fl_defaultsSafe _ _ fl_budget fl_simplifyBudget flQ r 3
    (fl_dimOK _ (.inl rfl)) hr).2 v
  have e1 : dimCost (fun _ => 13) flQ.dim + 1 = 16 := by
    simp [dimCost, flQ, dKm]; norm_num
  rw [e1] at this
  exact this

end PQ
