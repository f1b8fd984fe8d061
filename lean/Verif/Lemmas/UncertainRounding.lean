import Verif.Props.RoundedArith
import Verif.Spec.UncertainRounding
import Verif.Lemmas.Uncertain3

/-! # Lemmas about uncertain quantities under rounding -/

namespace PQ

open Dict World

variable {A : Arith} {h : Hasher} {w : World (Fl A)}

/-! ### numbers up to rounding errors -/

/-- `Off` in logarithmic form. -/
def OffL (A : Arith) (n x y : ℝ) : Prop := ∃ t, 0 < t ∧ |Real.log t| ≤ n * A.L ∧ x = t * y

theorem OffL.off {n x y : ℝ} (h : OffL A n x y) : Off A n x y := by
  obtain ⟨t, h1, h2, h3⟩ := h
  obtain ⟨-, h4⟩ := withinErrors_of_log (A := A) (n := n) (x := ⟨[], fun _ => t⟩) (y := ⟨[], fun _ => 1⟩) rfl
    (fun _ => ⟨t, h1, h2, (mul_one _).symm⟩)
  obtain ⟨t', a, b, c⟩ := h4 []
  have : t = t' := by simpa using c
  subst this
  exact ⟨t, a, b, h3⟩

theorem Off.offL {n x y : ℝ} (h : Off A n x y) : OffL A n x y := by
  obtain ⟨t, h1, h2, h3⟩ := h
  obtain ⟨-, h4⟩ := WithinErrors.log (A := A) (n := n) (x := ⟨[], fun _ => t⟩) (y := ⟨[], fun _ => 1⟩)
    ⟨rfl, fun _ => ⟨t, h1, h2, (mul_one _).symm⟩⟩
  obtain ⟨t', a, b, c⟩ := h4 []
  have : t = t' := by simpa using c
  subst this
  exact ⟨t, a, b, h3⟩

theorem OffL.refl {n : ℝ} (hn : 0 ≤ n) (x : ℝ) : OffL A n x x :=
  ⟨1, one_pos, by rw [Real.log_one, abs_zero]; exact mul_nonneg hn A.L_nonneg, (one_mul _).symm⟩

theorem OffL.mono {n m x y : ℝ} (hx : OffL A n x y) (hnm : n ≤ m) : OffL A m x y := by
  obtain ⟨t, h1, h2, h3⟩ := hx
  exact ⟨t, h1, h2.trans (mul_le_mul_of_nonneg_right hnm A.L_nonneg), h3⟩

theorem OffL.trans {n m x y z : ℝ} (hx : OffL A n x y) (hy : OffL A m y z) : OffL A (n + m) x z := by
  obtain ⟨t, t1, t2, t3⟩ := hx
  obtain ⟨s, s1, s2, s3⟩ := hy
  refine ⟨t * s, mul_pos t1 s1, ?_, by rw [t3, s3]; ring⟩
  rw [Real.log_mul t1.ne' s1.ne', add_mul]
  exact (abs_add_le _ _).trans (add_le_add t2 s2)

theorem OffL.scale {n x y : ℝ} (hx : OffL A n x y) (c : ℝ) : OffL A n (x * c) (y * c) := by
  obtain ⟨t, t1, t2, t3⟩ := hx
  exact ⟨t, t1, t2, by rw [t3]; ring⟩

theorem OffL.ne {n x y : ℝ} (hx : OffL A n x y) (hy : y ≠ 0) : x ≠ 0 := by
  obtain ⟨t, t1, -, t3⟩ := hx
  rw [t3]; exact mul_ne_zero t1.ne' hy

theorem OffL.of_err {x y : ℝ} (h : |x - y| ≤ A.eps * |y|) : OffL A 1 x y := by
  obtain ⟨t, t1, t2, t3⟩ := A.factor h
  exact ⟨t, t1, by rw [one_mul]; exact t2, t3⟩

theorem OffL.times {n m x y x' y' : ℝ} (hx : OffL A n x x') (hy : OffL A m y y') :
    OffL A (n + m) (x * y) (x' * y') := by
  obtain ⟨t, t1, t2, t3⟩ := hx
  obtain ⟨s, s1, s2, s3⟩ := hy
  refine ⟨t * s, mul_pos t1 s1, ?_, by rw [t3, s3]; ring⟩
  rw [Real.log_mul t1.ne' s1.ne', add_mul]
  exact (abs_add_le _ _).trans (add_le_add t2 s2)

theorem OffL.inv {n y y' : ℝ} (hy : OffL A n y y') : OffL A n y⁻¹ y'⁻¹ := by
  obtain ⟨t, t1, t2, t3⟩ := hy
  refine ⟨t⁻¹, inv_pos.2 t1, by rw [Real.log_inv, abs_neg]; exact t2, by rw [t3, mul_inv]⟩

theorem OffL.over {n m x y x' y' : ℝ} (hx : OffL A n x x') (hy : OffL A m y y') :
    OffL A (n + m) (x / y) (x' / y') := by
  rw [div_eq_mul_inv, div_eq_mul_inv]; exact hx.times hy.inv

theorem OffL.mul {n m x y x' y' : ℝ} (hx : OffL A n x x') (hy : OffL A m y y') :
    OffL A (1 + (n + m)) (A.mul x y) (x' * y') := (OffL.of_err (A.mul_err x y)).trans (hx.times hy)

theorem OffL.div {n m x y x' y' : ℝ} (hx : OffL A n x x') (hy : OffL A m y y') (h0 : y' ≠ 0) :
    OffL A (1 + (n + m)) (A.div x y) (x' / y') :=
  (OffL.of_err (A.div_err x y (hy.ne h0))).trans (hx.over hy)

theorem OffL.sq {n x x' : ℝ} (hx : OffL A n x x') : OffL A (1 + (n + n)) (A.pow x 2) (x' ^ 2) := by
  have := (OffL.of_err (A.sq_err x)).trans (by rw [_root_.sq]; exact hx.times hx)
  rw [_root_.sq]; exact this

theorem OffL.plus {n x y x' y' : ℝ} (hx : OffL A n x x') (hy : OffL A n y y') (h1 : 0 ≤ x') (h2 : 0 ≤ y') :
    OffL A n (x + y) (x' + y') := by
  obtain ⟨t, t1, t2, t3⟩ := hx
  obtain ⟨s, s1, s2, s3⟩ := hy
  rcases (add_nonneg h1 h2).lt_or_eq with h0 | h0
  · have hb : ∀ r : ℝ, 0 < r → |Real.log r| ≤ n * A.L → Real.exp (-(n * A.L)) ≤ r ∧ r ≤ Real.exp (n * A.L) := by
      intro r hr hl
      rw [abs_le] at hl
      rw [← Real.exp_log hr]
      simp only [Real.log_exp, Real.exp_le_exp]
      exact hl
    obtain ⟨t4, t5⟩ := hb t t1 t2
    obtain ⟨s4, s5⟩ := hb s s1 s2
    have k1 : Real.exp (-(n * A.L)) ≤ (x + y) / (x' + y') := by
      rw [le_div_iff₀ h0, t3, s3]; nlinarith
    have k2 : (x + y) / (x' + y') ≤ Real.exp (n * A.L) := by
      rw [div_le_iff₀ h0, t3, s3]; nlinarith
    have k0 : 0 < (x + y) / (x' + y') := (Real.exp_pos _).trans_le k1
    refine ⟨_, k0, ?_, by field_simp⟩
    have l1 := Real.log_le_log (Real.exp_pos _) k1
    have l2 := Real.log_le_log k0 k2
    rw [Real.log_exp] at l1 l2
    exact abs_le.2 ⟨l1, l2⟩
  · have e1 : x' = 0 := by linarith
    have e2 : y' = 0 := by linarith
    exact ⟨t, t1, t2, by rw [t3, s3, e1, e2]; ring⟩

theorem OffL.add {n x y x' y' : ℝ} (hx : OffL A n x x') (hy : OffL A n y y') (h1 : 0 ≤ x') (h2 : 0 ≤ y') :
    OffL A (1 + n) (A.add x y) (x' + y') := (OffL.of_err (A.add_err x y)).trans (hx.plus hy h1 h2)

theorem OffL.root {n x x' : ℝ} (hx : OffL A n x x') (h0 : 0 ≤ x') :
    OffL A (1 + n / 2) (A.pow x (1/2)) (Real.sqrt x') := by
  obtain ⟨t, t1, t2, t3⟩ := hx
  have hn : 0 ≤ (n / 2) * A.L := by
    have := (abs_nonneg _).trans t2
    linarith
  rcases h0.lt_or_eq with h0 | h0
  · have hxp : 0 < x := by rw [t3]; exact mul_pos t1 h0
    have h1 : OffL A 1 (A.pow x (1/2)) (Real.sqrt x) := by
      have := OffL.of_err (A.pow_err x (1/2) hxp)
      rw [Real.sqrt_eq_rpow]
      rwa [show (((1/2 : ℚ)) : ℝ) = 1/2 by norm_num] at this
    refine h1.trans ⟨Real.sqrt t, Real.sqrt_pos.2 t1, ?_, by rw [t3, Real.sqrt_mul t1.le]⟩
    rw [Real.log_sqrt t1.le, abs_div, abs_two]
    linarith
  · have : x = 0 := by rw [t3, ← h0, mul_zero]
    rw [this, A.pow_zero _ (by norm_num), ← h0, Real.sqrt_zero]
    refine ⟨1, one_pos, ?_, (mul_zero _).symm⟩
    rw [Real.log_one, abs_zero, add_mul]
    have := A.L_nonneg
    linarith

/-- The uncertainty of a sum. -/
theorem OffL.quad {n x y x' y' : ℝ} (hx : OffL A n x x') (hy : OffL A n y y') :
    OffL A (n + 2) (A.pow (A.add (A.pow x 2) (A.pow y 2)) (1/2)) (Real.sqrt (x' ^ 2 + y' ^ 2)) :=
  ((hx.sq.add hy.sq (sq_nonneg _) (sq_nonneg _)).root (by positivity)).mono (by linarith)

/-- The uncertainty of a product with an exact number. -/
theorem OffL.rootMul {n m x y x' y' : ℝ} (hx : OffL A n x x') (hy : OffL A m y y') :
    OffL A (n + m + 5/2) (A.pow (A.mul (A.pow x 2) (A.pow y 2)) (1/2)) |x' * y'| := by
  have := (hx.sq.mul hy.sq).root (by positivity)
  rw [← mul_pow, Real.sqrt_sq_eq_abs] at this
  exact this.mono (by linarith)

theorem OffL.rootDiv {n m x y x' y' : ℝ} (hx : OffL A n x x') (hy : OffL A m y y') (h0 : y' ≠ 0) :
    OffL A (n + m + 5/2) (A.pow (A.div (A.pow x 2) (A.pow y 2)) (1/2)) |x' / y'| := by
  have := (hx.sq.div hy.sq (pow_ne_zero 2 h0)).root (by positivity)
  rw [← div_pow, Real.sqrt_sq_eq_abs] at this
  exact this.mono (by linarith)

end PQ
