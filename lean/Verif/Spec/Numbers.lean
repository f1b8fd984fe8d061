import Verif.Model.Quantity
import Mathlib.Algebra.Order.Field.Basic
import Mathlib.Analysis.SpecialFunctions.Pow.Real
import Mathlib.Algebra.Order.Floor.Ring
import Mathlib.Algebra.Order.Archimedean.Real.Basic

/-!
# What is assumed of magnitudes when a theorem is about values

An ordered field with a power function obeying the usual laws.  The reals are an instance, so every
theorem stated for such a `K` is a theorem about exact real arithmetic.
-/

namespace PQ

/-- The laws of `x ** p` for rational `p`. -/
class LawfulRPow (K : Type _) [Field K] [LinearOrder K] [RPow K] : Prop where
  rpow_zero : ∀ a : K, rpow a 0 = 1
  rpow_one : ∀ a : K, rpow a 1 = a
  rpow_pos : ∀ (a : K) (p : ℚ), 0 < a → 0 < rpow a p
  rpow_add : ∀ (a : K) (p q : ℚ), 0 < a → rpow a (p + q) = rpow a p * rpow a q
  mul_rpow : ∀ (a b : K) (p : ℚ), 0 < a → 0 < b → rpow (a * b) p = rpow a p * rpow b p
  rpow_rpow : ∀ (a : K) (p q : ℚ), 0 < a → rpow (rpow a p) q = rpow a (p * q)
  rpow_natCast : ∀ (a : K) (n : ℕ), rpow a (n : ℚ) = a ^ n
  rpow_intCast : ∀ (a : K) (n : ℤ), a ≠ 0 → rpow a (n : ℚ) = a ^ n
  rpow_ne_one : ∀ (a : K) (p : ℚ), 1 < a → p ≠ 0 → rpow a p ≠ 1
  zero_rpow : ∀ p : ℚ, 0 < p → rpow (0 : K) p = 0

noncomputable instance : RPow ℝ := ⟨fun a p => a ^ (p : ℝ)⟩

theorem real_rpow_def (a : ℝ) (p : ℚ) : rpow a p = a ^ (p : ℝ) := rfl

instance : LawfulRPow ℝ where
  rpow_zero a := by simp [real_rpow_def]
  rpow_one a := by simp [real_rpow_def]
  rpow_pos a p h := Real.rpow_pos_of_pos h _
  rpow_add a p q h := by simp only [real_rpow_def, Rat.cast_add]; exact Real.rpow_add h _ _
  mul_rpow a b p ha hb := Real.mul_rpow ha.le hb.le
  rpow_rpow a p q h := by
    simp only [real_rpow_def, Rat.cast_mul]; exact (Real.rpow_mul h.le _ _).symm
  rpow_natCast a n := by simp [real_rpow_def]
  rpow_intCast a n h := by simp [real_rpow_def]
  rpow_ne_one a p ha hp := by
    simp only [real_rpow_def]
    have hp' : (p : ℝ) ≠ 0 := by exact_mod_cast hp
    intro h
    rcases lt_or_gt_of_ne hp' with h1 | h1
    · exact absurd h (Real.rpow_lt_one_of_one_lt_of_neg ha h1).ne
    · exact absurd h (Real.one_lt_rpow ha h1).ne'
  zero_rpow p hp := Real.zero_rpow (by exact_mod_cast hp.ne')

noncomputable instance : PyFloor ℝ := ⟨fun a => (⌊a⌋ : ℤ)⟩

end PQ
