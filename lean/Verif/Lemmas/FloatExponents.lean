import Verif.Spec.FloatExponents
import Verif.Lemmas.Dim
import Mathlib.Tactic.Linarith
import Mathlib.Tactic.FieldSimp
import Mathlib.Tactic.Ring
import Mathlib.Tactic.Positivity
import Mathlib.Algebra.Order.Floor.Ring
import Mathlib.Algebra.Order.Field.Rat

/-! # Lemmas about float exponents -/

namespace PQ
open Dict

/-! ## Rounding -/

theorem roundHalfEven_nearest (x : ℚ) (m : ℤ) : |(roundHalfEven x : ℚ) - x| ≤ |(m : ℚ) - x| := by
  have h0 := Int.floor_le x
  have h1 := Int.lt_floor_add_one x
  have key : m ≤ ⌊x⌋ ∨ ⌊x⌋ + 1 ≤ m := by omega
  have hm : (m : ℚ) ≤ ⌊x⌋ ∨ (⌊x⌋ : ℚ) + 1 ≤ m := by
    rcases key with h | h
    · left; exact_mod_cast h
    · right; exact_mod_cast h
  unfold roundHalfEven
  split_ifs with h h' h'' <;> push_cast <;> rcases hm with hm | hm <;>
    rcases abs_cases ((m : ℚ) - x) with ⟨e, _⟩ | ⟨e, _⟩ <;> rw [e, abs_le] <;> constructor <;> linarith

theorem two_zpow_pos (k : ℤ) : (0 : ℚ) < 2 ^ k := zpow_pos (by norm_num) k

theorem two_zpow_le {a b : ℤ} (h : a ≤ b) : (2 : ℚ) ^ a ≤ 2 ^ b := zpow_le_zpow_right₀ (by norm_num) h

theorem abs_lt_lastPlace (x : ℚ) : |x| < 2 ^ (lastPlace x + 53) := by
  have h := Int.lt_zpow_succ_log_self (b := 2) (by norm_num) |x|
  have : Int.log 2 |x| + 1 ≤ lastPlace x + 53 := by
    have := le_max_left (Int.log 2 |x| - 52) (-1074)
    unfold lastPlace; omega
  exact lt_of_lt_of_le (by exact_mod_cast h) (two_zpow_le this)

theorem toDouble_isDouble (x : ℚ) : IsDouble (toDouble x) := by
  refine ⟨roundHalfEven (x / 2 ^ lastPlace x), lastPlace x, ?_, le_max_right _ _, rfl⟩
  have hp := two_zpow_pos (lastPlace x)
  have hlt : |x / 2 ^ lastPlace x| < 2 ^ 53 := by
    rw [abs_div, abs_of_pos hp, div_lt_iff₀ hp]
    have := abs_lt_lastPlace x
    rw [zpow_add₀ (by norm_num)] at this
    calc |x| < _ := this
      _ = _ := by rw [mul_comm]; norm_num
  obtain ⟨h1, h2⟩ := abs_lt.mp hlt
  rw [abs_le]
  have f0 := Int.floor_le (x / 2 ^ lastPlace x)
  have f1 : ⌊x / 2 ^ lastPlace x⌋ < 2 ^ 53 := Int.floor_lt.mpr (by push_cast; exact h2)
  have f2 : -(2 ^ 53) ≤ ⌊x / 2 ^ lastPlace x⌋ := Int.le_floor.mpr (by push_cast; exact h1.le)
  unfold roundHalfEven
  split_ifs <;> constructor <;> omega

theorem toDouble_zero : toDouble 0 = 0 := by
  have : roundHalfEven 0 = 0 := by decide +kernel
  rw [toDouble, zero_div, this, Int.cast_zero, zero_mul]

theorem toDouble_least (x : ℚ) : ∀ z, IsDouble z → |toDouble x - x| ≤ |z - x| := by
  by_cases hx : x = 0
  · subst hx
    intro z _
    rw [toDouble_zero, sub_zero, abs_zero]
    exact abs_nonneg _
  rintro z ⟨n, k, hn, hk, rfl⟩
  have hp := two_zpow_pos (lastPlace x)
  -- multiples of the last place
  have mult : ∀ m : ℤ, |toDouble x - x| ≤ |(m : ℚ) * 2 ^ lastPlace x - x| := by
    intro m
    have h := roundHalfEven_nearest (x / 2 ^ lastPlace x) m
    have h' := mul_le_mul_of_nonneg_right h hp.le
    rw [← abs_of_pos hp, ← abs_mul, ← abs_mul, abs_of_pos hp, sub_mul, sub_mul,
      div_mul_cancel₀ x hp.ne'] at h'
    exact h'
  by_cases hke : lastPlace x ≤ k
  · obtain ⟨j, hj⟩ : ∃ j : ℕ, k = lastPlace x + j := ⟨(k - lastPlace x).toNat, by omega⟩
    have := mult (n * 2 ^ j)
    rw [hj, zpow_add₀ (by norm_num)]
    push_cast at this
    rw [zpow_natCast, mul_comm ((2:ℚ) ^ lastPlace x), ← mul_assoc]
    exact this
  · rw [not_le] at hke
    have hl : lastPlace x = Int.log 2 |x| - 52 := by unfold lastPlace at *; omega
    have hge : (2 : ℚ) ^ (lastPlace x + 52) ≤ |x| := by
      rw [hl]
      have := Int.zpow_log_le_self (b := 2) (r := |x|) (by norm_num) (abs_pos.mpr hx)
      rw [sub_add_cancel]; exact_mod_cast this
    have hz : |(n : ℚ) * 2 ^ k| ≤ 2 ^ (lastPlace x + 52) := by
      rw [abs_mul, abs_of_pos (two_zpow_pos k)]
      calc |(n : ℚ)| * 2 ^ k ≤ 2 ^ 53 * 2 ^ (lastPlace x - 1) := by
            refine mul_le_mul (by exact_mod_cast hn) (two_zpow_le (by omega)) (two_zpow_pos _).le (by norm_num)
        _ = 2 ^ (lastPlace x + 52) := by
            rw [show lastPlace x + 52 = 53 + (lastPlace x - 1) by ring, zpow_add₀ (by norm_num)]; norm_num
    have e52 : (2 : ℚ) ^ (lastPlace x + 52) = 2 ^ 52 * 2 ^ lastPlace x := by
      rw [zpow_add₀ (by norm_num), mul_comm]; norm_num
    rcases le_total 0 x with h | h
    · have := mult (2 ^ 52)
      rw [show ((2 ^ 52 : ℤ) : ℚ) = 2 ^ 52 by norm_num, ← e52] at this
      rw [abs_of_nonneg h] at hge
      refine this.trans ?_
      rw [abs_sub_comm, abs_of_nonneg (by linarith), abs_sub_comm]
      obtain ⟨_, h2⟩ := abs_le.mp hz
      exact le_trans (by linarith) (le_abs_self _)
    · have := mult (-(2 ^ 52))
      rw [show ((-(2 ^ 52) : ℤ) : ℚ) = -(2 ^ 52) by norm_num, neg_mul, ← e52] at this
      rw [abs_of_nonpos h] at hge
      refine this.trans ?_
      rw [abs_of_nonneg (by linarith)]
      obtain ⟨h1, _⟩ := abs_le.mp hz
      exact le_trans (by linarith) (le_abs_self _)

/-- Multiples of the last place are no nearer than the result. -/
theorem toDouble_mult (x : ℚ) (m : ℤ) : |toDouble x - x| ≤ |(m : ℚ) * 2 ^ lastPlace x - x| := by
  have hp := two_zpow_pos (lastPlace x)
  have h := roundHalfEven_nearest (x / 2 ^ lastPlace x) m
  have h' := mul_le_mul_of_nonneg_right h hp.le
  rw [← abs_of_pos hp, ← abs_mul, ← abs_mul, abs_of_pos hp, sub_mul, sub_mul,
    div_mul_cancel₀ x hp.ne'] at h'
  exact h'

/-- A double as near to `x` as the result is a multiple of the last place. -/
theorem tie_multiple {x z : ℚ} (hz : IsDouble z) (he : |z - x| = |toDouble x - x|) :
    ∃ j : ℤ, z = j * 2 ^ lastPlace x := by
  obtain ⟨n, k, hn, hk, rfl⟩ := hz
  have hp := two_zpow_pos (lastPlace x)
  by_cases hke : lastPlace x ≤ k
  · obtain ⟨j, hj⟩ : ∃ j : ℕ, k = lastPlace x + j := ⟨(k - lastPlace x).toNat, by omega⟩
    refine ⟨n * 2 ^ j, ?_⟩
    rw [hj, zpow_add₀ (by norm_num)]
    push_cast
    rw [zpow_natCast]; ring
  · rw [not_le] at hke
    by_cases hx : x = 0
    · subst hx
      rw [toDouble_zero, sub_zero, sub_zero, abs_zero, abs_eq_zero] at he
      exact ⟨0, by rw [he]; push_cast; ring⟩
    have hl : lastPlace x = Int.log 2 |x| - 52 := by unfold lastPlace at *; omega
    have hge : (2 : ℚ) ^ (lastPlace x + 52) ≤ |x| := by
      rw [hl]
      have := Int.zpow_log_le_self (b := 2) (r := |x|) (by norm_num) (abs_pos.mpr hx)
      rw [sub_add_cancel]; exact_mod_cast this
    have hz : |(n : ℚ) * 2 ^ k| ≤ 2 ^ (lastPlace x + 52) := by
      rw [abs_mul, abs_of_pos (two_zpow_pos k)]
      calc |(n : ℚ)| * 2 ^ k ≤ 2 ^ 53 * 2 ^ (lastPlace x - 1) := by
            refine mul_le_mul (by exact_mod_cast hn) (two_zpow_le (by omega)) (two_zpow_pos _).le (by norm_num)
        _ = 2 ^ (lastPlace x + 52) := by
            rw [show lastPlace x + 52 = 53 + (lastPlace x - 1) by ring, zpow_add₀ (by norm_num)]; norm_num
    have e52 : (2 : ℚ) ^ (lastPlace x + 52) = 2 ^ 52 * 2 ^ lastPlace x := by
      rw [zpow_add₀ (by norm_num), mul_comm]; norm_num
    obtain ⟨z1, z2⟩ := abs_le.mp hz
    rcases le_total 0 x with h | h
    · have := toDouble_mult x (2 ^ 52)
      rw [show ((2 ^ 52 : ℤ) : ℚ) = 2 ^ 52 by norm_num, ← e52] at this
      rw [abs_of_nonneg h] at hge
      rw [← he, abs_sub_comm _ x, abs_sub_comm _ x, abs_of_nonneg (by linarith), abs_of_nonneg (by linarith)] at this
      refine ⟨2 ^ 52, ?_⟩
      rw [show ((2 ^ 52 : ℤ) : ℚ) = 2 ^ 52 by norm_num, ← e52]; linarith
    · have := toDouble_mult x (-(2 ^ 52))
      rw [show ((-(2 ^ 52) : ℤ) : ℚ) = -(2 ^ 52) by norm_num, neg_mul, ← e52] at this
      rw [abs_of_nonpos h] at hge
      rw [← he, abs_of_nonneg (by linarith), abs_of_nonneg (by linarith)] at this
      refine ⟨-(2 ^ 52), ?_⟩
      rw [show ((-(2 ^ 52) : ℤ) : ℚ) = -(2 ^ 52) by norm_num, neg_mul, ← e52]; linarith

theorem roundHalfEven_tie {x : ℚ} (h : |(roundHalfEven x : ℚ) - x| = 1 / 2) : ∃ m : ℤ, roundHalfEven x = 2 * m := by
  have h0 := Int.floor_le x
  have h1 := Int.lt_floor_add_one x
  revert h
  unfold roundHalfEven
  split_ifs with a b c <;> intro h
  · rw [abs_of_nonpos (by linarith)] at h; linarith
  · push_cast at h; rw [abs_of_nonneg (by linarith)] at h; linarith
  · exact ⟨⌊x⌋ / 2, by omega⟩
  · exact ⟨(⌊x⌋ + 1) / 2, by omega⟩

theorem toDouble_nearest (x : ℚ) : Nearest x (toDouble x) := by
  refine ⟨toDouble_isDouble x, toDouble_least x, ?_⟩
  intro z hz hne he
  obtain ⟨j, hj⟩ := tie_multiple hz he
  have hp := two_zpow_pos (lastPlace x)
  have hr : toDouble x = (roundHalfEven (x / 2 ^ lastPlace x) : ℚ) * 2 ^ lastPlace x := rfl
  set p : ℚ := 2 ^ lastPlace x
  set r : ℤ := roundHalfEven (x / p) with hrd
  -- the two are on either side of `x`
  have hs : z - toDouble x = 2 * (x - toDouble x) := by
    rcases abs_eq_abs.mp he with h | h
    · exact absurd (by linarith) hne
    · linarith
  have hx : x = x / p * p := (div_mul_cancel₀ x hp.ne').symm
  have hy : ((j - r : ℤ) : ℚ) = 2 * (x / p - r) := by
    push_cast
    have : ((j : ℚ) - r) * p = 2 * (x / p - r) * p := by
      rw [sub_mul, ← hj, ← hr, hs, hr]
      rw [mul_assoc, sub_mul, div_mul_cancel₀ x hp.ne']
    exact mul_right_cancel₀ hp.ne' this
  have hle : |(r : ℚ) - x / p| ≤ 1 / 2 := by
    have f0 := Int.floor_le (x / p)
    have f1 := Int.lt_floor_add_one (x / p)
    rw [hrd]
    unfold roundHalfEven
    rw [abs_le]
    split_ifs <;> push_cast <;> constructor <;> linarith
  have hjr : j ≠ r := by rintro rfl; exact hne (by rw [hj, hr])
  have hd : j - r = 1 ∨ j - r = -1 := by
    obtain ⟨a, b⟩ := abs_le.mp hle
    have b1 : ((j - r : ℤ) : ℚ) ≤ 1 := by rw [hy]; linarith
    have b2 : (-1 : ℚ) ≤ ((j - r : ℤ) : ℚ) := by rw [hy]; linarith
    have c1 : j - r ≤ 1 := by exact_mod_cast b1
    have c2 : -1 ≤ j - r := by exact_mod_cast b2
    omega
  have hhalf : |(r : ℚ) - x / p| = 1 / 2 := by
    rcases hd with h | h <;> rw [h] at hy <;> push_cast at hy
    · rw [abs_of_nonpos (by linarith)]; linarith
    · rw [abs_of_nonneg (by linarith)]; linarith
  obtain ⟨m, hm⟩ := roundHalfEven_tie hhalf
  have hgap : z - toDouble x = ((j - r : ℤ) : ℚ) * p := by rw [hj, hr]; push_cast; ring
  rw [← hrd] at hm
  rcases hd with h | h
  · exact ⟨m, by rw [hgap, h, hr, hm]; push_cast; ring⟩
  · exact ⟨-m, by rw [hgap, h, hr, hm]; push_cast; ring⟩

theorem toDouble_of_isDouble {x : ℚ} (h : IsDouble x) : toDouble x = x := by
  have := toDouble_least x x h
  rw [sub_self, abs_zero] at this
  exact sub_eq_zero.mp (abs_eq_zero.mp (le_antisymm this (abs_nonneg _)))

theorem isDouble_int {n : ℤ} (h : |n| ≤ 2 ^ 53) : IsDouble n := ⟨n, 0, h, by norm_num, by simp⟩

theorem IsDouble.neg {x : ℚ} (h : IsDouble x) : IsDouble (-x) := by
  obtain ⟨n, k, h1, h2, rfl⟩ := h
  exact ⟨-n, k, by rwa [abs_neg], h2, by push_cast; ring⟩

theorem IsDouble.zero : IsDouble 0 := ⟨0, 0, by norm_num, by norm_num, by simp⟩

theorem IsDouble.one : IsDouble 1 := ⟨1, 0, by norm_num, by norm_num, by simp⟩

/-- The relative error of rounding is at most `2^-53`, unless the number is tiny. -/
theorem toDouble_err {x : ℚ} (hx : 2 ^ (-1022 : ℤ) ≤ |x|) : |toDouble x - x| ≤ 2 ^ (-53 : ℤ) * |x| := by
  have hp := two_zpow_pos (lastPlace x)
  have x0 : 0 < |x| := lt_of_lt_of_le (two_zpow_pos _) hx
  have hlog : -1022 ≤ Int.log 2 |x| := by
    rw [← Int.zpow_le_iff_le_log (by norm_num) x0]; exact_mod_cast hx
  have hl : lastPlace x = Int.log 2 |x| - 52 := by unfold lastPlace; omega
  have half : |(roundHalfEven (x / 2 ^ lastPlace x) : ℚ) - x / 2 ^ lastPlace x| ≤ 1 / 2 := by
    have h0 := Int.floor_le (x / 2 ^ lastPlace x)
    have h1 := Int.lt_floor_add_one (x / 2 ^ lastPlace x)
    unfold roundHalfEven
    split_ifs <;> push_cast <;> rw [abs_le] <;> constructor <;> linarith
  have h' := mul_le_mul_of_nonneg_right half hp.le
  rw [← abs_of_pos hp, ← abs_mul, abs_of_pos hp, sub_mul, div_mul_cancel₀ x hp.ne'] at h'
  refine h'.trans ?_
  have hge : (2 : ℚ) ^ (lastPlace x + 52) ≤ |x| := by
    rw [hl]
    have := Int.zpow_log_le_self (b := 2) (r := |x|) (by norm_num) x0
    rw [sub_add_cancel]; exact_mod_cast this
  calc 1 / 2 * (2 : ℚ) ^ lastPlace x = 2 ^ (-53 : ℤ) * 2 ^ (lastPlace x + 52) := by
        rw [← zpow_add₀ (by norm_num), show (-53 : ℤ) + (lastPlace x + 52) = -1 + lastPlace x by ring,
          zpow_add₀ (by norm_num)]; norm_num
    _ ≤ _ := mul_le_mul_of_nonneg_left hge (two_zpow_pos _).le

/-! ## Numbers -/

namespace PyExp

theorem toFloat_of {v : PyExp} (h : v.Ordinary) : v.toFloat = v.val := by
  cases v with
  | int n => exact toDouble_of_isDouble h
  | flt x => rfl

theorem val_neg (v : PyExp) : v.neg.val = -v.val := by cases v <;> simp [neg, val]

theorem Ordinary.neg {v : PyExp} (h : v.Ordinary) : v.neg.Ordinary := by
  unfold Ordinary at *; rw [val_neg]; exact IsDouble.neg h

/-- The result of an operation is exact (two integers) or the rounded exact result. -/
theorem add_val {a b : PyExp} (ha : a.Ordinary) (hb : b.Ordinary) :
    (a.add b).val = a.val + b.val ∨ (a.add b).val = toDouble (a.val + b.val) := by
  cases a <;> cases b <;> simp only [add, val, Int.cast_add, true_or] <;> right <;>
    rw [toFloat_of ha, toFloat_of hb] <;> rfl

theorem sub_val {a b : PyExp} (ha : a.Ordinary) (hb : b.Ordinary) :
    (a.sub b).val = a.val - b.val ∨ (a.sub b).val = toDouble (a.val - b.val) := by
  cases a <;> cases b <;> simp only [sub, val, Int.cast_sub, true_or] <;> right <;>
    rw [toFloat_of ha, toFloat_of hb] <;> rfl

theorem mul_val {a b : PyExp} (ha : a.Ordinary) (hb : b.Ordinary) :
    (a.mul b).val = a.val * b.val ∨ (a.mul b).val = toDouble (a.val * b.val) := by
  cases a <;> cases b <;> simp only [mul, val, Int.cast_mul, true_or] <;> right <;>
    rw [toFloat_of ha, toFloat_of hb] <;> rfl

theorem add_exact {a b : PyExp} (ha : a.Ordinary) (hb : b.Ordinary) (h : IsDouble (a.val + b.val)) :
    (a.add b).val = a.val + b.val := by
  rcases add_val ha hb with e | e
  · exact e
  · rw [e, toDouble_of_isDouble h]

theorem sub_exact {a b : PyExp} (ha : a.Ordinary) (hb : b.Ordinary) (h : IsDouble (a.val - b.val)) :
    (a.sub b).val = a.val - b.val := by
  rcases sub_val ha hb with e | e
  · exact e
  · rw [e, toDouble_of_isDouble h]

theorem mul_exact {a b : PyExp} (ha : a.Ordinary) (hb : b.Ordinary) (h : IsDouble (a.val * b.val)) :
    (a.mul b).val = a.val * b.val := by
  rcases mul_val ha hb with e | e
  · exact e
  · rw [e, toDouble_of_isDouble h]

theorem sub_self (a : PyExp) : (a.sub a).val = 0 := by
  cases a with
  | int n => simp [sub, val]
  | flt x => show toDouble (x - x) = 0; rw [_root_.sub_self, toDouble_zero]

theorem add_comm (a b : PyExp) : a.add b = b.add a := by
  cases a <;> cases b <;> simp only [add, _root_.add_comm]

end PyExp

end PQ
