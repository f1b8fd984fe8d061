import Verif.Lemmas.Dim
import Mathlib.Data.Rat.Lemmas
import Mathlib.Data.Int.ModEq
import Mathlib.NumberTheory.LucasLehmer
import Mathlib.Tactic.Positivity
import Mathlib.Algebra.Order.Ring.Rat
import Mathlib.Data.Rat.Floor

/-! # CPython's numeric hash on small numbers -/

namespace PQ

theorem pyHashModulus_prime : Nat.Prime pyHashModulus := by
  have h : (mersenne 61).Prime := lucas_lehmer_sufficiency _ (by norm_num) (by norm_num)
  exact h

/-- `den * gcdA ≡ 1` when `den` is invertible. -/
theorem den_inv {n : ℕ} (h0 : 0 < n) (h : n < pyHashModulus) :
    ((n : Int) * Nat.gcdA n pyHashModulus) ≡ 1 [ZMOD (pyHashModulus : Int)] := by
  have hc : Nat.Coprime n pyHashModulus :=
    (Nat.coprime_comm.1 ((Nat.Prime.coprime_iff_not_dvd pyHashModulus_prime).2
      (fun hd => absurd (Nat.le_of_dvd h0 hd) (by omega))))
  have := Nat.gcd_eq_gcd_ab n pyHashModulus
  rw [hc] at this
  simp only [Nat.cast_one] at this
  rw [this]
  exact (Int.modEq_iff_dvd).2 ⟨Nat.gcdB n pyHashModulus, by ring⟩

/-- Absolute value part of the hash. -/
def absHash (q : ℚ) : Int :=
  ((q.num.natAbs : Int) * (Nat.gcdA q.den pyHashModulus)) % (pyHashModulus : Int)

theorem absHash_nonneg (q : ℚ) : 0 ≤ absHash q :=
  Int.emod_nonneg _ (by decide)

theorem absHash_spec {q : ℚ} (h : q.den < pyHashModulus) :
    (q.den : Int) * absHash q ≡ (q.num.natAbs : Int) [ZMOD (pyHashModulus : Int)] := by
  unfold absHash
  have h1 := den_inv q.den_pos h
  have h2 : (q.den : Int) * (((q.num.natAbs : Int) * (Nat.gcdA q.den pyHashModulus)) %
      (pyHashModulus : Int)) ≡ (q.den : Int) * ((q.num.natAbs : Int) *
      (Nat.gcdA q.den pyHashModulus)) [ZMOD (pyHashModulus : Int)] :=
    (Int.mod_modEq _ _).mul_left _
  refine h2.trans ?_
  have h3 := h1.mul_left (q.num.natAbs : Int)
  rw [mul_one] at h3
  refine Int.ModEq.trans ?_ h3
  rw [show (q.den : Int) * ((q.num.natAbs : Int) * (Nat.gcdA q.den pyHashModulus))
    = (q.num.natAbs : Int) * ((q.den : Int) * (Nat.gcdA q.den pyHashModulus)) by ring]

theorem pyHashNum_eq {q : ℚ} (h : q.den < pyHashModulus) :
    pyHashNum q = (let s := if q.num < 0 then - absHash q else absHash q
      if s = -1 then -2 else s) := by
  have hne : ¬ (q.den % pyHashModulus = 0) := by
    rw [Nat.mod_eq_of_lt h]; exact q.den_pos.ne'
  unfold pyHashNum absHash
  simp only [hne, if_false]

/-- On small rationals the absolute hash determines the absolute value. -/
theorem absHash_inj {p q : ℚ} (hp : p.num.natAbs < 2 ^ 30) (hp' : p.den < 2 ^ 30)
    (hq : q.num.natAbs < 2 ^ 30) (hq' : q.den < 2 ^ 30) (h : absHash p = absHash q) :
    p.num.natAbs * q.den = q.num.natAbs * p.den := by
  have hP : (2 : ℕ) ^ 30 < pyHashModulus := by decide
  have h1 := absHash_spec (q := p) (by omega)
  have h2 := absHash_spec (q := q) (by omega)
  rw [h] at h1
  have h3 := h1.mul_left (q.den : Int)
  have h4 := h2.mul_left (p.den : Int)
  have h5 : (q.den : Int) * (p.num.natAbs : Int) ≡ (p.den : Int) * (q.num.natAbs : Int)
      [ZMOD (pyHashModulus : Int)] := by
    refine h3.symm.trans (Int.ModEq.trans ?_ h4)
    rw [show (q.den : Int) * ((p.den : Int) * absHash q) = (p.den : Int) * ((q.den : Int) * absHash q)
      by ring]
  have h6 : q.den * p.num.natAbs ≡ p.den * q.num.natAbs [MOD pyHashModulus] := by
    rw [← Int.natCast_modEq_iff, Int.natCast_mul, Int.natCast_mul]; exact h5
  have hb : (2 : ℕ) ^ 30 * 2 ^ 30 < pyHashModulus := by decide
  have l1 : q.den * p.num.natAbs < pyHashModulus :=
    lt_of_le_of_lt (Nat.mul_le_mul hq'.le hp.le) hb
  have l2 : p.den * q.num.natAbs < pyHashModulus :=
    lt_of_le_of_lt (Nat.mul_le_mul hp'.le hq.le) hb
  have := Nat.ModEq.eq_of_lt_of_lt h6 l1 l2
  rw [mul_comm, this, mul_comm]

theorem absHash_eq_zero {q : ℚ} (hq : q.num.natAbs < 2 ^ 30) (hq' : q.den < 2 ^ 30)
    (h : absHash q = 0) : q = 0 := by
  have := absHash_inj (p := 0) (q := q) (by norm_num) (by norm_num) hq hq'
    (by rw [h]; simp [absHash])
  simp at this
  exact Rat.zero_of_num_zero (Int.natAbs_eq_zero.1 this.symm)

theorem absHash_eq_one {q : ℚ} (hq : q.num.natAbs < 2 ^ 30) (hq' : q.den < 2 ^ 30)
    (h : absHash q = 1) : q.num.natAbs = q.den := by
  have h1 : absHash 1 = 1 := by
    have h2 := absHash_spec (q := 1) (by decide)
    have h3 : (0 : Int) ≤ absHash 1 := absHash_nonneg 1
    have h4 : absHash 1 < pyHashModulus := Int.emod_lt_of_pos _ (by decide)
    simp only [Rat.den_ofNat, Nat.cast_one, one_mul, Rat.num_ofNat, Int.natAbs_one] at h2
    have := h2
    unfold Int.ModEq at this
    rw [Int.emod_eq_of_lt h3 h4] at this
    rw [this]; decide
  have := absHash_inj (p := 1) (q := q) (by norm_num) (by norm_num) hq hq' (by rw [h, h1])
  simpa using this.symm

theorem eq_of_natAbs_cross {p q : ℚ} (hs : p.num < 0 ↔ q.num < 0)
    (h : p.num.natAbs * q.den = q.num.natAbs * p.den) : p = q := by
  rw [Rat.eq_iff_mul_eq_mul]
  have h' : (p.num.natAbs : Int) * q.den = (q.num.natAbs : Int) * p.den := by exact_mod_cast h
  by_cases hp : p.num < 0
  · have hq := hs.1 hp
    rw [Int.ofNat_natAbs_of_nonpos hp.le, Int.ofNat_natAbs_of_nonpos hq.le] at h'
    linarith
  · have hq : ¬ q.num < 0 := fun h => hp (hs.2 h)
    rw [Int.natAbs_of_nonneg (by omega), Int.natAbs_of_nonneg (by omega)] at h'
    exact h'

/-- On small rationals other than `-1` the numeric hash is injective. -/
theorem pyHashNum_inj {p q : ℚ} (hp : p.num.natAbs < 2 ^ 30) (hp' : p.den < 2 ^ 30)
    (hq : q.num.natAbs < 2 ^ 30) (hq' : q.den < 2 ^ 30) (hp1 : p ≠ -1) (hq1 : q ≠ -1)
    (h : pyHashNum p = pyHashNum q) : p = q := by
  have hP : (2 : ℕ) ^ 30 < pyHashModulus := by decide
  rw [pyHashNum_eq (by omega), pyHashNum_eq (by omega)] at h
  have key : ∀ {r : ℚ}, r.num.natAbs < 2 ^ 30 → r.den < 2 ^ 30 → r ≠ -1 →
      (if r.num < 0 then - absHash r else absHash r) ≠ -1 := by
    intro r hr hr' hr1 hc
    have hnn := absHash_nonneg r
    split at hc
    · have h1 : absHash r = 1 := by omega
      have h2 := absHash_eq_one hr hr' h1
      apply hr1
      refine eq_of_natAbs_cross (by simp_all) ?_
      simp [h2]
    · omega
  simp only [key hp hp' hp1, key hq hq' hq1, if_false] at h
  have np := absHash_nonneg p
  have nq := absHash_nonneg q
  by_cases sp : p.num < 0 <;> by_cases sq : q.num < 0
  · simp only [sp, sq, if_true, neg_inj] at h
    exact eq_of_natAbs_cross (by simp [sp, sq]) (absHash_inj hp hp' hq hq' h)
  · simp only [sp, sq, if_true, if_false] at h
    have h0 : absHash p = 0 := by omega
    have := absHash_eq_zero hp hp' h0
    simp [this] at sp
  · simp only [sp, sq, if_true, if_false] at h
    have h0 : absHash q = 0 := by omega
    have := absHash_eq_zero hq hq' h0
    simp [this] at sq
  · simp only [sp, sq, if_false] at h
    exact eq_of_natAbs_cross (by simp [sp, sq]) (absHash_inj hp hp' hq hq' h)

/-- A rational with numerator and denominator below `2^29` in absolute value. -/
def SmallExp (q : ℚ) : Prop := q.num.natAbs < 2 ^ 29 ∧ q.den < 2 ^ 29

theorem sub_one_num_den (q : ℚ) : (q - 1).num = q.num - q.den ∧ (q - 1).den = q.den := by
  have h : (q - 1).den = q.den := by exact_mod_cast Rat.sub_natCast_den q 1
  refine ⟨?_, h⟩
  have h1 : ((q - 1).num : ℚ) = (q.num - q.den : ℤ) := by
    have e1 := Rat.mul_den_eq_num (q - 1)
    have e2 := Rat.mul_den_eq_num q
    rw [h] at e1
    push_cast
    rw [← e1, ← e2]; ring
  exact_mod_cast h1

theorem hashedExponent_small {q : ℚ} (h : SmallExp q) :
    (hashedExponent q).num.natAbs < 2 ^ 30 ∧ (hashedExponent q).den < 2 ^ 30 ∧
      hashedExponent q ≠ -1 := by
  obtain ⟨h1, h2⟩ := h
  unfold hashedExponent
  split
  · rename_i hn
    obtain ⟨e1, e2⟩ := sub_one_num_den q
    rw [e1, e2]
    refine ⟨by omega, by omega, ?_⟩
    intro h; linarith
  · rename_i hn
    refine ⟨by omega, by omega, ?_⟩
    rintro rfl; exact hn (by norm_num)

theorem hashedExponent_inj {p q : ℚ} (h : hashedExponent p = hashedExponent q) : p = q := by
  unfold hashedExponent at h
  split at h <;> split at h <;> linarith

theorem exponentHash_inj {p q : ℚ} (hp : SmallExp p) (hq : SmallExp q)
    (h : pyHashNum (hashedExponent p) = pyHashNum (hashedExponent q)) : p = q := by
  obtain ⟨a1, a2, a3⟩ := hashedExponent_small hp
  obtain ⟨b1, b2, b3⟩ := hashedExponent_small hq
  exact hashedExponent_inj (pyHashNum_inj a1 a2 b1 b2 a3 b3 h)

end PQ

namespace PQ

/-- The numeric hash of a non-negative integer is its residue. -/
theorem pyHashNum_nat (n : ℕ) : pyHashNum (n : ℚ) = ((n % pyHashModulus : ℕ) : Int) := by
  have hd : (n : ℚ).den = 1 := Rat.den_natCast n
  have hn : (n : ℚ).num = n := Rat.num_natCast n
  have h1 : ((n : ℚ)).den < pyHashModulus := by rw [hd]; decide
  have h2 := absHash_spec h1
  rw [hd, hn] at h2
  simp only [Nat.cast_one, one_mul, Int.natAbs_natCast] at h2
  have h3 : absHash (n : ℚ) = ((n % pyHashModulus : ℕ) : Int) := by
    have a1 := absHash_nonneg (n : ℚ)
    have a2 : absHash (n : ℚ) < pyHashModulus := Int.emod_lt_of_pos _ (by decide)
    unfold Int.ModEq at h2
    rw [Int.emod_eq_of_lt a1 a2] at h2
    rw [h2]; exact (Int.natCast_mod n pyHashModulus).symm
  rw [pyHashNum_eq h1]
  have h4 : ¬ ((n : ℚ).num < 0) := by rw [hn]; omega
  simp only [h4, if_false, h3]
  rw [if_neg (by omega)]

end PQ
