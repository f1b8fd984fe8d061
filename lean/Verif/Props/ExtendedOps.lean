import Verif.Spec.Extended
import Mathlib.Order.WithBot
import Mathlib.Data.Sign.Defs
import Mathlib.Tactic.NormNum
import Mathlib.Tactic.Linarith
import Mathlib.Algebra.Order.Field.Basic

/-!
# C139: what the operations on infinities and nan are

The theorems of `Props/Extended.lean` speak of the sum, product, quotient and order of floats; here these are pinned
down by the rules of IEEE 754.
-/

namespace PQ

variable {K : Type _} [Field K] [LinearOrder K]

/-- The sign of a float that is a number. -/
def XFloat.sign : XFloat K → SignType
  | .fin x => if x = 0 then 0 else if x < 0 then -1 else 1
  | .inf true => -1
  | .inf false => 1
  | .nan => 0

/-- The float is an infinity. -/
def XFloat.Infinite (x : XFloat K) : Prop := x = .inf true ∨ x = .inf false

/-- The place of a float on the line of numbers with a point at each end; nan has none. -/
def XFloat.place : XFloat K → Option (WithBot (WithTop K))
  | .fin x => some ((x : WithTop K) : WithBot (WithTop K))
  | .inf true => some ⊥
  | .inf false => some ((⊤ : WithTop K) : WithBot (WithTop K))
  | .nan => none

open XFloat

omit [LinearOrder K] in
/-- C139: sums and differences of floats. -/
theorem C139_sums (x y : XFloat K) :
    (∀ a b : K, (fin a + fin b : XFloat K) = fin (a + b)) ∧
    (x + y = nan ↔ x = nan ∨ y = nan ∨ ∃ n, x = inf n ∧ y = inf (!n)) ∧
    (∀ n, x + y = inf n ↔ x ≠ nan ∧ y ≠ nan ∧ (x = inf n ∨ y = inf n) ∧ x ≠ inf (!n) ∧ y ≠ inf (!n)) ∧
    (∀ a, -(fin a : XFloat K) = fin (-a)) ∧ (∀ n, -(inf n : XFloat K) = inf (!n)) ∧ -(nan : XFloat K) = nan ∧
    x - y = x + -y := by
  refine ⟨fun _ _ => rfl, ?_, ?_, fun _ => rfl, fun _ => rfl, rfl, ?_⟩
  · show XFloat.add x y = nan ↔ _
    rcases x with a | n | _ <;> rcases y with b | m | _ <;> simp [XFloat.add]
    cases n <;> cases m <;> simp
  · intro k
    show XFloat.add x y = inf k ↔ _
    rcases x with a | n | _ <;> rcases y with b | m | _ <;> simp [XFloat.add]
    cases n <;> cases m <;> cases k <;> simp
  · show XFloat.sub x y = XFloat.add x (XFloat.neg y)
    rcases x with a | n | _ <;> rcases y with b | m | _ <;> simp [XFloat.add, XFloat.sub, XFloat.neg, sub_eq_add_neg]
    cases n <;> cases m <;> simp

variable [IsStrictOrderedRing K]

/-- C139: products of floats. -/
theorem C139_products (x y : XFloat K) :
    (∀ a b : K, (fin a * fin b : XFloat K) = fin (a * b)) ∧
    (x * y = nan ↔ x = nan ∨ y = nan ∨ (x = 0 ∧ y.Infinite) ∨ (x.Infinite ∧ y = 0)) ∧
    (x * y ≠ nan → ((x * y).Infinite ↔ x.Infinite ∨ y.Infinite) ∧ (x * y).sign = x.sign * y.sign) := by
  have z : (0 : XFloat K) = fin 0 := rfl
  refine ⟨fun _ _ => rfl, ?_, ?_⟩
  · show XFloat.mul x y = nan ↔ _
    rw [z]
    rcases x with a | n | _ <;> rcases y with b | m | _ <;> simp [XFloat.mul, XFloat.Infinite]
  · show XFloat.mul x y ≠ nan → ((XFloat.mul x y).Infinite ↔ _) ∧ (XFloat.mul x y).sign = _
    rcases x with a | n | _ <;> rcases y with b | m | _ <;> simp only [XFloat.mul, XFloat.Infinite]
    · intro _
      refine ⟨by simp, ?_⟩
      simp only [XFloat.sign]
      rcases lt_trichotomy a 0 with ha | rfl | ha <;> rcases lt_trichotomy b 0 with hb | rfl | hb
      · have := mul_pos_of_neg_of_neg ha hb; simp [ha.ne, hb.ne, ha, hb, not_lt.2 this.le]
      · simp
      · have := mul_neg_of_neg_of_pos ha hb; simp [ha.ne, hb.ne', ha, not_lt.2 hb.le, this]
      · simp
      · simp
      · simp
      · have := mul_neg_of_pos_of_neg ha hb; simp [ha.ne', hb.ne, hb, not_lt.2 ha.le, this]
      · simp
      · have := mul_pos ha hb; simp [ha.ne', hb.ne', not_lt.2 ha.le, not_lt.2 hb.le, not_lt.2 this.le]
    · by_cases h0 : a = 0
      · simp [h0]
      · by_cases h1 : a < 0 <;> cases m <;> simp [h0, h1, XFloat.sign]
    · simp
    · by_cases h0 : b = 0
      · simp [h0]
      · by_cases h1 : b < 0 <;> cases n <;> simp [h0, h1, XFloat.sign]
    · cases n <;> cases m <;> simp [XFloat.sign]
    all_goals simp

/-- C139: quotients of floats (the zero being positive: `1 / 0` is `inf`). -/
theorem C139_quotients (x y : XFloat K) :
    (∀ a b : K, b ≠ 0 → (fin a / fin b : XFloat K) = fin (a / b)) ∧
    (x / y = nan ↔ x = nan ∨ y = nan ∨ (x = 0 ∧ y = 0) ∨ (x.Infinite ∧ y.Infinite)) ∧
    (x / y ≠ nan → ((x / y).Infinite ↔ x.Infinite ∨ y = 0) ∧ (y.Infinite → x / y = 0) ∧
      (¬ y.Infinite → (x / y).sign = x.sign * (if y = 0 then 1 else y.sign))) := by
  have z : (0 : XFloat K) = fin 0 := rfl
  refine ⟨fun a b hb => ?_, ?_, ?_⟩
  · show XFloat.div _ _ = _
    simp [XFloat.div, hb]
  · show XFloat.div x y = nan ↔ _
    rw [z]
    rcases x with a | n | _ <;> rcases y with b | m | _ <;> simp [XFloat.div, XFloat.Infinite]
    by_cases hb : b = 0 <;> by_cases ha : a = 0 <;> simp [ha, hb]
  · show XFloat.div x y ≠ nan → ((XFloat.div x y).Infinite ↔ _) ∧ (_ → XFloat.div x y = 0) ∧ (_ → (XFloat.div x y).sign = _)
    rw [z]
    rcases x with a | n | _ <;> rcases y with b | m | _ <;> simp only [XFloat.div, XFloat.Infinite]
    · by_cases hb : b = 0
      · by_cases ha : a = 0
        · simp [ha, hb]
        · by_cases h1 : a < 0 <;> simp [ha, hb, h1, XFloat.sign]
      · simp only [hb, if_false]
        intro _
        refine ⟨by simp [hb], by simp, fun _ => ?_⟩
        simp only [XFloat.sign, fin.injEq, hb, if_false]
        rcases lt_trichotomy a 0 with ha | rfl | ha <;> rcases lt_or_gt_of_ne hb with hb' | hb'
        · have := div_pos_of_neg_of_neg ha hb'; simp [ha.ne, hb, ha, hb', not_lt.2 this.le]
        · have := div_neg_of_neg_of_pos ha hb'; simp [ha.ne, hb, ha, not_lt.2 hb'.le, this]
        · simp
        · simp
        · have := div_neg_of_pos_of_neg ha hb'; simp [ha.ne', hb, hb', not_lt.2 ha.le, this]
        · have := div_pos ha hb'; simp [ha.ne', hb, not_lt.2 ha.le, not_lt.2 hb'.le, not_lt.2 this.le]
    · simp
    · simp
    · by_cases hb : b = 0
      · cases n <;> simp [hb, XFloat.sign]
      · by_cases h1 : b < 0 <;> cases n <;> simp [hb, h1, XFloat.sign]
    all_goals simp

omit [IsStrictOrderedRing K] in
/-- C139: comparisons of floats are those of their places on the line; nan compares false, and is not equal to itself. -/
theorem C139_comparisons (x y : XFloat K) :
    (x < y ↔ ∃ p q, x.place = some p ∧ y.place = some q ∧ p < q) ∧
    (x ≤ y ↔ ∃ p q, x.place = some p ∧ y.place = some q ∧ p ≤ q) ∧
    (XFloat.beq x y = true ↔ x = y ∧ x ≠ nan) := by
  refine ⟨?_, ?_, ?_⟩
  · show XFloat.blt x y = true ↔ _
    rcases x with a | n | _ <;> rcases y with b | m | _ <;> try cases n
    all_goals try cases m
    all_goals simp [XFloat.blt, XFloat.place]
    exact WithBot.coe_lt_coe.2 (WithTop.coe_lt_top a)
  · show XFloat.ble x y = true ↔ _
    rcases x with a | n | _ <;> rcases y with b | m | _ <;> try cases n
    all_goals try cases m
    all_goals simp [XFloat.ble, XFloat.place]
  · rcases x with a | n | _ <;> rcases y with b | m | _ <;> simp [XFloat.beq]

/-- Zero and infinities occur, and so do both signs. -/
example : (inf true : XFloat ℚ) * 0 = nan ∧ (inf true : XFloat ℚ) * fin (-2) = inf false ∧ (1 : XFloat ℚ) / 0 = inf false ∧
    (fin 3 : XFloat ℚ) < inf false ∧ ¬ (nan : XFloat ℚ) ≤ nan := by decide

end PQ
