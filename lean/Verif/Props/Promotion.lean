import Verif.Spec.DTypes

/-!
# C54: which dtype meets two dtypes
-/

namespace PQ

/-- Bits of the significand of a float type, the hidden one included (IEEE 754 binary16, binary32, binary64). -/
def FBits.precision : FBits → Nat
  | .f16 => 11
  | .f32 => 24
  | .f64 => 53

/-- The integers that a type holds without gaps. -/
def DType.Holds : DType → ℤ → Prop
  | .bool, n => n = 0 ∨ n = 1
  | .float b, n => |n| ≤ 2 ^ b.precision
  | t, n => ∀ lo hi, t.range = some (lo, hi) → lo ≤ n ∧ n ≤ hi

/-- The first is a 64-bit integer type that no type of numpy holds together with the second. -/
def DType.TooWide (a b : DType) : Prop :=
  ((a = .int .b64 ∨ a = .uint .b64) ∧ ∃ c, b = .float c) ∨ (a = .uint .b64 ∧ ∃ c, b = .int c)

private def lo : DType → ℤ
  | .bool => 0
  | .int b => -(2 ^ (b.bits - 1))
  | .uint _ => 0
  | .float b => -(2 ^ b.precision)

private def hi : DType → ℤ
  | .bool => 1
  | .int b => 2 ^ (b.bits - 1) - 1
  | .uint b => 2 ^ b.bits - 1
  | .float b => 2 ^ b.precision

private theorem holds_iff (t : DType) (n : ℤ) : t.Holds n ↔ lo t ≤ n ∧ n ≤ hi t := by
  rcases t with _ | b | b | b
  · simp only [DType.Holds, lo, hi]; omega
  · simp only [DType.Holds, lo, hi, DType.range]
    exact ⟨fun h => h _ _ rfl, fun h l u e => by cases e; exact h⟩
  · simp only [DType.Holds, lo, hi, DType.range]
    exact ⟨fun h => h _ _ rfl, fun h l u e => by cases e; exact h⟩
  · simp only [DType.Holds, lo, hi, abs_le]

private theorem within (a b : DType) : (∀ n, a.Holds n → b.Holds n) ↔ lo b ≤ lo a ∧ hi a ≤ hi b := by
  have hne : lo a ≤ hi a := by
    rcases a with _ | b | b | b
    · decide
    all_goals (cases b <;> decide)
  constructor
  · intro h
    have h1 := h (lo a) ((holds_iff _ _).2 ⟨le_refl _, hne⟩)
    have h2 := h (hi a) ((holds_iff _ _).2 ⟨hne, le_refl _⟩)
    rw [holds_iff] at h1 h2
    exact ⟨h1.1, h2.2⟩
  · intro h n hn
    rw [holds_iff] at hn ⊢
    exact ⟨h.1.trans hn.1, hn.2.trans h.2⟩

private def all : List DType := [.bool, .int .b8, .int .b16, .int .b32, .int .b64, .uint .b8, .uint .b16, .uint .b32, .uint .b64,
  .float .f16, .float .f32, .float .f64]

private theorem mem_all (t : DType) : t ∈ all := by
  rcases t with _ | b | b | b
  · decide
  all_goals (cases b <;> decide)

private instance (a b : DType) : Decidable (DType.TooWide a b) := by
  have h1 : Decidable (∃ c, b = DType.int c) := by
    rcases b with _ | b | b | b
    · exact isFalse (by simp)
    · exact isTrue ⟨_, rfl⟩
    · exact isFalse (by simp)
    · exact isFalse (by simp)
  have h2 : Decidable (∃ c, b = DType.float c) := by
    rcases b with _ | b | b | b
    · exact isFalse (by simp)
    · exact isFalse (by simp)
    · exact isFalse (by simp)
    · exact isTrue ⟨_, rfl⟩
  unfold DType.TooWide
  infer_instance

/-- C54: the dtype in which two operands meet does not depend on their order, is a float type exactly when one of
them is or when no integer type holds both, holds every integer that they hold (unless a 64-bit integer type is
involved that no type holds together with the other, when it is `float64`), and no smaller type of the same kind does. -/
theorem C54_promotion (a b : DType) :
    a.promote b = b.promote a ∧
    (¬ DType.TooWide a b → ¬ DType.TooWide b a →
      (∀ n, a.Holds n → (a.promote b).Holds n) ∧ (∀ n, b.Holds n → (a.promote b).Holds n) ∧
      (a.promote b).isFloat = (a.isFloat || b.isFloat) ∧
      ∀ t : DType, t.isFloat = (a.isFloat || b.isFloat) → (∀ n, a.Holds n → t.Holds n) → (∀ n, b.Holds n → t.Holds n) →
        ∀ n, (a.promote b).Holds n → t.Holds n) ∧
    (DType.TooWide a b ∨ DType.TooWide b a → a.promote b = .float .f64 ∧
      ∀ t : DType, ¬ ((∀ n, a.Holds n → t.Holds n) ∧ (∀ n, b.Holds n → t.Holds n) ∧ ((a.isFloat || b.isFloat) = true → t.isFloat = true))) := by
  simp only [within]
  have key : ∀ a ∈ all, ∀ b ∈ all, a.promote b = b.promote a ∧
    (¬ DType.TooWide a b → ¬ DType.TooWide b a →
      (lo (a.promote b) ≤ lo a ∧ hi a ≤ hi (a.promote b)) ∧ (lo (a.promote b) ≤ lo b ∧ hi b ≤ hi (a.promote b)) ∧
      (a.promote b).isFloat = (a.isFloat || b.isFloat) ∧
      ∀ t ∈ all, t.isFloat = (a.isFloat || b.isFloat) → (lo t ≤ lo a ∧ hi a ≤ hi t) → (lo t ≤ lo b ∧ hi b ≤ hi t) →
        lo t ≤ lo (a.promote b) ∧ hi (a.promote b) ≤ hi t) ∧
    (DType.TooWide a b ∨ DType.TooWide b a → a.promote b = .float .f64 ∧
      ∀ t ∈ all, ¬ ((lo t ≤ lo a ∧ hi a ≤ hi t) ∧ (lo t ≤ lo b ∧ hi b ≤ hi t) ∧ ((a.isFloat || b.isFloat) = true → t.isFloat = true))) := by
    set_option synthInstance.maxSize 4000 in
    set_option synthInstance.maxHeartbeats 400000 in
    decide +kernel
  obtain ⟨h1, h2, h3⟩ := key a (mem_all a) b (mem_all b)
  refine ⟨h1, fun ha hb => ?_, fun h => ?_⟩
  · obtain ⟨k1, k2, k3, k4⟩ := h2 ha hb
    exact ⟨k1, k2, k3, fun t => k4 t (mem_all t)⟩
  · obtain ⟨k1, k2⟩ := h3 h
    exact ⟨k1, fun t => k2 t (mem_all t)⟩

/-- `int32` and `float32` meet in `float64`; `int16` and `uint16` in `int32`; `int64` and `float32` lose. -/
example : ¬ DType.TooWide (.int .b32) (.float .f32) ∧ ¬ DType.TooWide (.float .f32) (.int .b32) ∧
    (DType.int .b32).promote (.float .f32) = .float .f64 ∧ (DType.int .b16).promote (.uint .b16) = .int .b32 ∧
    DType.TooWide (.int .b64) (.float .f32) := by decide

end PQ
