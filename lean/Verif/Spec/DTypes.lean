import Verif.Model.DType
import Verif.Spec.Physical

/-!
# What is assumed of numpy's dtypes
-/

namespace PQ

/-- The numbers an integer type can hold. -/
def DType.range : DType → Option (ℤ × ℤ)
  | .int b => some (-(2 ^ (b.bits - 1)), 2 ^ (b.bits - 1) - 1)
  | .uint b => some (0, 2 ^ b.bits - 1)
  | _ => none

/-- Number of bits of a float type. -/
def FBits.width : FBits → Nat
  | .f16 => 16
  | .f32 => 32
  | .f64 => 64

/-- A number without its fractional part (towards zero). -/
def truncZ {K : Type _} [Ring K] [LinearOrder K] [FloorRing K] (x : K) : ℤ := if 0 ≤ x then ⌊x⌋ else ⌈x⌉

namespace Numpy
variable {K : Type _}

/-- numpy's rules for casts to integers and booleans, and that numpy 1 never turns a float array into an
array of integers or of less precision because of a 0-d operand. -/
structure Lawful [Ring K] [LinearOrder K] [FloorRing K] (N : Numpy K) : Prop where
  int : ∀ t lo hi, t.range = some (lo, hi) → ∀ x : K, lo ≤ truncZ x → truncZ x ≤ hi →
    N.cast t x = (truncZ x : ℤ)
  bool : ∀ x : K, N.cast .bool x = if x = 0 then 0 else 1
  weak : ∀ a b x, ∃ c, N.weak (.float a) (.float b) x = .float c ∧ a.width ≤ c.width ∧
    c.width ≤ max a.width b.width
  weak_lower : ∀ a t x, t.isFloat = false → N.weak (.float a) t x = .float a

/-- Floats without rounding. -/
def FloatExact (N : Numpy K) : Prop := ∀ b x, N.cast (.float b) x = x

/-- Rounding to a float of width `b` has a relative error of at most `eps b` (no overflow, no
underflow). -/
def FloatErr [Ring K] [LinearOrder K] (N : Numpy K) (eps : FBits → K) : Prop :=
  ∀ b, 0 ≤ eps b ∧ ∀ x, |N.cast (.float b) x - x| ≤ eps b * |x|

end Numpy
end PQ
