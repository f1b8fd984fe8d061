import Verif.Model.Extended
import Verif.Spec.Physical

/-!
# Physical values of quantities with infinities and nan

A unit has a positive finite size; an infinite element is infinitely large in every unit, and nan is no number in any.
-/

namespace PQ

variable {K : Type _} [Field K] [LinearOrder K]

/-- The element `x` measured in a unit of size `s`. -/
def XFloat.inUnit (s : K) : XFloat K → XFloat K
  | .fin x => .fin (x * s)
  | .inf n => .inf n
  | .nan => .nan

variable [IsStrictOrderedRing K] [RPow K] [LawfulRPow K] {w : World K}

/-- Physical value of a quantity whose elements may be infinite or nan. -/
def Valuation.extPhys (v : Valuation w) (q : Quantity (XFloat K)) : NDArr (XFloat K) :=
  q.mag.map (XFloat.inUnit (v.size q.dim))

/-- Physical value of an operand; a plain array is a pure number. -/
def Valuation.extPhysOp (v : Valuation w) : Operand (XFloat K) → NDArr (XFloat K)
  | .quantity q => v.extPhys q
  | .array a => a

/-- Same kind of element: both finite, both infinite with the same sign, or both nan. -/
def XFloat.SameKind : XFloat K → XFloat K → Prop
  | .fin _, .fin _ => True
  | .inf n, .inf m => n = m
  | .nan, .nan => True
  | _, _ => False

end PQ
