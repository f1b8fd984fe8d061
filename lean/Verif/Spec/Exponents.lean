import Verif.Model.Dimensionality

/-!
# Specification of dimensionalities

A dimensionality *means* a function from units to rational exponents, zero for a unit that is not
mentioned.
-/

namespace PQ

/-- The exponent of unit `u` in `d`; 0 when `u` does not occur. -/
def expo (d : Dim) (u : UKey) : ℚ := (Dict.get? d u).getD 0

/-- Same units with the same exponents, in any insertion order. -/
def SameContent (a b : Dim) : Prop := ∀ u, Dict.get? a u = Dict.get? b u

/-- A canonical dimensionality: no unit twice (every Python dict) and no exponent 0. -/
structure Canon (d : Dim) : Prop where
  nodup : Dict.Nodup d
  nonzero : ∀ kv ∈ d, kv.2 ≠ 0

/-- Expressions a user can build from units: a unit, a plain number (no units), products,
quotients and powers. -/
inductive UExpr
  | unit (u : UKey)
  | number
  | mul (a b : UExpr)
  | div (a b : UExpr)
  | pow (a : UExpr) (p : ℚ)

/-- The exponent of `u` in the meaning of an expression. -/
def UExpr.exponent : UExpr → UKey → ℚ
  | unit v, u => if v = u then 1 else 0
  | number, _ => 0
  | mul a b, u => a.exponent u + b.exponent u
  | div a b, u => a.exponent u - b.exponent u
  | pow a p, u => a.exponent u * p

end PQ
