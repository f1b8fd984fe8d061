import Verif.Model.FloatExponents
import Verif.Spec.Exponents

/-!
# Specification of float exponents
-/

namespace PQ

/-- `x` is a number with at most 53 binary digits, the last of them not below `2^-1074`: an IEEE double,
except that there is no upper bound. -/
def IsDouble (x : ℚ) : Prop := ∃ n k : ℤ, |n| ≤ 2 ^ 53 ∧ -1074 ≤ k ∧ x = n * 2 ^ k

/-- `y` is a double nearest to `x`; if there is another, the last place of `y` is even: `y` is an even
multiple of the distance between the two (IEEE 754 roundTiesToEven). -/
def Nearest (x y : ℚ) : Prop :=
  IsDouble y ∧ (∀ z, IsDouble z → |y - x| ≤ |z - x|) ∧
    ∀ z, IsDouble z → z ≠ y → |z - x| = |y - x| → ∃ m : ℤ, y = 2 * m * (z - y)

/-- An exponent: a double, or an integer that is exact as a double. -/
def PyExp.Ordinary (v : PyExp) : Prop := IsDouble v.val

/-- The exponent of `u` in `d`, 0 when `u` does not occur. -/
def NDim.expo (d : NDim) (u : UKey) : ℚ := ((Dict.get? d u).map PyExp.val).getD 0

/-- Expressions a user can build from units with Python numbers as powers. -/
inductive NExpr
  | unit (u : UKey)
  | number
  | mul (a b : NExpr)
  | div (a b : NExpr)
  | pow (a : NExpr) (p : PyExp)

/-- What the code computes for an expression. -/
def NExpr.eval : NExpr → NDim
  | unit u => [(u, .int 1)]
  | number => []
  | mul a b => NDim.mul a.eval b.eval
  | div a b => NDim.div a.eval b.eval
  | pow a p => NDim.pow a.eval p

/-- The exponent of `u` in the meaning of an expression, exactly. -/
def NExpr.exponent : NExpr → UKey → ℚ
  | unit v, u => if v = u then 1 else 0
  | number, _ => 0
  | mul a b, u => a.exponent u + b.exponent u
  | div a b, u => a.exponent u - b.exponent u
  | pow a p, u => a.exponent u * p.val

/-- All powers in an expression are integers. -/
def NExpr.Integral : NExpr → Prop
  | unit _ => True
  | number => True
  | mul a b => a.Integral ∧ b.Integral
  | div a b => a.Integral ∧ b.Integral
  | pow a p => a.Integral ∧ ∃ n, p = .int n

/-- Every exponent that occurs on the way, computed exactly, is a double. -/
def NExpr.NoRounding : NExpr → Prop
  | unit _ => True
  | number => True
  | mul a b => a.NoRounding ∧ b.NoRounding ∧ ∀ u, IsDouble ((mul a b).exponent u)
  | div a b => a.NoRounding ∧ b.NoRounding ∧ ∀ u, IsDouble ((div a b).exponent u)
  | pow a p => a.NoRounding ∧ IsDouble p.val ∧ ∀ u, IsDouble ((pow a p).exponent u)

end PQ
