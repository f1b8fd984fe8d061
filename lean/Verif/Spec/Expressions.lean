import Verif.Model.Dispatch
import Verif.Spec.Physical
import Verif.Spec.Arrays

/-!
# Expressions and what they denote

Arithmetic expressions over units, quantities and plain numbers or arrays, their evaluation by Python
and by physics.
-/

namespace PQ

variable {K : Type _}

/-- The operand is not an uncertain quantity. -/
def PyVal.Exact : PyVal K → Prop
  | .uncertain _ => False
  | _ => True

/-- A unit replaced by the quantity of magnitude one in that unit. -/
def PyVal.oneOf [One K] : PyVal K → PyVal K
  | .unit u => .quantity ⟨NDArr.scalar 1, unitDim u⟩
  | x => x

/-- Units of an operand; none for a plain one. -/
def PyVal.dim : PyVal K → Dim
  | .unit u => unitDim u
  | .quantity q => q.dim
  | .uncertain a => a.val.dim
  | .array _ => []

/-- Magnitude of an operand. -/
def PyVal.mag [One K] : PyVal K → NDArr K
  | .unit _ => NDArr.scalar 1
  | .quantity q => q.mag
  | .uncertain a => a.val.mag
  | .array a => a

/-- Physical value of an operand: its magnitude times the size of its units. -/
def PyVal.phys [Field K] [LinearOrder K] [RPow K] {w : World K} (v : Valuation w) (x : PyVal K) : NDArr K :=
  x.mag.map (fun y => y * v.size x.dim)

/-- An expression. -/
inductive Expr (K : Type _)
  | val (x : PyVal K)
  | bin (op : BinOp) (a b : Expr K)
  | pow (a : Expr K) (p : ℚ)

/-- Python's evaluation. -/
def Expr.eval [Zero K] [One K] [Add K] [Sub K] [Mul K] [Div K] [RPow K] [PyFloor K] [DecidableEq K]
    [RatCast K] (w : World K) : Expr K → Py (PyVal K)
  | .val x => .ok x
  | .bin op a b => do
    let x ← a.eval w
    let y ← b.eval w
    binop w op x y
  | .pow a p => do
    let x ← a.eval w
    powNum w p x

/-- The same expression of the physical values, as arrays of numbers. -/
def Expr.physical [Field K] [LinearOrder K] [RPow K] [PyFloor K] {w : World K} (v : Valuation w) :
    Expr K → Py (NDArr K)
  | .val x => .ok (x.phys v)
  | .bin op a b => do
    let x ← a.physical v
    let y ← b.physical v
    NDArr.bin (match op with
      | .add => (· + ·)
      | .sub => (· - ·)
      | .mul => (· * ·)
      | .truediv => (· / ·)
      | .mod => fun x y => x - y * pfloor (x / y)
      | .floordiv => fun x y => pfloor (x / y)) x y
  | .pow a p => do
    let x ← a.physical v
    return x.map (fun y => rpow y p)

/-- Every unit in the expression replaced by the quantity of magnitude one. -/
def Expr.oneOf [One K] : Expr K → Expr K
  | .val x => .val x.oneOf
  | .bin op a b => .bin op a.oneOf b.oneOf
  | .pow a p => .pow a.oneOf p

/-- No uncertain quantities in the expression. -/
def Expr.Exact : Expr K → Prop
  | .val x => x.Exact
  | .bin _ a b => a.Exact ∧ b.Exact
  | .pow a _ => a.Exact

/-- The exponents for which a power of the elements is taken literally: any for positive elements,
natural ones always, integers for non-zero elements. -/
def LiteralPower [Zero K] [LT K] (a : NDArr K) (p : ℚ) : Prop :=
  NDArr.All (fun x => 0 < x) a ∨ (∃ n : ℕ, p = n) ∨ (NDArr.All (fun x => x ≠ 0) a ∧ ∃ n : ℤ, p = n)

/-- The conditions under which an expression is evaluated physically: existing units; no floor
division; powers taken literally; the units compared by a sum, difference or remainder are not told
equal by a hash collision. -/
def Expr.Good [Field K] [LinearOrder K] [RPow K] [PyFloor K] (w : World K) : Expr K → Prop
  | .val x => DimOK w x.dim
  | .bin op a b => a.Good w ∧ b.Good w ∧ op ≠ .floordiv ∧
      (op = .add ∨ op = .sub ∨ op = .mod → ∀ x y, a.eval w = .ok x → b.eval w = .ok y →
        HashSafe w x.dim y.dim)
  | .pow a p => a.Good w ∧ ∀ x, a.eval w = .ok x → LiteralPower x.mag p

end PQ
