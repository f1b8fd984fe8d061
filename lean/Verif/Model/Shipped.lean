import Verif.Model.World
import Mathlib.Algebra.Field.Basic

/-!
# Shape of the shipped table

The modules `quantities/units/*.py` and `quantities/constants/*.py` consist of constructor calls
`UnitX(name, definition, symbol=..., u_symbol=..., aliases=[...])` whose definitions are products,
quotients and powers of numbers and earlier units.  `Model/ShippedTable.lean` is generated from them.
Decimal literals are taken at their exact decimal value.
-/

namespace PQ.Shipped

open World

/-- Definition expressions. -/
inductive Expr
  /-- a literal with the exact value `p / q` -/
  | num (p : Int) (q : Nat)
  /-- `math.pi` -/
  | pi
  /-- the unit of row `i` -/
  | unit (i : Nat)
  | mul (a b : Expr)
  | div (a b : Expr)
  /-- `a ** (n / d)` -/
  | pow (a : Expr) (n : Int) (d : Nat)
  /-- sum of numbers (only in `golden_ratio`, `constants/mathematical.py` 13) -/
  | add (a b : Expr)
  /-- `Quantity(p / q, units)`; `_cd(...)` of `constants/_utils.py` 6-13 looks value and unit string up in
  `constants/_codata.py`; the string is a product of powers of registered units -/
  | quantity (p : Int) (q : Nat) (units : Expr)

/-- One constructor call. -/
structure Row where
  cls : UClass
  name : String
  definition : Option Expr
  symbol : Option String
  uSymbol : Option String
  aliases : List String

/-- The unit a row creates. -/
def Row.key (r : Row) : UKey := ⟨r.cls, r.name⟩

variable {K : Type _}

/-- Key of row `i` of a table. -/
def keyAt (t : List Row) (i : Nat) : UKey := ((t.map Row.key)[i]?).getD ⟨.unitQuantity, ""⟩

/-- Run constructor calls one after the other; stop at the first exception. -/
def runAll [One K] [Mul K] [Div K] [RPow K] [DecidableEq K] : World K → List (NewUnit K) → Option PyErr × World K
  | w, [] => (none, w)
  | w, a :: as =>
    match w.newUnit a with
    | (some e, w') => (some e, w')
    | (none, w') => runAll w' as

/-- Value of a definition computed with arithmetic that may be inexact: the literal `p / q` is read as
`lit p q`, `math.pi` is `π`, and products, quotients, powers and sums are those of `K`. -/
def Expr.evalWith [One K] [Mul K] [Div K] [Add K] [RPow K] (lit : Int → Nat → K) (key : Nat → UKey) (π : K) : Expr → SQ K
  | .num p q => ⟨lit p q, []⟩
  | .pi => ⟨π, []⟩
  | .unit i => ⟨1, unitDim (key i)⟩
  | .mul a b => ⟨(a.evalWith lit key π).mag * (b.evalWith lit key π).mag,
      Dim.mul (a.evalWith lit key π).dim (b.evalWith lit key π).dim⟩
  | .div a b => ⟨(a.evalWith lit key π).mag / (b.evalWith lit key π).mag,
      Dim.div (a.evalWith lit key π).dim (b.evalWith lit key π).dim⟩
  | .pow a n d => ⟨rpow (a.evalWith lit key π).mag ((n : ℚ) / d), Dim.pow (a.evalWith lit key π).dim ((n : ℚ) / d)⟩
  | .add a b => ⟨(a.evalWith lit key π).mag + (b.evalWith lit key π).mag, (a.evalWith lit key π).dim⟩
  | .quantity p q u => ⟨lit p q, (u.evalWith lit key π).dim⟩

/-- The constructor call of a row, its definition computed with such arithmetic. -/
def Row.toNewWith [One K] [Mul K] [Div K] [Add K] [RPow K] (lit : Int → Nat → K) (t : List Row) (π : K) (r : Row) : NewUnit K :=
  { cls := r.cls, name := r.name,
    definition := match r.definition with
      | none => .none
      | some e => .quantity (e.evalWith lit (keyAt t) π)
    symbol := r.symbol, uSymbol := r.uSymbol, aliases := r.aliases }

/-- Importing the library with such arithmetic. -/
def loadWith [One K] [Mul K] [Div K] [Add K] [RPow K] [DecidableEq K] (lit : Int → Nat → K) (t : List Row) (π : K)
    (w : World K) : Option PyErr × World K :=
  runAll w (t.map (Row.toNewWith lit t π))

variable [Field K] [RPow K]

/-- Value of a definition: products, quotients and powers as in `quantity.py` (`__mul__`, `__truediv__`,
`__pow__`), a unit counting as one of it. -/
def Expr.eval (key : Nat → UKey) (π : K) : Expr → SQ K
  | .num p q => ⟨(p : K) / (q : K), []⟩
  | .pi => ⟨π, []⟩
  | .unit i => ⟨1, unitDim (key i)⟩
  | .mul a b => ⟨(a.eval key π).mag * (b.eval key π).mag, Dim.mul (a.eval key π).dim (b.eval key π).dim⟩
  | .div a b => ⟨(a.eval key π).mag / (b.eval key π).mag, Dim.div (a.eval key π).dim (b.eval key π).dim⟩
  | .pow a n d => ⟨rpow (a.eval key π).mag ((n : ℚ) / d), Dim.pow (a.eval key π).dim ((n : ℚ) / d)⟩
  | .add a b => ⟨(a.eval key π).mag + (b.eval key π).mag, (a.eval key π).dim⟩
  | .quantity p q u => ⟨(p : K) / (q : K), (u.eval key π).dim⟩

/-- The constructor call of a row. -/
def Row.toNew (t : List Row) (π : K) (r : Row) : NewUnit K :=
  { cls := r.cls, name := r.name,
    definition := match r.definition with
      | none => .none
      | some e => .quantity (e.eval (keyAt t) π)
    symbol := r.symbol, uSymbol := r.uSymbol, aliases := r.aliases }

/-- Importing the library: the constructor calls of the table, from the empty state. -/
def load [DecidableEq K] (t : List Row) (π : K) (w : World K) : Option PyErr × World K :=
  runAll w (t.map (Row.toNew t π))

end PQ.Shipped
