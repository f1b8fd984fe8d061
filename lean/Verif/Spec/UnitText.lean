import Verif.Spec.Strings
import Verif.Spec.Physical

/-!
# What a unit string says

Expressions made of unit names, decimal numbers, `*`, `/`, `**`, unary minus and parentheses; the ways
of writing them down; and what they mean.  Nothing here mentions how the library reads a string.
-/

namespace PQ

variable {K : Type _}

/-- An expression. -/
inductive UX
  | name (s : List Char)
  | num (q : ℚ)
  | neg (a : UX)
  | mul (a b : UX)
  | div (a b : UX)
  | pow (a b : UX)

/-! ## Writing expressions down -/

/-- Spaces and tabs. -/
def Blank (s : List Char) : Prop := ∀ c ∈ s, c = ' ' ∨ c = '\t'

/-- `s` is a decimal numeral of `q`: digits without superfluous leading zero, optionally a point and
more digits. -/
def IsDecimal (s : List Char) (q : ℚ) : Prop :=
  ∃ n : Nat, (s = natDigits n ∧ q = n) ∨
    ∃ fp : List Char, s = natDigits n ++ '.' :: fp ∧ fp.all isDig = true ∧
      q = (digitsVal 0 (natDigits n ++ fp) : ℚ) / 10 ^ fp.length

/-- The three levels of precedence: products, powers and signs, atoms. -/
inductive Prec
  | term | factor | atom

/-- `Writes p e s`: `s` writes `e` at precedence `p`.  Products and quotients associate to the left;
a power binds tighter than a sign on its left and looser than a sign on its right (`-m**-2` is
`-(m**(-2))`); multiplication is written `*` or `·`, powers `**` or `^`; blanks are allowed around
operators and inside parentheses. -/
inductive Writes : Prec → UX → List Char → Prop
  | name {s} : IsIdent s → Writes .atom (.name s) s
  | num {s q} : IsDecimal s q → Writes .atom (.num q) s
  | paren {e s b₁ b₂} : Blank b₁ → Writes .term e s → Blank b₂ →
      Writes .atom e ('(' :: (b₁ ++ s ++ b₂) ++ [')'])
  | atom {e s} : Writes .atom e s → Writes .factor e s
  | pow {a b s t b₁ b₂ op} : Writes .atom a s → Blank b₁ → (op = ['*', '*'] ∨ op = ['^']) → Blank b₂ →
      Writes .factor b t → Writes .factor (.pow a b) (s ++ b₁ ++ op ++ b₂ ++ t)
  | neg {a s b₁} : Blank b₁ → Writes .factor a s → Writes .factor (.neg a) ('-' :: b₁ ++ s)
  | factor {e s} : Writes .factor e s → Writes .term e s
  | mul {a b s t b₁ b₂ op} : Writes .term a s → Blank b₁ → (op = ['*'] ∨ op = ['·']) → Blank b₂ →
      Writes .factor b t → Writes .term (.mul a b) (s ++ b₁ ++ op ++ b₂ ++ t)
  | div {a b s t b₁ b₂} : Writes .term a s → Blank b₁ → Blank b₂ →
      Writes .factor b t → Writes .term (.div a b) (s ++ b₁ ++ ['/'] ++ b₂ ++ t)

/-! ## Meaning -/

/-- The number denoted by an expression without names.  (Powers of numbers are used with integer
exponents only, see `Sensible`.) -/
def UX.number : UX → Option ℚ
  | .name _ => none
  | .num q => some q
  | .neg a => a.number.map (- ·)
  | .mul a b => a.number.bind fun x => b.number.map (x * ·)
  | .div a b => a.number.bind fun x => b.number.map (x / ·)
  | .pow a b => a.number.bind fun x => b.number.map fun y => x ^ y.num

section
variable [Field K] [RPow K]

/-- The numerical factor of an expression: the value it has when every unit is 1. -/
def UX.factor : UX → K
  | .name _ => 1
  | .num q => (q : K)
  | .neg a => - a.factor
  | .mul a b => a.factor * b.factor
  | .div a b => a.factor / b.factor
  | .pow a b => rpow a.factor (b.number.getD 0)

/-- The unit a name stands for. -/
def World.named (w : World K) (s : List Char) : Option UKey := Dict.get? w.registry (String.ofList s)

/-- The exponent of unit `u` in an expression: names count once (the dimensionless unit not at all),
products add, quotients subtract, powers multiply. -/
def UX.exponent (w : World K) (u : UKey) : UX → ℚ
  | .name s => if w.named s = some u ∧ u.cls ≠ .dimensionless then 1 else 0
  | .num _ => 0
  | .neg a => a.exponent w u
  | .mul a b => a.exponent w u + b.exponent w u
  | .div a b => a.exponent w u - b.exponent w u
  | .pow a b => a.exponent w u * b.number.getD 0

/-- `x ** y` is defined: a positive base, a natural exponent, or a non-zero base and an integer. -/
def PowDefined [LT K] (x : K) (y : ℚ) : Prop :=
  0 < x ∨ (∃ n : ℕ, y = n) ∨ (x ≠ 0 ∧ ∃ n : ℤ, y = n)

/-- The expression makes sense: every name is registered, no division by zero, exponents are
numbers, powers are defined, and numbers are raised to integer powers only. -/
def UX.Sensible [LT K] (w : World K) : UX → Prop
  | .name s => (w.named s).isSome
  | .num _ => True
  | .neg a => a.Sensible w
  | .mul a b => a.Sensible w ∧ b.Sensible w
  | .div a b => a.Sensible w ∧ b.Sensible w ∧ (b.factor : K) ≠ 0
  | .pow a b => a.Sensible w ∧ b.Sensible w ∧ ∃ y, b.number = some y ∧ PowDefined (a.factor : K) y ∧
      (a.number ≠ none → ∃ n : ℤ, y = n)

/-- The value `v` is what the expression says: the number, or a quantity with the expression's factor
and exponents. -/
def Denotes (w : World K) (v : RVal K) (e : UX) : Prop :=
  (∀ x, e.number = some x → v = .const (.num x)) ∧
  (e.number = none → ∃ q, v.asQty = some q ∧ q.mag = e.factor ∧ Canon q.dim ∧
    ∀ u, expo q.dim u = e.exponent w u)

/-- Physical value of an expression, given the sizes of the units. -/
def UX.value [LinearOrder K] {w : World K} (v : Valuation w) : UX → K
  | .name s => ((w.named s).map v.val).getD 0
  | .num q => (q : K)
  | .neg a => - a.value v
  | .mul a b => a.value v * b.value v
  | .div a b => a.value v / b.value v
  | .pow a b => rpow (a.value v) (b.number.getD 0)

end
end PQ
