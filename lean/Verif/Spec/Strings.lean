import Verif.Model.Markup

/-!
# Vocabulary for unit strings
-/

namespace PQ

variable {K : Type _}

/-- A tree made of literals, names and arithmetic operators only: no attribute access, call,
subscript, comprehension, lambda, comparison or other syntax anywhere. -/
inductive Arithmetic : PyAST → Prop
  | constant (c) : Arithmetic (.constant c)
  | name (id) : Arithmetic (.name id)
  | binOp (op) {l r} : Arithmetic l → Arithmetic r → Arithmetic (.binOp op l r)
  | unaryOp (op) {e} : Arithmetic e → Arithmetic (.unaryOp op e)

/-- Values obtained from literals and entries of the registry by arithmetic operators alone. -/
inductive Built (O : PyOps K) (w : World K) : RVal K → Prop
  | literal (c) : Built O w (.const c)
  | registered {label u} : Dict.get? w.registry label = some u → Built O w (.unit u)
  | unitClass (label) : Built O w (.cls label)
  | bin (op) {a b v} : Built O w a → Built O w b → O.bin op a b = .ok v → Built O w v
  | un (op) {a v} : Built O w a → O.un op a = .ok v → Built O w v

/-- `id` occurs as a name in the tree. -/
inductive Mentions (id : List Char) : PyAST → Prop
  | name : Mentions id (.name id)
  | left (op) {l r} : Mentions id l → Mentions id (.binOp op l r)
  | right (op) {l r} : Mentions id r → Mentions id (.binOp op l r)
  | unaryOp (op) {e} : Mentions id e → Mentions id (.unaryOp op e)

/-- Strings joined by a separator character. -/
def joinWith (sep : Char) : List (List Char) → List Char
  | [] => []
  | [s] => s
  | s :: ss => s ++ sep :: joinWith sep ss

/-- A name whose first and last characters are letters and which contains no point. -/
def Dottable (s : List Char) : Prop :=
  '.' ∉ s ∧ (∃ a, s.head? = some a ∧ isAsciiLetter a = true) ∧
    (∃ b, s.getLast? = some b ∧ isAsciiLetter b = true)

/-- Two or more characters. -/
def Long (s : List Char) : Prop := 2 ≤ s.length

/-- An ASCII identifier that is not a Python keyword. -/
def IsIdent (s : List Char) : Prop :=
  s ≠ [] ∧ (∀ c, s.head? = some c → isIdStart c = true) ∧ s.all isIdCont = true ∧ s ∉ pyKeywords

/-- `s` is the usual decimal form `digits.digits` of the positive number `q`: `"2.0"`, `"10.0"`,
`"0.5"`, `"1.25"`; no superfluous zero at the end. -/
def PlainDecimal (s : List Char) (q : ℚ) : Prop :=
  ∃ (i : Nat) (fp : List Char), s = natDigits i ++ '.' :: fp ∧
    ((fp = ['0'] ∧ q = i) ∨
     (fp ≠ [] ∧ fp.all isDig = true ∧ fp.getLast? ≠ some '0' ∧
      q = (digitsVal 0 (natDigits i ++ fp) : ℚ) / 10 ^ fp.length))

/-- Exponents (already positive) that are printed faithfully: integers not ending in 0, and floats
whose `repr` is a plain decimal. -/
def FaithfulExp (fr : ℚ → List Char) : PyNum → Prop
  | .int n => 0 < n ∧ ¬ (10 : ℤ) ∣ n
  | .float q => 0 < q ∧ PlainDecimal (fr q) q

/-- An exponent of either sign that is printed faithfully. -/
def PrintsExp (fr : ℚ → List Char) (d : PyNum) : Prop :=
  (0 < d.val ∧ FaithfulExp fr d) ∨ (d.val < 0 ∧ FaithfulExp fr d.neg)

/-- `IN`, `In`, `iN`: read as the inch. -/
def LooksLikeIn (s : List Char) : Prop := s.map Char.toLower = "in".toList

/-- Conditions under which a dimensionality is printed so that it can be read back. -/
structure Printable [One K] (w : World K) (fr : ℚ → List Char) (d : PDim) : Prop where
  /-- every unit's symbol is an identifier, looks it up, and is not taken for the inch -/
  symbol : ∀ kv ∈ d, IsIdent (w.unitSymbol false kv.1) ∧ ¬ LooksLikeIn (w.unitSymbol false kv.1) ∧
    Dict.get? w.registry (String.ofList (w.unitSymbol false kv.1)) = some kv.1
  cls : ∀ kv ∈ d, kv.1.cls ≠ .dimensionless
  /-- every exponent prints faithfully -/
  exp : ∀ kv ∈ d, PrintsExp fr kv.2
  /-- the label used for "no units" -/
  dimless : ∃ u, Dict.get? w.registry "dimensionless" = some u ∧ u.cls = .dimensionless

end PQ
