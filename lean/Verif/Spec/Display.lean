import Verif.Model.Display
import Verif.Spec.Typeset
import Verif.Spec.Arrays

/-!
# Vocabulary for printed objects
-/

namespace PQ

variable {K : Type _}

/-- What numpy's own texts are assumed to be: only the elements of an array count, and the text of a
scalar is its item formatted with the empty specification. -/
structure NumText.Lawful (T : NumText K) : Prop where
  same : ∀ a b : NDArr K, a.Same b → T.str a = T.str b
  item : ∀ x, T.item [] x = .ok (T.str (NDArr.scalar x))

/-- No `repr` of an array is the beginning of another one: each is `array(`, a balanced text and `)`. -/
def NumText.PrefixFree (T : NumText K) : Prop :=
  ∀ a b, T.repr a <+: T.repr b → T.repr a = T.repr b

/-- The text of an array of numbers: digits, points, signs, `e`, `j`, `nan`, `inf`, brackets, blanks. -/
def NumberText (s : List Char) : Prop := '/' ∉ s ∧ '±' ∉ s ∧ 's' ∉ s

/-- Characters that have a meaning in a unit string or separate it from what is around it. -/
def Reserved (c : Char) : Prop :=
  c ∈ ['*', '·', '/', '(', ')', ' ', ',', '\n', '+', '⁰', '¹', '²', '³', '⁴', '⁵', '⁶', '⁷', '⁸', '⁹']

instance : DecidablePred Reserved := fun c => inferInstanceAs (Decidable (c ∈ _))

/-- An ordinary symbol: no reserved characters, and neither of the two words that stand for "no
units". -/
def OrdinarySymbol (s : List Char) : Prop :=
  s ≠ [] ∧ (∀ c ∈ s, ¬ Reserved c) ∧ s ≠ ['1'] ∧ s ≠ "dimensionless".toList

/-- The symbol with which a unit is printed: the Unicode symbol if Unicode is on. -/
def printedSymbol (w : World K) (uni : Bool) (u : UKey) : List Char :=
  if uni then w.unitUSymbol uni u else w.unitSymbol uni u

/-- Dimensionalities that can be told from one another by their text: symbols are ordinary, exponents
are integers that print faithfully, and no two units have the same symbol. -/
structure Legible (w : World K) (fr : ℚ → List Char) (uni : Bool) (d e : PDim) : Prop where
  symbol : ∀ kv ∈ d ++ e, OrdinarySymbol (printedSymbol w uni kv.1)
  exp : ∀ kv ∈ d ++ e, PrintsExp fr kv.2 ∧ kv.2.val.den = 1
  distinct : ∀ a ∈ d ++ e, ∀ b ∈ d ++ e,
    printedSymbol w uni a.1 = printedSymbol w uni b.1 → a.1 = b.1

/-- A name without quotes, blanks or parentheses. -/
def OrdinaryName (s : List Char) : Prop := s ≠ [] ∧ ∀ c ∈ s, c ≠ '(' ∧ c ≠ ')' ∧ c ≠ '\'' ∧ c ≠ ' '

end PQ
