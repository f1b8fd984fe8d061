import Verif.Spec.Strings

/-!
# How units are typeset

A unit expression is a list of units with positive integer exponents above the line and one below.
A style says how products, powers and fractions look.
-/

namespace PQ

variable {K : Type _}

structure Style where
  times : List Char
  pow : ℕ → List Char
  fraction : List Char → List Char → List Char

/-- A unit with its exponent; the exponent 1 is not written. -/
def Style.item (st : Style) (x : List Char × ℕ) : List Char :=
  x.1 ++ if x.2 = 1 then [] else st.pow x.2

/-- A product. -/
def Style.product (st : Style) : List (List Char × ℕ) → List Char
  | [] => []
  | [x] => st.item x
  | x :: xs => st.item x ++ st.times ++ st.product xs

/-- The whole expression: with several units below the line these are in parentheses, with none above
it there is a 1, and with no units at all the word "dimensionless". -/
def Style.typeset (st : Style) (above below : List (List Char × ℕ)) : List Char :=
  if below = [] then (if above = [] then "dimensionless".toList else st.product above)
  else
    st.fraction (if above = [] then ['1'] else st.product above)
      (if 1 < below.length then '(' :: st.product below ++ [')'] else st.product below)

/-- A superscript digit. -/
def superDigit : ℕ → Char
  | 0 => '⁰' | 1 => '¹' | 2 => '²' | 3 => '³' | 4 => '⁴'
  | 5 => '⁵' | 6 => '⁶' | 7 => '⁷' | 8 => '⁸' | _ => '⁹'

/-- `kg*m**2/s**2` -/
def asciiStyle : Style := ⟨['*'], fun n => "**".toList ++ natDigits n, fun a b => a ++ '/' :: b⟩

/-- `kg·m²/s²` -/
def unicodeStyle : Style :=
  ⟨['·'], fun n => if n = 0 then ['⁰'] else (Nat.digits 10 n).reverse.map superDigit,
    fun a b => a ++ '/' :: b⟩

/-- `kg&sdot;m<sup>2</sup>/s<sup>2</sup>` -/
def htmlStyle : Style :=
  ⟨"&sdot;".toList, fun n => "<sup>".toList ++ natDigits n ++ "</sup>".toList, fun a b => a ++ '/' :: b⟩

/-- `\frac{kg{\cdot}m^{2}}{s^{2}}` -/
def latexStyle : Style :=
  ⟨"{\\cdot}".toList, fun n => "^{".toList ++ natDigits n ++ "}".toList,
    fun a b => "\\frac{".toList ++ a ++ "}{".toList ++ b ++ "}".toList⟩

/-- The units with positive exponents. -/
def above (symbol : UKey → List Char) (items : List (UKey × PyNum)) : List (List Char × ℕ) :=
  items.filterMap fun kv => if 0 < kv.2.val then some (symbol kv.1, kv.2.val.num.natAbs) else none

/-- The units with negative exponents, which are made positive. -/
def below (symbol : UKey → List Char) (items : List (UKey × PyNum)) : List (List Char × ℕ) :=
  items.filterMap fun kv => if kv.2.val < 0 then some (symbol kv.1, kv.2.val.num.natAbs) else none

/-- A symbol that is not itself an expression. -/
def PlainSymbol (s : List Char) : Prop := s ≠ [] ∧ '*' ∉ s ∧ '/' ∉ s ∧ s.head? ≠ some '('

/-- Symbols are plain and exponents are integers that print faithfully. -/
structure Typesettable (symbol : UKey → List Char) (fr : ℚ → List Char) (d : PDim) : Prop where
  symbol : ∀ kv ∈ d, PlainSymbol (symbol kv.1)
  exp : ∀ kv ∈ d, PrintsExp fr kv.2 ∧ kv.2.val.den = 1

end PQ
