import Verif.Model.Registry
import Mathlib.Data.Nat.Digits.Defs
import Mathlib.Data.List.Sort

/-!
# `quantities/markup.py`: string forms of a dimensionality

Formatting prints exponents with `'%s'`, so it tells the integer `2` from the float `2.0`; a
dimensionality is therefore given here with exponents of type `PyNum`.

Simplifications: `\d` and `int()` are restricted to ASCII digits; `repr` of a float is an arbitrary
function `fr`; strings contain no newline; the optional arguments of `format_units_latex` and
`format_units_html` have their default values.
-/

namespace PQ

/-- An exponent as Python holds it. -/
inductive PyNum
  | int (n : ℤ)
  | float (q : ℚ)
  deriving DecidableEq

/-- Its numerical value. -/
def PyNum.val : PyNum → ℚ
  | .int n => n
  | .float q => q

/-- `-d`. -/
def PyNum.neg : PyNum → PyNum
  | .int n => .int (-n)
  | .float q => .float (-q)

/-- A dimensionality with its exponents as Python objects. -/
abbrev PDim := Dict UKey PyNum

/-- The same dimensionality with exponents as numbers. -/
def PDim.toDim (d : PDim) : Dim := d.map (fun kv => (kv.1, kv.2.val))

/-- A decimal digit as a character. -/
def digChar (n : Nat) : Char := Char.ofNat ('0'.toNat + n)

/-- Decimal digits of a natural number, no leading zero (`'%s' % n`). -/
def natDigits (n : Nat) : List Char :=
  if n = 0 then ['0'] else (Nat.digits 10 n).reverse.map digChar

/-- `'%s' % d` for `d`; `fr` is the `repr` of a float. -/
def PyNum.str (fr : ℚ → List Char) : PyNum → List Char
  | .int n => if n < 0 then '-' :: natDigits n.natAbs else natDigits n.natAbs
  | .float q => fr q

/-- `s.rstrip(c)`. -/
def rstrip (c : Char) (s : List Char) : List Char := s.reverse.dropWhile (· == c) |>.reverse

/-- `('**%s'%d).rstrip('0').rstrip('.')` (`markup.py` 64, 69). -/
def expSuffix (fr : ℚ → List Char) (d : PyNum) : List Char :=
  rstrip '.' (rstrip '0' ('*' :: '*' :: d.str fr))

/-- `superscripts[int(c)]` (`markup.py` 30, 39). -/
def supChar (c : Char) : Char :=
  match digVal c with
  | 0 => '⁰' | 1 => '¹' | 2 => '²' | 3 => '³' | 4 => '⁴'
  | 5 => '⁵' | 6 => '⁶' | 7 => '⁷' | 8 => '⁸' | _ => '⁹'

/-- `superscript` (`markup.py` 32-42): split at `\*{2}([\d]+)(?!\.)` and put the captured digits as
superscripts.  The digits are matched greedily; when a point follows, the regular expression
backtracks by one digit. -/
def superscriptGo : Nat → List Char → List Char
  | 0, s => s
  | _ + 1, [] => []
  | n + 1, c :: cs =>
    match c, cs with
    | '*', '*' :: rest =>
      let ds := rest.takeWhile isDig
      let k := if (rest.drop ds.length).head? = some '.' then ds.length - 1 else ds.length
      if k = 0 then c :: superscriptGo n cs
      else (ds.take k).map supChar ++ superscriptGo n (rest.drop k)
    | _, _ => c :: superscriptGo n cs

/-- `superscript(val)`. -/
def superscript (s : List Char) : List Char := superscriptGo s.length s

variable {K : Type _}

/-- `unit.name` (`unitquantity.py` 103-105; `CompoundUnit` 386-391). -/
def World.unitName (uni : Bool) (u : UKey) : List Char :=
  if u.cls = .compound then
    '(' :: (if uni then superscript u.name.toList else u.name.toList) ++ [')']
  else u.name.toList

/-- `unit.symbol` (`unitquantity.py` 118-123); an empty symbol counts as none. -/
def World.unitSymbol (w : World K) (uni : Bool) (u : UKey) : List Char :=
  match (w.info u).bind UnitInfo.symbol with
  | some s => if s = "" then World.unitName uni u else s.toList
  | none => World.unitName uni u

/-- `unit.u_symbol` (`unitquantity.py` 125-130). -/
def World.unitUSymbol (w : World K) (uni : Bool) (u : UKey) : List Char :=
  match (w.info u).bind UnitInfo.uSymbol with
  | some s => if s = "" then w.unitSymbol uni u else s.toList
  | none => w.unitSymbol uni u

/-- `'*'.join(l)`. -/
def joinStar : List (List Char) → List Char
  | [] => []
  | [s] => s
  | s :: ss => s ++ '*' :: joinStar ss

/-- One unit with its exponent made positive (`markup.py` 57-70). -/
def fmtItem (w : World K) (fr : ℚ → List Char) (uni : Bool) (u : UKey) (d : PyNum) : List Char :=
  let s := if uni then w.unitUSymbol uni u else w.unitSymbol uni u
  if d.val ≠ 1 then s ++ expSuffix fr d else s

/-- The units in `format_order` (`markup.py` 50-55); `sorted` is stable, like insertion sort. -/
def PDim.sorted (w : World K) (d : PDim) : List (UKey × PyNum) :=
  d.insertionSort (fun a b => orderLE (w.order a.1) (w.order b.1) = true)

/-- The list `num` (`markup.py` 62-65). -/
def fmtNum (w : World K) (fr : ℚ → List Char) (uni : Bool) (items : List (UKey × PyNum)) :
    List (List Char) :=
  (items.filter (fun kv => decide (0 < kv.2.val))).map (fun kv => fmtItem w fr uni kv.1 kv.2)

/-- The list `den` (`markup.py` 66-70). -/
def fmtDen (w : World K) (fr : ℚ → List Char) (uni : Bool) (items : List (UKey × PyNum)) :
    List (List Char) :=
  (items.filter (fun kv => decide (kv.2.val < 0))).map (fun kv => fmtItem w fr uni kv.1 kv.2.neg)

/-- `format_units` (`markup.py` 44-77), which is `Dimensionality.string` (`dimensionality.py` 43-45); `uni` is
`config.use_unicode` (`markup.py` 11-26, whose lock is only ever taken to read one flag). -/
def formatUnits (w : World K) (fr : ℚ → List Char) (uni : Bool) (d : PDim) : List Char :=
  let items := PDim.sorted w d
  let num := fmtNum w fr uni items
  let den := fmtDen w fr uni items
  let res := joinStar num
  let res :=
    if den.length = 0 then res
    else
      let res := if res = [] then ['1'] else res
      let dj := joinStar den
      res ++ '/' :: (if 1 < den.length then '(' :: dj ++ [')'] else dj)
  if res = [] then "dimensionless".toList else res

/-- `Quantity.__repr__` (`quantity.py` 413-417): `'%s * %s' % (repr(self.magnitude),
self.dimensionality.string)`.  `m` is the `repr` of the magnitude, which is numpy's.  The definition
part of `UnitQuantity.__repr__` (`unitquantity.py` 140-142) has the same form, with
`str(ref.magnitude)`. -/
def reprQuantity (w : World K) (fr : ℚ → List Char) (uni : Bool) (m : List Char) (d : PDim) :
    List Char :=
  m ++ " * ".toList ++ formatUnits w fr uni d

/-- `s.replace('**', '^')`. -/
def replaceDstar : List Char → List Char
  | '*' :: '*' :: rest => '^' :: replaceDstar rest
  | c :: rest => c :: replaceDstar rest
  | [] => []

/-- `format_units_unicode` (`markup.py` 79-84), which is `Dimensionality.unicode` (`dimensionality.py` 47-49). -/
def formatUnitsUnicode (w : World K) (fr : ℚ → List Char) (uni : Bool) (d : PDim) : List Char :=
  replaceChar '*' ['·'] (replaceDstar (superscript (formatUnits w fr uni d)))

/-- `re.sub(r'\*{2,2}(?P<exp>\d+)', pre + r'\g<exp>' + post, s)` (`markup.py` 122, 155). -/
def expSubGo (pre post : List Char) : Nat → List Char → List Char
  | 0, s => s
  | _ + 1, [] => []
  | n + 1, c :: cs =>
    match c, cs with
    | '*', '*' :: rest =>
      let ds := rest.takeWhile isDig
      if ds.length = 0 then c :: expSubGo pre post n cs
      else pre ++ ds ++ post ++ expSubGo pre post n (rest.drop ds.length)
    | _, _ => c :: expSubGo pre post n cs

/-- Split at the last `/` with something on both sides (greedy `(.+)/(.+)`). -/
def splitLastSlash (s : List Char) : Option (List Char × List Char) :=
  let rec go : Nat → Option (List Char × List Char)
    | 0 => none
    | n + 1 =>
      if s[n]? = some '/' ∧ 0 < n ∧ n + 1 < s.length then some (s.take n, s.drop (n + 1))
      else go n
  go s.length

/-- `format_units_latex` (`markup.py` 87-128) with default arguments, which is `Dimensionality.latex`
(`dimensionality.py` 51-53). -/
def formatUnitsLatex (w : World K) (fr : ℚ → List Char) (uni : Bool) (d : PDim) : List Char :=
  let res := formatUnits w fr uni d
  let compound := res.head? == some '(' && res.getLast? == some ')'
  let res :=
    if compound then res
    else
      match splitLastSlash res with
      | some (a, b) => "\\frac{".toList ++ a ++ "}{".toList ++ b ++ "}".toList
      | none => res
  let res := expSubGo "^{".toList "}".toList res.length res
  let res := replaceChar '*' "{\\cdot}".toList res
  "$\\mathrm{".toList ++ res ++ "}$".toList

/-- `format_units_html` (`markup.py` 131-161) with default arguments, which is `Dimensionality.html`
(`dimensionality.py` 55-57). -/
def formatUnitsHtml (w : World K) (fr : ℚ → List Char) (uni : Bool) (d : PDim) : List Char :=
  let res := formatUnits w fr uni d
  let res := expSubGo "<sup>".toList "</sup>".toList res.length res
  replaceChar '*' "&sdot;".toList res

end PQ
