import Verif.Model.Markup
import Verif.Model.NDArr

/-!
# What is printed: `str`, `repr` and `format` of quantities, units and uncertain quantities

`uni` is `markup.config.use_unicode` throughout.  How numpy and Python print numbers and strings is
not modelled: it is given by `NumText`.  Dimensionalities carry Python's exponents (`PDim`), because
the exponent `2` and the exponent `2.0` print differently.
-/

namespace PQ

variable {K : Type _}

/-- Texts that numpy and Python supply. -/
structure NumText (K : Type _) where
  /-- `repr(a)` of a plain array -/
  repr : NDArr K → List Char
  /-- `str(a)` of a plain array -/
  str : NDArr K → List Char
  /-- `format(a.item(), spec)`; a bad specification is an exception -/
  item : List Char → K → Py (List Char)
  /-- `repr(s)` of a Python string -/
  quoted : List Char → List Char
  /-- `repr(x)` of a Python float -/
  float : ℚ → List Char

/-- A quantity as it is printed: magnitude and dimensionality. -/
structure PQty (K : Type _) where
  mag : NDArr K
  dim : PDim

/-- An uncertain quantity as it is printed; `unc` is its `uncertainty`, itself a quantity. -/
structure PUQty (K : Type _) where
  mag : NDArr K
  dim : PDim
  unc : PQty K

section
variable (T : NumText K) (w : World K) (uni : Bool)

/-- `str(d)` (`dimensionality.py` 191-195). -/
def shownDim (d : PDim) : List Char :=
  if uni then formatUnitsUnicode w T.float uni d else formatUnits w T.float uni d

/-- `', '.join(l)`. -/
def joinComma : List (List Char) → List Char
  | [] => []
  | [s] => s
  | s :: ss => s ++ ", ".toList ++ joinComma ss

/-- `repr(d)` (`dimensionality.py` 187-189): in the order of the dict, with the units' names. -/
def reprDim (d : PDim) : List Char :=
  "Dimensionality({".toList ++
    joinComma (d.map fun kv => World.unitName uni kv.1 ++ ": ".toList ++ kv.2.str T.float) ++
    "})".toList

/-- `Quantity.__repr__` (`quantity.py` 412-416). -/
def reprQty (q : PQty K) : List Char := reprQuantity w T.float uni (T.repr q.mag) q.dim

/-- `Quantity.__str__` (`quantity.py` 418-424). -/
def strQty (q : PQty K) : List Char := T.str q.mag ++ ' ' :: shownDim T w uni q.dim

/-- numpy's `ndarray.__format__`: an array with axes goes to `object.__format__`, which is `str(self)`
for an empty specification and otherwise a `TypeError`; an array without axes formats its item.  `s` is
`str(self)`. -/
def ndarrayFormat (s : List Char) (m : NDArr K) (spec : List Char) : Py (List Char) :=
  if m.shape = [] then T.item spec (m.elem [])
  else if spec = [] then .ok s else .error .typeError

/-- `Quantity.__format__` (`quantity.py` 430-434); inherited by units and uncertain quantities, whose
`str` is `s`. -/
def formatWith (s : List Char) (m : NDArr K) (d : PDim) (spec : List Char) : Py (List Char) := do
  let ret ← ndarrayFormat T s m spec
  if m.shape.length ≠ 0 then .ok ret
  else .ok (ret ++ ' ' :: shownDim T w uni d)

/-- `format(q, spec)` of a quantity. -/
def formatQty (q : PQty K) (spec : List Char) : Py (List Char) :=
  formatWith T w uni (strQty T w uni q) q.mag q.dim spec

/-- `self.__class__.__name__` (`unitquantity.py` 23, 326-368, 371, 409; `constants/utils.py` and
`unitquantity.py` 444). -/
def UClass.pyName : UClass → List Char
  | .unitQuantity => "UnitQuantity".toList
  | .mass => "UnitMass".toList
  | .length => "UnitLength".toList
  | .time => "UnitTime".toList
  | .current => "UnitCurrent".toList
  | .luminousIntensity => "UnitLuminousIntensity".toList
  | .substance => "UnitSubstance".toList
  | .temperature => "UnitTemperature".toList
  | .information => "UnitInformation".toList
  | .currency => "UnitCurrency".toList
  | .compound => "CompoundUnit".toList
  | .dimensionless => "Dimensionless".toList
  | .constant => "UnitConstant".toList

/-- `, repr(s)` for a symbol that is there (`unitquantity.py` 145-149). -/
def reprSymbol (s : Option String) : List Char :=
  match s with
  | some s => if s = "" then [] else ", ".toList ++ T.quoted s.toList
  | none => []

/-- The definition's part of a unit's `repr` (`unitquantity.py` 140-144): absent when the definition is
`None` or its magnitude is zero.  The definition is given with the exponents Python holds. -/
def reprDefinition [Zero K] [DecidableEq K] (ref : Option (K × PDim)) : List Char :=
  match ref with
  | some r =>
    if r.1 = 0 then []
    else ", ".toList ++ T.str (NDArr.scalar r.1) ++ " * ".toList ++ formatUnits w T.float uni r.2
  | none => []

/-- `UnitQuantity.__repr__` (`unitquantity.py` 139-154), `CompoundUnit.__repr__` and `name` (`unitquantity.py` 382-391). -/
def reprUnit [Zero K] [DecidableEq K] (ref : Option (K × PDim)) (u : UKey) : List Char :=
  if u.cls = .compound then '1' :: ' ' :: World.unitName uni u
  else
    u.cls.pyName ++ '(' :: T.quoted (World.unitName uni u) ++ reprDefinition T w uni ref ++
      reprSymbol T ((w.info u).bind UnitInfo.symbol) ++
      (if uni then reprSymbol T ((w.info u).bind UnitInfo.uSymbol) else []) ++ [')']

/-- `UnitQuantity.__str__` (`unitquantity.py` 156-166). -/
def strUnit (u : UKey) : List Char :=
  if w.unitUSymbol uni u ≠ World.unitName uni u then
    '1' :: ' ' :: (if uni then w.unitUSymbol uni u else w.unitSymbol uni u) ++ ' ' :: '(' ::
      World.unitName uni u ++ [')']
  else '1' :: ' ' :: World.unitName uni u

/-- The dimensionality of a unit as printed (`unitquantity.py` 95-97, 437-439). -/
def unitPDim (u : UKey) : PDim := if u.cls = .dimensionless then [] else [(u, .int 1)]

/-- `format(unit, spec)`: inherited from `Quantity`; a unit's magnitude is 1. -/
def formatUnit [One K] (u : UKey) (spec : List Char) : Py (List Char) :=
  formatWith T w uni (strUnit w uni u) (NDArr.scalar (1 : K)) (unitPDim u) spec

/-- `s.replace(pat, rep)` for a nonempty pattern: leftmost occurrences, without overlap. -/
def replaceStr (pat rep : List Char) : List Char → List Char
  | [] => []
  | c :: cs =>
    if pat.isPrefixOf (c :: cs) && !pat.isEmpty then
      rep ++ replaceStr pat rep ((c :: cs).drop pat.length)
    else c :: replaceStr pat rep cs
  termination_by s => s.length
  decreasing_by
    · rename_i h
      simp only [List.length_drop, List.length_cons]
      have : pat ≠ [] := by rintro rfl; simp at h
      have := List.length_pos_iff.2 this
      omega
    · simp

/-- `UncertainQuantity.__str__` (`uncertainquantity.py` 185-199). -/
def strUnc (q : PUQty K) : List Char :=
  let s := T.str q.mag ++ ' ' :: shownDim T w uni q.dim ++ '\n' :: '+' :: '/' :: '-' ::
    strQty T w uni q.unc ++ " (1 sigma)".toList
  if uni then replaceStr " sigma".toList ['σ'] (replaceStr ['+', '/', '-'] ['±'] s) else s

/-- `UncertainQuantity.__repr__` (`uncertainquantity.py` 176-183). -/
def reprUnc (q : PUQty K) : List Char :=
  "UncertainQuantity(".toList ++ T.repr q.mag ++ ", ".toList ++ formatUnits w T.float uni q.dim ++
    ", ".toList ++ T.repr q.unc.mag ++ [')']

/-- `format(q, spec)` of an uncertain quantity: inherited from `Quantity`. -/
def formatUnc (q : PUQty K) (spec : List Char) : Py (List Char) :=
  formatWith T w uni (strUnc T w uni q) q.mag q.dim spec

end

end PQ
