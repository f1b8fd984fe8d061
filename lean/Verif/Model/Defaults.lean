import Verif.Model.Quantity

/-!
# `set_default_units` and rescaling to preferred units

`quantities/unitquantity.py` 455-end, `quantities/quantity.py` 243-261.
-/

namespace PQ

variable {K : Type _}

/-- An argument of `set_default_unit(s)`: `None`, a string naming a registered unit, a quantity, or
some other object. (Strings that are compound expressions are resolved by the parser of
`Model/Registry.lean` before they get here.) -/
inductive DefSpec (K : Type _)
  | none
  | label (s : String)
  | unit (a : World.DefaultArg K)
  | other

section
variable [One K] [Mul K] [Div K] [RPow K] [DecidableEq K]

/-- `IrreducibleUnit.set_default_unit` (`unitquantity.py` 312-323) with its argument handling: a
string is looked up first; an object that is not a `Quantity` makes `validate_unit_quantity` raise
`ValueError`, reported as `TypeError`. -/
def World.setDefaultSpec (w : World K) (c : UClass) : DefSpec K → Option PyErr × World K
  | .none => (none, w)
  | .label s =>
    match Dict.get? w.registry s with
    | some u => w.setDefault c (some ⟨1, unitDim u⟩)
    | none => (some .lookupError, w)
  | .unit a => w.setDefault c (some a)
  | .other => (some .typeError, w)

/-- A sequence of `set_default_unit` calls; the first exception propagates. -/
def World.runDefaults (w : World K) : List (UClass × DefSpec K) → Option PyErr × World K
  | [] => (none, w)
  | (c, s) :: rest =>
    match w.setDefaultSpec c s with
    | (none, w') => World.runDefaults w' rest
    | (some e, w') => (some e, w')

/-- The keyword arguments of `set_default_units`. -/
structure DefaultsArgs (K : Type _) where
  currency : DefSpec K := .none
  current : DefSpec K := .none
  information : DefSpec K := .none
  length : DefSpec K := .none
  luminousIntensity : DefSpec K := .none
  mass : DefSpec K := .none
  substance : DefSpec K := .none
  temperature : DefSpec K := .none
  time : DefSpec K := .none

/-- The calls made for `system` (`unitquantity.py` 478-494); `none` when the name is neither `si`
nor `cgs` in lower case. -/
def systemCalls (system : String) : Option (List (UClass × DefSpec K)) :=
  let common : List (UClass × DefSpec K) :=
    [(.luminousIntensity, .label "cd"), (.substance, .label "mol"), (.temperature, .label "degK"),
     (.time, .label "s")]
  if system.toLower = "si" then
    some ([(.current, .label "A"), (.length, .label "m"), (.mass, .label "kg")] ++ common)
  else if system.toLower = "cgs" then
    some ([(.length, .label "cm"), (.mass, .label "g")] ++ common)
  else none

/-- The calls made for the keyword arguments (`unitquantity.py` 496-504). -/
def keywordCalls (a : DefaultsArgs K) : List (UClass × DefSpec K) :=
  [(.currency, a.currency), (.current, a.current), (.information, a.information),
   (.length, a.length), (.luminousIntensity, a.luminousIntensity), (.mass, a.mass),
   (.substance, a.substance), (.temperature, a.temperature), (.time, a.time)]

/-- `set_default_units` (`unitquantity.py` 456-504). -/
def World.setDefaultUnits (w : World K) (system : Option String) (a : DefaultsArgs K) :
    Option PyErr × World K :=
  match system with
  | none => w.runDefaults (keywordCalls a)
  | some s =>
    match systemCalls s with
    | none => (some .valueError, w)
    | some calls => w.runDefaults (calls ++ keywordCalls a)

end
end PQ
