import Verif.Spec.Physical
import Verif.Model.Defaults

/-!
# Histories of the library's global state
-/

namespace PQ

variable {K : Type _} [Zero K] [One K] [Mul K] [Div K] [RPow K] [LT K] [DecidableEq K]

/-- `w'` is reached from `w` by some finite sequence of operations, each of which may succeed or
raise. -/
inductive Evolves (w : World K) : World K → Prop
  | refl : Evolves w w
  | step {w' : World K} (op : Op K) : Evolves w w' → op.Valid w' → Evolves w (op.run w').2

/-- The classes of base units: the seven of SI, information and currency. -/
def baseClasses : List UClass :=
  [.mass, .length, .time, .current, .luminousIntensity, .substance, .temperature, .information, .currency]

/-! ## What a call of `set_default_units` asks for -/

/-- The documented defaults of SI. -/
def siUnit : UClass → DefSpec K
  | .current => .label "A" | .length => .label "m" | .mass => .label "kg"
  | .luminousIntensity => .label "cd" | .substance => .label "mol"
  | .temperature => .label "degK" | .time => .label "s"
  | _ => .none

/-- The documented defaults of cgs, which says nothing about currents. -/
def cgsUnit : UClass → DefSpec K
  | .length => .label "cm" | .mass => .label "g"
  | .luminousIntensity => .label "cd" | .substance => .label "mol"
  | .temperature => .label "degK" | .time => .label "s"
  | _ => .none

/-- What the unit system asks for. -/
def systemUnit : Option String → UClass → DefSpec K
  | none, _ => .none
  | some s, c => if s.toLower = "si" then siUnit c else cgsUnit c

/-- The keyword arguments by class. -/
def DefaultsArgs.get (a : DefaultsArgs K) : UClass → DefSpec K
  | .currency => a.currency | .current => a.current | .information => a.information
  | .length => a.length | .luminousIntensity => a.luminousIntensity | .mass => a.mass
  | .substance => a.substance | .temperature => a.temperature | .time => a.time
  | _ => .none

/-- What a call asks for: the keyword if it is given, else what the unit system says. -/
def asked (system : Option String) (a : DefaultsArgs K) (c : UClass) : DefSpec K :=
  match a.get c with
  | .none => systemUnit system c
  | s => s

/-- The request was carried out: `r` is the default of class `c` afterwards, `w` the state before. -/
def Requested (w : World K) (c : UClass) : DefSpec K → Option Dim → Prop
  | .none, r => r = w.defaults c
  | .label s, r => ∃ u, Dict.get? w.registry s = some u ∧ r = some (unitDim u)
  | .unit a, r => r = some a.dim
  | .other, _ => False

/-- The request can be carried out in state `w`: it names or is a unit (magnitude one) into which the
current default of the class can be converted.  Not asking for anything is always possible. -/
def Acceptable (w : World K) (c : UClass) : DefSpec K → Prop
  | .none => True
  | .label s => ∃ u cur, Dict.get? w.registry s = some u ∧ w.defaults c = some cur ∧
      Returns (w.convFactor cur (unitDim u))
  | .unit a => a.mag = 1 ∧ ∃ cur, w.defaults c = some cur ∧ Returns (w.convFactor cur a.dim)
  | .other => False

/-- What is wrong with a request that cannot be carried out, and the exception for it: an unknown name;
not a unit; a class that has no default yet; a quantity that is not one of its unit; not convertible. -/
inductive Fault (w : World K) (c : UClass) : DefSpec K → PyErr → Prop
  | unknown {s : String} : Dict.get? w.registry s = none → Fault w c (.label s) .lookupError
  | notUnit : Fault w c .other .typeError
  | noDefaultLabel {s : String} {u : UKey} : Dict.get? w.registry s = some u → w.defaults c = none →
      Fault w c (.label s) .typeError
  | noDefault {a : World.DefaultArg K} : w.defaults c = none → Fault w c (.unit a) .typeError
  | magnitude {a : World.DefaultArg K} : a.mag ≠ 1 → Fault w c (.unit a) .typeError
  | labelKind {s : String} {u : UKey} {cur : Dim} : Dict.get? w.registry s = some u →
      w.defaults c = some cur → ¬ Returns (w.convFactor cur (unitDim u)) → Fault w c (.label s) .assertionError
  | kind {a : World.DefaultArg K} {cur : Dim} : w.defaults c = some cur →
      ¬ Returns (w.convFactor cur a.dim) → Fault w c (.unit a) .assertionError

/-- The base units of the SI. -/
def siDefault : UClass → Option UKey
  | .current => some ⟨.current, "ampere"⟩
  | .length => some ⟨.length, "meter"⟩
  | .mass => some ⟨.mass, "kilogram"⟩
  | .luminousIntensity => some ⟨.luminousIntensity, "candela"⟩
  | .substance => some ⟨.substance, "mole"⟩
  | .temperature => some ⟨.temperature, "Kelvin"⟩
  | .time => some ⟨.time, "second"⟩
  | _ => none

/-- The base units of the cgs system, as far as this library goes. -/
def cgsDefault : UClass → Option UKey
  | .length => some ⟨.length, "centimeter"⟩
  | .mass => some ⟨.mass, "gram"⟩
  | .luminousIntensity => some ⟨.luminousIntensity, "candela"⟩
  | .substance => some ⟨.substance, "mole"⟩
  | .temperature => some ⟨.temperature, "Kelvin"⟩
  | .time => some ⟨.time, "second"⟩
  | _ => none

end PQ
