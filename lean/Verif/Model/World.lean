import Verif.Model.Dimensionality
import Verif.Model.NDArr

/-!
# Units, their definitions, the unit registry and the default units

Models `quantities/unitquantity.py` (class `UnitQuantity` and subclasses), the label table of
`quantities/registry.py` (class `__Registry`, `__setitem__`) and `get_conversion_factor` of
`quantities/quantity.py`.

The state of the library is a `World`.  Unit objects are immutable once created, so the only state
changes are: creating a unit, registering labels, changing a default unit, and the per-class
counters that number the units.

Simplifications.
* A unit definition is a scalar quantity (the code would accept an array).
* Magnitudes are elements of an arbitrary number type `K` with the operations the code uses; the
  theorems choose what laws `K` satisfies.
* Two units with the same class and name are not distinguished: they hash and compare equal, so the
  registry silently keeps the first one (modelled).  `Model/UnitObjects.lean` has the objects; as long
  as objects of the same class and name have the same meaning this model is an exact abstraction of
  that one (`C102_refinement`), and `C103_redefinition_false` shows what happens otherwise.
* The registry also maps the two labels `UnitQuantity` and `CompoundUnit` to classes
  (`unitquantity.py` 287, 406); these two entries are not modelled.
-/

namespace PQ

/-- A scalar quantity: magnitude and dimensionality. -/
structure SQ (K : Type _) where
  mag : K
  dim : Dim

/-- The attributes of a unit object (`unitquantity.py` 47-70). -/
structure UnitInfo (K : Type _) where
  /-- `_definition`; `none` is `None`. -/
  definition : Option (SQ K)
  /-- `_conv_ref`, computed once, when the unit is created. -/
  convRef : Option (SQ K)
  symbol : Option String
  uSymbol : Option String
  aliases : List String
  /-- `_format_order`. -/
  order : Nat × Nat

/-- The global state of the library. -/
structure World (K : Type _) where
  hasher : Hasher
  /-- all unit objects created so far -/
  units : Dict UKey (UnitInfo K)
  /-- `__context` of `registry.py` 27 -/
  registry : Dict String UKey
  /-- `cls._default_unit` (`unitquantity.py` 292, 302-303), as the dimensionality it denotes -/
  defaults : UClass → Option Dim
  /-- the class's own `_secondary_order` attribute (`unitquantity.py` 26, 68); `none` until the
  first instance of the class is created, when the value is inherited from `UnitQuantity` -/
  counters : UClass → Option Nat

/-- `unit._dimensionality` (`unitquantity.py` 95-97; `Dimensionless`: 437-439). -/
def unitDim (u : UKey) : Dim := if u.cls = .dimensionless then [] else [(u, 1)]

namespace World

variable {K : Type _}

/-- The attributes of a unit. -/
def info (w : World K) (u : UKey) : Option (UnitInfo K) := Dict.get? w.units u

/-- `unit.format_order` (`unitquantity.py` 99-101). -/
def order (w : World K) (u : UKey) : Nat × Nat :=
  match w.info u with
  | some i => i.order
  | none => (u.cls.primaryOrder, 0)

/-- `unit._conv_ref`. -/
def convRef (w : World K) (u : UKey) : Option (SQ K) := (w.info u).bind UnitInfo.convRef

/-- `d1 == d2` on dimensionalities in this process. -/
def deq (w : World K) (a b : Dim) : Bool := Dim.eq w.hasher w.order a b

/-- `d1 != d2` on dimensionalities in this process. -/
def dne (w : World K) (a b : Dim) : Bool := Dim.ne w.hasher w.order a b

/-- `unit._reference` (`unitquantity.py` 88-93) as a scalar quantity. -/
def unitRef [One K] (w : World K) (u : UKey) : SQ K :=
  match w.convRef u with
  | some r => r
  | none => ⟨1, unitDim u⟩

section ref
variable [One K] [Mul K] [RPow K]

/-- One iteration of `rq = rq * u._reference**d` (`quantity.py` 142-143). -/
def refStep (w : World K) (rq : SQ K) (ud : UKey × ℚ) : SQ K :=
  let r := w.unitRef ud.1
  ⟨rq.mag * rpow r.mag ud.2, Dim.mul rq.dim (Dim.pow r.dim ud.2)⟩

/-- The loop of `Quantity._reference` (`quantity.py` 141-143) starting from
`1*unit_registry['dimensionless']`: the reference quantity of one unit of dimensionality `d`. -/
def refUnits (w : World K) (d : Dim) : SQ K := d.foldl (refStep w) ⟨1, []⟩

/-- `Quantity._reference` of a scalar quantity (`quantity.py` 138-144). -/
def reference (w : World K) (q : SQ K) : SQ K :=
  let rq := w.refUnits q.dim
  ⟨rq.mag * q.mag, rq.dim⟩

/-- `get_conversion_factor(Quantity(1.0, from), Quantity(1.0, to))` (`quantity.py` 48-54); the
failed assertion is `AssertionError`. -/
def convFactor [Div K] (w : World K) (fromD toD : Dim) : Py K :=
  let f := w.reference ⟨1, fromD⟩
  let t := w.reference ⟨1, toD⟩
  if w.deq f.dim t.dim then .ok (f.mag / t.mag) else .error .assertionError

/-- `Quantity.rescale(units)` on a scalar, after `validate_dimensionality` (`quantity.py` 223-241).
-/
def rescaleS [Div K] (w : World K) (q : SQ K) (toD : Dim) : Py (SQ K) :=
  if w.deq q.dim toD then .ok q
  else
    match w.convFactor q.dim toD with
    | .ok cf => .ok ⟨cf * q.mag, toD⟩
    | .error .assertionError => .error .valueError
    | .error e => .error e

/-- `self == other` for scalar quantities (`Quantity.__eq__`, `quantity.py` 465-471). -/
def eqS [Div K] [DecidableEq K] (w : World K) (self other : SQ K) : Bool :=
  match w.rescaleS other self.dim with
  | .ok o => decide (self.mag = o.mag)
  | .error _ => false

/-- `val == self.__context[string]` in `registry.py` 54, for two unit objects. -/
def unitEq [Div K] [DecidableEq K] (w : World K) (u v : UKey) : Bool :=
  w.eqS ⟨1, unitDim u⟩ ⟨1, unitDim v⟩

/-! ## Registering labels -/

/-- `unit_registry[label] = unit` (`registry.py` 49-60, 68-69). -/
def registrySet [Div K] [DecidableEq K] (w : World K) (label : String) (u : UKey) :
    Option PyErr × World K :=
  match Dict.get? w.registry label with
  | some v => if w.unitEq u v then (none, w) else (some .keyError, w)
  | none => (none, { w with registry := Dict.set w.registry label u })

/-- Register labels one after the other, stopping at the first exception. -/
def registryAll [Div K] [DecidableEq K] (w : World K) (u : UKey) :
    List String → Option PyErr × World K
  | [] => (none, w)
  | l :: ls =>
    match w.registrySet l u with
    | (none, w') => registryAll w' u ls
    | (some e, w') => (some e, w')

/-- The labels `__init__` registers, in order (`unitquantity.py` 76-80; `CompoundUnit` 378-380 and
`UnitConstant` 448-453 register nothing; `Dimensionless` 423 registers only its name).  An empty
symbol is falsy. -/
def labelsOf (cls : UClass) (name : String) (symbol : Option String) (aliases : List String) :
    List String :=
  match cls with
  | .compound | .constant => []
  | .dimensionless => [name]
  | _ =>
    name :: (match symbol with
      | some s => if s = "" then aliases else s :: aliases
      | none => aliases)

/-! ## Creating units -/

/-- The `definition` argument of a unit constructor: nothing, a bare number
(`definition *= dimensionless`, `unitquantity.py` 57-58), or a quantity. -/
inductive DefArg (K : Type _)
  | none
  | number (x : K)
  | quantity (q : SQ K)

/-- `_definition` after `unitquantity.py` 56-63. -/
def DefArg.toDef : DefArg K → Option (SQ K)
  | .none => Option.none
  | .number x => some ⟨x, []⟩
  | .quantity q => some q

/-- Arguments of a unit constructor. -/
structure NewUnit (K : Type _) where
  cls : UClass
  name : String
  definition : DefArg K
  symbol : Option String := none
  uSymbol : Option String := none
  aliases : List String := []

/-- The current `_secondary_order` seen from the class (attribute lookup falls back to
`UnitQuantity._secondary_order`, initially 0). -/
def counter (w : World K) (c : UClass) : Nat :=
  match w.counters c with
  | some n => n
  | none => (w.counters .unitQuantity).getD 0

/-- `UnitQuantity.__new__` (`unitquantity.py` 31-70): the object with its definition, its reference
computed once, and its number within the class.  `Dimensionless` numbers itself twice (67-68 and
420-421).  A second object of the same class and name hashes and compares like the first (its
dimensionality `{unit: 1}` has the same hash), so as a dict key it is the first one; the model keeps
the first. -/
def construct (w : World K) (a : NewUnit K) : World K :=
  let key : UKey := ⟨a.cls, a.name⟩
  let d := a.definition.toDef
  let n := w.counter a.cls
  let isDl := decide (a.cls = .dimensionless)
  let inf : UnitInfo K :=
    { definition := d, convRef := d.map w.reference, symbol := a.symbol, uSymbol := a.uSymbol,
      aliases := a.aliases, order := (a.cls.primaryOrder, if isDl then n + 1 else n) }
  { w with
    counters := fun c => if c = a.cls then some (if isDl then n + 2 else n + 1) else w.counters c
    units := match w.info key with
      | some _ => w.units
      | none => Dict.set w.units key inf }

/-- A constructor call: `__new__` followed by `__init__` (`unitquantity.py` 72-80, and the overrides
of `IrreducibleUnit` 294-303, `CompoundUnit` 375-380, `Dimensionless` 413-423, `UnitConstant`
448-453).  On a registry conflict the exception propagates, but the counter and the labels registered
before the conflict stay changed; the object itself stays reachable exactly when one of its labels
was stored. -/
def newUnit [Div K] [DecidableEq K] (w : World K) (a : NewUnit K) : Option PyErr × World K :=
  let key : UKey := ⟨a.cls, a.name⟩
  match (w.construct a).registryAll key (labelsOf a.cls a.name a.symbol a.aliases) with
  | (some e, w2) =>
    if w2.registry.any (fun kv => decide (kv.2 = key)) then (some e, w2)
    else (some e, { w2 with units := w.units })
  | (none, w2) =>
    if a.cls.irreducible && (w2.defaults a.cls).isNone then
      (none, { w2 with defaults := fun c => if c = a.cls then some (unitDim key) else w2.defaults c })
    else (none, w2)

/-! ## Default units -/

/-- The argument of `set_default_unit`: `None`, or a quantity (a string is looked up first, see
`Model/Registry.lean`); `mag` is its magnitude. -/
structure DefaultArg (K : Type _) where
  mag : K
  dim : Dim

/-- `IrreducibleUnit.set_default_unit` (`unitquantity.py` 312-323) for a unit object or the result
of looking a string up.  `get_conversion_factor` raises `ValueError` (turned into `TypeError`) when
an argument is not a quantity of magnitude 1 - in particular when the class has no default yet - and
`AssertionError` (not caught) when the two units are not convertible. -/
def setDefault [Div K] [DecidableEq K] (w : World K) (c : UClass) (a : Option (DefaultArg K)) :
    Option PyErr × World K :=
  match a with
  | none => (none, w)
  | some a =>
    match w.defaults c with
    | none => (some .typeError, w)
    | some cur =>
      if a.mag = 1 then
        match w.convFactor cur a.dim with
        | .ok _ =>
          (none, { w with defaults := fun c' => if c' = c then some a.dim else w.defaults c' })
        | .error e => (some e, w)
      else (some .typeError, w)

end ref
end World
end PQ
