import Verif.Model.Quantity

/-!
# Unit objects

`Model/World.lean` identifies a unit with its class and name, as `UnitQuantity.__hash__` and `==` do.  Here units
are the objects themselves: two objects may have the same class and name (a copy, an unpickled unit, a second
definition), each with its own definition and reference.  A `Dimensionality` is a dict whose keys are objects, and
finding a key means finding an object with the same hash that compares equal; that is an object with the same
class and name (`unitquantity.py` 85-86; `u == v` compares `{u: 1}` and `{v: 1}` by their hashes, `quantity.py`
465-471, 223-230).  A dict keeps the key object inserted first.
-/

namespace PQ.Obj

/-- A `Dimensionality` whose keys are unit objects, given by their number. -/
abbrev ODim := List (Nat × ℚ)

/-- A scalar quantity. -/
structure OSQ (K : Type _) where
  mag : K
  dim : ODim

/-- A unit object (`unitquantity.py` 47-70). -/
structure OUnit (K : Type _) where
  /-- class and `_name` -/
  key : UKey
  definition : Option (OSQ K)
  /-- `_conv_ref` -/
  convRef : Option (OSQ K)
  symbol : Option String
  uSymbol : Option String
  aliases : List String
  /-- `_format_order` -/
  order : Nat × Nat

/-- The state of the library, as `World`, with the list of the unit objects. -/
structure OWorld (K : Type _) where
  hasher : Hasher
  objs : List (OUnit K)
  registry : Dict String Nat
  defaults : UClass → Option ODim
  counters : UClass → Option Nat

variable {K : Type _}

namespace OWorld

/-- Class and name of an object. -/
def key (w : OWorld K) (i : Nat) : UKey :=
  match w.objs[i]? with
  | some o => o.key
  | none => ⟨.dimensionless, ""⟩

/-- `unit.format_order` (`unitquantity.py` 99-101). -/
def order (w : OWorld K) (i : Nat) : Nat × Nat :=
  match w.objs[i]? with
  | some o => o.order
  | none => (100, 0)

/-- `unit._conv_ref`. -/
def convRef (w : OWorld K) (i : Nat) : Option (OSQ K) := (w.objs[i]?).bind OUnit.convRef

/-! ## `Dimensionality` (`dimensionality.py`) -/

/-- `d.get(u)`. -/
def get? (w : OWorld K) : ODim → Nat → Option ℚ
  | [], _ => none
  | (k', v) :: d, k => if w.key k' = w.key k then some v else get? w d k

/-- `d[u] = v`: an existing key object stays. -/
def set (w : OWorld K) : ODim → Nat → ℚ → ODim
  | [], k, v => [(k, v)]
  | (k', v') :: d, k, v => if w.key k' = w.key k then (k', v) :: d else (k', v') :: set w d k v

/-- `d.pop(u)`. -/
def pop (w : OWorld K) : ODim → Nat → ODim
  | [], _ => []
  | (k', v') :: d, k => if w.key k' = w.key k then d else (k', v') :: pop w d k

/-- One iteration of `__mul__` (`dimensionality.py` 120-126). -/
def mulStep (w : OWorld K) (new : ODim) (kv : Nat × ℚ) : ODim :=
  match w.get? new kv.1 with
  | some e =>
      let new := w.set new kv.1 (e + kv.2)
      if e + kv.2 = 0 then w.pop new kv.1 else new
  | none => w.set new kv.1 kv.2

/-- `Dimensionality.__mul__` (`dimensionality.py` 117-127). -/
def dmul (w : OWorld K) (self other : ODim) : ODim := other.foldl w.mulStep self

/-- One iteration of `__truediv__` (`dimensionality.py` 143-149). -/
def divStep (w : OWorld K) (new : ODim) (kv : Nat × ℚ) : ODim :=
  match w.get? new kv.1 with
  | some e =>
      let new := w.set new kv.1 (e - kv.2)
      if e - kv.2 = 0 then w.pop new kv.1 else new
  | none => w.set new kv.1 (-kv.2)

/-- `Dimensionality.__truediv__` (`dimensionality.py` 140-150). -/
def ddiv (w : OWorld K) (self other : ODim) : ODim := other.foldl w.divStep self

/-- `Dimensionality.__pow__` (`dimensionality.py` 163-173). -/
def dpow (self : ODim) (p : ℚ) : ODim := if p = 0 then [] else self.map (fun kv => (kv.1, kv.2 * p))

/-- The items in the `format_order` of the key objects (`dimensionality.py` 61; `markup.py` 53). -/
def sortedItems (w : OWorld K) (d : ODim) : List (Nat × ℚ) :=
  d.mergeSort (fun a b => orderLE (w.order a.1) (w.order b.1))

/-- `Dimensionality.__hash__` (`dimensionality.py` 59-67) and the builtin `hash`. -/
def hash (w : OWorld K) (d : ODim) : BitVec 64 :=
  let r := (w.sortedItems d).foldl
    (fun res kv => res ^^^ w.hasher.item (w.key kv.1) (hashedExponent kv.2)) w.hasher.base
  if r = -1#64 then -2#64 else r

/-- `==` on dimensionalities (`dimensionality.py` 197-198). -/
def deq (w : OWorld K) (a b : ODim) : Bool := w.hash a == w.hash b

/-- `!=` on dimensionalities (`dimensionality.py` 200-201). -/
def dne (w : OWorld K) (a b : ODim) : Bool := w.hash a != w.hash b

/-- `unit._dimensionality` (`unitquantity.py` 95-97, 437-439). -/
def unitDim (w : OWorld K) (i : Nat) : ODim := if (w.key i).cls = .dimensionless then [] else [(i, 1)]

/-- `unit._reference` (`unitquantity.py` 88-93): the object's own reference. -/
def unitRef [One K] (w : OWorld K) (i : Nat) : OSQ K :=
  match w.convRef i with
  | some r => r
  | none => ⟨1, w.unitDim i⟩

section ref
variable [One K] [Mul K] [RPow K]

/-- One iteration of `Quantity._reference` (`quantity.py` 142-143). -/
def refStep (w : OWorld K) (rq : OSQ K) (ud : Nat × ℚ) : OSQ K :=
  let r := w.unitRef ud.1
  ⟨rq.mag * rpow r.mag ud.2, w.dmul rq.dim (dpow r.dim ud.2)⟩

/-- The reference quantity of one unit of dimensionality `d` (`quantity.py` 141-143). -/
def refUnits (w : OWorld K) (d : ODim) : OSQ K := d.foldl (refStep w) ⟨1, []⟩

/-- `Quantity._reference` of a scalar (`quantity.py` 138-144). -/
def reference (w : OWorld K) (q : OSQ K) : OSQ K :=
  let rq := w.refUnits q.dim
  ⟨rq.mag * q.mag, rq.dim⟩

/-- `get_conversion_factor` (`quantity.py` 48-54). -/
def convFactor [Div K] (w : OWorld K) (fromD toD : ODim) : Py K :=
  let f := w.reference ⟨1, fromD⟩
  let t := w.reference ⟨1, toD⟩
  if w.deq f.dim t.dim then .ok (f.mag / t.mag) else .error .assertionError

/-- `Quantity.rescale` on a scalar (`quantity.py` 223-241). -/
def rescaleS [Div K] (w : OWorld K) (q : OSQ K) (toD : ODim) : Py (OSQ K) :=
  if w.deq q.dim toD then .ok q
  else
    match w.convFactor q.dim toD with
    | .ok cf => .ok ⟨cf * q.mag, toD⟩
    | .error .assertionError => .error .valueError
    | .error e => .error e

/-- `self == other` for scalars (`quantity.py` 465-471). -/
def eqS [Div K] [DecidableEq K] (w : OWorld K) (self other : OSQ K) : Bool :=
  match w.rescaleS other self.dim with
  | .ok o => decide (self.mag = o.mag)
  | .error _ => false

/-- `u == v` for two unit objects. -/
def unitEq [Div K] [DecidableEq K] (w : OWorld K) (u v : Nat) : Bool :=
  w.eqS ⟨1, w.unitDim u⟩ ⟨1, w.unitDim v⟩

/-- `hash(u)` (`unitquantity.py` 85-86). -/
def unitHash (w : OWorld K) (u : Nat) : Int := w.hasher.key (w.key u)

/-! ## Registry and constructors -/

/-- `unit_registry[label] = unit` (`registry.py` 49-60). -/
def registrySet [Div K] [DecidableEq K] (w : OWorld K) (label : String) (u : Nat) : Option PyErr × OWorld K :=
  match Dict.get? w.registry label with
  | some v => if w.unitEq u v then (none, w) else (some .keyError, w)
  | none => (none, { w with registry := Dict.set w.registry label u })

/-- The registrations of `__init__` (`unitquantity.py` 76-80), up to the first exception. -/
def registryAll [Div K] [DecidableEq K] (w : OWorld K) (u : Nat) : List String → Option PyErr × OWorld K
  | [] => (none, w)
  | l :: ls =>
    match w.registrySet l u with
    | (none, w') => registryAll w' u ls
    | (some e, w') => (some e, w')

/-- Arguments of a unit constructor; a bare number as definition has become a quantity without units
(`unitquantity.py` 57-58). -/
structure NewArgs (K : Type _) where
  cls : UClass
  name : String
  definition : Option (OSQ K)
  symbol : Option String := none
  uSymbol : Option String := none
  aliases : List String := []

/-- The current `_secondary_order` (`unitquantity.py` 26, 67-68). -/
def counter (w : OWorld K) (c : UClass) : Nat :=
  match w.counters c with
  | some n => n
  | none => (w.counters .unitQuantity).getD 0

/-- `UnitQuantity.__new__` (`unitquantity.py` 31-70): a new object, always. -/
def construct (w : OWorld K) (a : NewArgs K) : OWorld K :=
  let n := w.counter a.cls
  let isDl := decide (a.cls = .dimensionless)
  { w with
    counters := fun c => if c = a.cls then some (if isDl then n + 2 else n + 1) else w.counters c
    objs := w.objs ++ [⟨⟨a.cls, a.name⟩, a.definition, a.definition.map w.reference, a.symbol, a.uSymbol,
      a.aliases, (a.cls.primaryOrder, if isDl then n + 1 else n)⟩] }

/-- A constructor call (`unitquantity.py` 31-80, 294-303, 375-380, 413-423, 448-453).  After an exception the new
object is garbage unless a label was bound to it. -/
def newUnit [Div K] [DecidableEq K] (w : OWorld K) (a : NewArgs K) : Option PyErr × OWorld K :=
  let i := w.objs.length
  match (w.construct a).registryAll i (World.labelsOf a.cls a.name a.symbol a.aliases) with
  | (some e, w2) =>
    if w2.registry.any (fun kv => decide (kv.2 = i)) then (some e, w2)
    else (some e, { w2 with objs := w.objs })
  | (none, w2) =>
    if a.cls.irreducible && (w2.defaults a.cls).isNone then
      (none, { w2 with defaults := fun c => if c = a.cls then some (w2.unitDim i) else w2.defaults c })
    else (none, w2)

/-- `unit.copy()` (`unitquantity.py` 275-285): calls the class with the attributes of the object.
`Dimensionless.__init__` (413) takes at most two arguments and is given six: `TypeError`, after `__new__` has
counted the object (67-68).  Simplification: `CompoundUnit.copy` (403-404) evaluates the name in the registry again
instead of reusing the definition; labels are never rebound, so it finds the same definition. -/
def copy [Div K] [DecidableEq K] (w : OWorld K) (i : Nat) : Option PyErr × OWorld K :=
  match w.objs[i]? with
  | none => (some .attributeError, w)
  | some o =>
    if o.key.cls = .dimensionless then
      (some .typeError, { w with counters := fun c =>
        if c = .dimensionless then some (w.counter .dimensionless + 1) else w.counters c })
    else w.newUnit ⟨o.key.cls, o.key.name, o.definition, o.symbol, o.uSymbol, o.aliases⟩

/-- `IrreducibleUnit.set_default_unit` (`unitquantity.py` 312-323); magnitude and units of the argument. -/
def setDefault [Div K] [DecidableEq K] (w : OWorld K) (c : UClass) (a : Option (OSQ K)) : Option PyErr × OWorld K :=
  match a with
  | none => (none, w)
  | some a =>
    match w.defaults c with
    | none => (some .typeError, w)
    | some cur =>
      if a.mag = 1 then
        match w.convFactor cur a.dim with
        | .ok _ => (none, { w with defaults := fun c' => if c' = c then some a.dim else w.defaults c' })
        | .error e => (some e, w)
      else (some .typeError, w)

end ref
end OWorld

/-! ## Quantities -/

/-- A quantity whose dimensionality has unit objects as keys. -/
structure OQ (K : Type _) where
  mag : NDArr K
  dim : ODim

/-- A quantity or a plain array. -/
inductive OOperand (K : Type _)
  | quantity (q : OQ K)
  | array (a : NDArr K)

namespace OQ
section
variable [One K] [Mul K] [Div K] [RPow K]

/-- `Quantity.rescale` (`quantity.py` 223-241). -/
def rescale (w : OWorld K) (q : OQ K) (toD : ODim) : Py (OQ K) :=
  if w.deq q.dim toD then .ok q
  else
    match w.convFactor q.dim toD with
    | .ok cf => .ok ⟨q.mag.map (fun x => cf * x), toD⟩
    | .error .assertionError => .error .valueError
    | .error e => .error e

/-- `scale_other_units` (`quantity.py` 56-65). -/
def scaleOther (w : OWorld K) (self : OQ K) (other : OOperand K) : Py (OQ K) :=
  let o : OQ K := match other with
    | .quantity q => q
    | .array a => ⟨a, []⟩
  if w.dne o.dim self.dim then o.rescale w self.dim else .ok o

/-- A ufunc of two quantities with the `_d_check_uniform` rule (`dimensionality.py` 246-273). -/
def uniform (w : OWorld K) (g : K → K → K) (a b : OQ K) : Py (OQ K) :=
  if w.deq a.dim b.dim then
    match NDArr.bin g a.mag b.mag with
    | .error e => .error e
    | .ok m => .ok ⟨m, a.dim⟩
  else .error .valueError

/-- `Quantity.__add__` (`quantity.py` 336-339). -/
def add [Add K] (w : OWorld K) (self : OQ K) (other : OOperand K) : Py (OQ K) :=
  match scaleOther w self other with
  | .error e => .error e
  | .ok o => uniform w (· + ·) self o

/-- `Quantity.__sub__` (`quantity.py` 352-355). -/
def sub [Sub K] (w : OWorld K) (self : OQ K) (other : OOperand K) : Py (OQ K) :=
  match scaleOther w self other with
  | .error e => .error e
  | .ok o => uniform w (· - ·) self o

/-- `Quantity.__mul__` with `_d_multiply` (`dimensionality.py` 223-230). -/
def mul (w : OWorld K) (self : OQ K) (other : OOperand K) : Py (OQ K) :=
  match other with
  | .quantity o => (NDArr.bin (· * ·) self.mag o.mag).map (fun m => ⟨m, w.dmul self.dim o.dim⟩)
  | .array a => (NDArr.bin (· * ·) self.mag a).map (fun m => ⟨m, self.dim⟩)

/-- `Quantity.__truediv__` with `_d_divide` (`dimensionality.py` 234-241). -/
def truediv (w : OWorld K) (self : OQ K) (other : OOperand K) : Py (OQ K) :=
  match other with
  | .quantity o => (NDArr.bin (· / ·) self.mag o.mag).map (fun m => ⟨m, w.ddiv self.dim o.dim⟩)
  | .array a => (NDArr.bin (· / ·) self.mag a).map (fun m => ⟨m, self.dim⟩)

omit [One K] [Mul K] [Div K] in
/-- `Quantity.__pow__` with plain numbers as exponent (`quantity.py` 78-89, 398-401, `dimensionality.py`
302-312). -/
def pow (self : OQ K) (vals : NDArr ℚ) : Py (OQ K) :=
  match uniformExp vals with
  | .error e => .error e
  | .ok p => (NDArr.bin (fun x p => rpow x p) self.mag vals).map (fun m => ⟨m, OWorld.dpow self.dim p⟩)

/-- The comparison operators with another quantity (`quantity.py` 102-110, 454-462, 482-490). -/
def compare (r : K → K → Bool) (w : OWorld K) (self other : OQ K) : Py (NDArr Bool) :=
  if w.dne other.dim self.dim then
    match other.rescale w self.dim with
    | .ok o => NDArr.bin r self.mag o.mag
    | .error e => .error e
  else NDArr.bin r self.mag other.mag

/-- `Quantity.__eq__` with another quantity (`quantity.py` 465-471). -/
def eq [DecidableEq K] (w : OWorld K) (self other : OQ K) : Py (NDArr Bool) :=
  match other.rescale w self.dim with
  | .ok o => NDArr.bin (fun x y => decide (x = y)) self.mag o.mag
  | .error .valueError => .ok ⟨self.mag.shape, fun _ => false⟩
  | .error e => .error e

end
end OQ

/-! ## `simplified` -/

section simplified
variable [One K] [Mul K] [Div K] [RPow K]

mutual
/-- `unit.simplified` (`unitquantity.py` 114-116, 305-307). -/
def unitSimplified (w : OWorld K) : Nat → Nat → Py (OSQ K)
  | 0, _ => .error .recursionError
  | fuel + 1, u =>
    if (w.key u).cls.irreducible then
      match w.defaults (w.key u).cls with
      | some dflt => w.rescaleS ⟨1, w.unitDim u⟩ dflt
      | none => .error .exception
    else
      match w.convRef u with
      | none => unitSimplified w fuel u
      | some r => scalarSimplified w fuel r

/-- `Quantity.simplified` of a scalar (`quantity.py` 176-181). -/
def scalarSimplified (w : OWorld K) : Nat → OSQ K → Py (OSQ K)
  | 0, _ => .error .recursionError
  | fuel + 1, q =>
    match simplifiedLoop w fuel ⟨1, []⟩ q.dim with
    | .ok rq => .ok ⟨rq.mag * q.mag, rq.dim⟩
    | .error e => .error e

/-- The loop `rq = rq * u.simplified**d` (`quantity.py` 179-180). -/
def simplifiedLoop (w : OWorld K) : Nat → OSQ K → List (Nat × ℚ) → Py (OSQ K)
  | _, rq, [] => .ok rq
  | fuel, rq, (u, d) :: rest =>
    match unitSimplified w fuel u with
    | .error e => .error e
    | .ok s => simplifiedLoop w fuel ⟨rq.mag * rpow s.mag d, w.dmul rq.dim (OWorld.dpow s.dim d)⟩ rest
end

/-- `Quantity.simplified` (`quantity.py` 176-181). -/
def OQ.simplified (w : OWorld K) (fuel : Nat) (q : OQ K) : Py (OQ K) :=
  match simplifiedLoop w fuel ⟨1, []⟩ q.dim with
  | .ok rq => .ok ⟨q.mag.map (fun x => rq.mag * x), rq.dim⟩
  | .error e => .error e

end simplified
end PQ.Obj
