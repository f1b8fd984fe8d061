import Verif.Model.Registry
import Verif.Model.Uncertain

/-!
# Pickling

`Quantity.__reduce__`, `__setstate__`, `_reconstruct_quantity` (`quantity.py` 791-818),
`UnitQuantity.__reduce__`, `__getstate__`, `__setstate__` (`unitquantity.py` 245-273), the overrides
of `CompoundUnit` (393-401) and `Dimensionless` (425-435), and `UncertainQuantity.__reduce__`,
`__setstate__` (`uncertainquantity.py` 273-286).

A pickle is the tree of what the `__reduce__` methods return; loading it calls the callables and then
`__setstate__`.  The byte format, the memo (which only shares repeated sub-trees) and the pickling of
plain arrays, numbers and strings belong to Python and numpy and are taken to be faithful.  `__doc__`
strings are left out.
-/

namespace PQ

open World

mutual
/-- What `__reduce__` of a unit returns. -/
inductive PUnit (K : Type _)
  /-- `type(self), (name, definition, symbol, u_symbol, aliases), (1, format_order)` -/
  | full (cls : UClass) (name : String) (definition : PDef K) (symbol uSymbol : Option String)
      (aliases : List String) (order : Nat × Nat)
  /-- `type(self), (name,), (1, format_order)` -/
  | byName (cls : UClass) (name : String) (order : Nat × Nat)
/-- A pickled definition: `None`, or a scalar quantity. -/
inductive PDef (K : Type _)
  | none
  | some (mag : K) (dims : PDims K)
/-- A pickled `Dimensionality`: the items of a dict whose keys are units. -/
inductive PDims (K : Type _)
  | nil
  | cons (u : PUnit K) (e : ℚ) (rest : PDims K)
end

/-- A unit object: class and name, and the attributes it carries itself. -/
structure UnitObj (K : Type _) where
  key : UKey
  info : UnitInfo K

/-- One component of the state tuple of an array. -/
inductive StateItem (U : Type _) (K : Type _)
  /-- the state of `ndarray.__reduce__` (shape, dtype, data) -/
  | array (a : NDArr K)
  /-- a `Dimensionality` -/
  | dims (d : U)
  /-- another quantity -/
  | quantity (a : NDArr K) (d : U)

/-- The class `__reduce__` names. -/
inductive ArrClass
  | quantity
  | uncertain
  deriving DecidableEq

/-- What `__reduce__` of an array returns: the class and the state. -/
structure PArray (U : Type _) (K : Type _) where
  cls : ArrClass
  state : List (StateItem U K)

/-- A quantity or uncertain quantity as an object: its magnitudes, its dimensionality and, if it is
uncertain, its `_uncertainty`. -/
structure ArrObj (U : Type _) (K : Type _) where
  cls : ArrClass
  mag : NDArr K
  dims : U
  unc : Option (NDArr K × U)

variable {K : Type _}

/-! ## Dumping -/

mutual
/-- `unit.__reduce__` (`unitquantity.py` 258-273, 393-401, 425-435) with the components pickled in
turn; `fuel` is the interpreter's recursion limit. -/
def dumpUnit (w : World K) : Nat → UKey → Py (PUnit K)
  | 0, _ => .error .recursionError
  | fuel + 1, u =>
    match w.info u with
    | none => .error .attributeError
    | some i =>
      if u.cls = .compound ∨ u.cls = .dimensionless then .ok (.byName u.cls u.name i.order)
      else
        match i.definition with
        | none => .ok (.full u.cls u.name .none i.symbol i.uSymbol i.aliases i.order)
        | some q =>
          match dumpDims w fuel q.dim with
          | .error e => .error e
          | .ok t => .ok (.full u.cls u.name (.some q.mag t) i.symbol i.uSymbol i.aliases i.order)
/-- The items of a `Dimensionality`. -/
def dumpDims (w : World K) : Nat → List (UKey × ℚ) → Py (PDims K)
  | _, [] => .ok .nil
  | fuel, (u, e) :: rest =>
    match dumpUnit w fuel u with
    | .error err => .error err
    | .ok t =>
      match dumpDims w fuel rest with
      | .error err => .error err
      | .ok r => .ok (.cons t e r)
end

/-- `Quantity.__reduce__` (`quantity.py` 797-805): the array's state followed by the dimensionality. -/
def ArrObj.reduceQuantity {U : Type _} (x : ArrObj U K) : PArray U K :=
  ⟨x.cls, [.array x.mag] ++ [.dims x.dims]⟩

/-- `__reduce__`; `UncertainQuantity` (`uncertainquantity.py` 280-286) extends the state of
`Quantity.__reduce__` by `_uncertainty`. -/
def ArrObj.reduce {U : Type _} (x : ArrObj U K) : PArray U K :=
  match x.unc with
  | none => x.reduceQuantity
  | some (a, d) => ⟨x.reduceQuantity.cls, x.reduceQuantity.state ++ [.quantity a d]⟩

/-- Replace the dimensionalities in a state. -/
def StateItem.mapM {U V : Type _} (f : U → Py V) : StateItem U K → Py (StateItem V K)
  | .array a => .ok (.array a)
  | .dims d => (f d).map .dims
  | .quantity a d => (f d).map (.quantity a)

/-- `pickle.dumps(q)`. -/
def dumpArray (w : World K) (fuel : Nat) (x : ArrObj Dim K) : Py (PArray (PDims K) K) :=
  (x.reduce.state.mapM (StateItem.mapM (dumpDims w fuel))).map (fun s => ⟨x.reduce.cls, s⟩)

/-! ## Loading -/

section
variable [One K] [Mul K] [Div K] [RPow K] [DecidableEq K]

/-- `unit._reference` of a unit object (`unitquantity.py` 88-93). -/
def UnitObj.ref (o : UnitObj K) : SQ K :=
  match o.info.convRef with
  | some r => r
  | none => ⟨1, unitDim o.key⟩

/-- `Quantity._reference` (`quantity.py` 138-144) of a scalar whose dimensionality consists of the
given unit objects. -/
def objsReference (mag : K) (us : List (UnitObj K × ℚ)) : SQ K :=
  let rq := us.foldl (fun rq ud => ⟨rq.mag * rpow ud.1.ref.mag ud.2,
    Dim.mul rq.dim (Dim.pow ud.1.ref.dim ud.2)⟩) (⟨1, []⟩ : SQ K)
  ⟨rq.mag * mag, rq.dim⟩

/-- Keys of the unit objects. -/
def objsDim (us : List (UnitObj K × ℚ)) : Dim := us.map (fun ud => (ud.1.key, ud.2))

/-- Calling a unit class (`unitquantity.py` 31-80, 294-303) with attributes already computed, then
`__setstate__` (254-256) which replaces `_format_order`.  Like `World.newUnit`; an object whose class
and name exist already is a new object, and the process keeps using the old one as dict key. -/
def World.instantiate (w : World K) (u : UKey) (i : UnitInfo K) (order : Nat × Nat) :
    Py (UnitObj K) × World K :=
  let n := w.counter u.cls
  let isDl := decide (u.cls = .dimensionless)
  let fresh := (w.info u).isNone
  let w1 : World K :=
    { w with
      counters := fun c => if c = u.cls then some (if isDl then n + 2 else n + 1) else w.counters c
      units := if fresh then Dict.set w.units u { i with order := (u.cls.primaryOrder, n) } else w.units }
  match w1.registryAll u (labelsOf u.cls u.name i.symbol i.aliases) with
  | (some e, w2) => (.error e, w2)
  | (none, w2) =>
    let w3 : World K :=
      if u.cls.irreducible && (w2.defaults u.cls).isNone then
        { w2 with defaults := fun c => if c = u.cls then some (unitDim u) else w2.defaults c }
      else w2
    let i' := { i with order := order }
    (.ok ⟨u, i'⟩, { w3 with units := if fresh then Dict.set w3.units u i' else w3.units })

/-- The `definition` argument of a unit: the quantity and its reference, computed from the unit
objects it consists of. -/
abbrev LoadedDef (K : Type _) := Option (SQ K × SQ K)

/-- The definition `CompoundUnit.__new__` passes on (`unitquantity.py` 375-376, 56-60): what the
registry makes of the name. -/
def compoundDef [Neg K] [RatCast K] (P : List Char → Py PyAST) (F : PyOps K) (w : World K) (name : String) :
    Py (SQ K) :=
  match w.lookup P F name.toList with
  | .error e => .error e
  | .ok (.unit u) => .ok ⟨1, unitDim u⟩
  | .ok (.qty q) => .ok q
  | .ok (.const (.num x)) => .ok ⟨(x : K), []⟩
  | .ok _ => .error .typeError

variable [Neg K] [RatCast K]

mutual
/-- Unpickling a unit. -/
def loadUnit (P : List Char → Py PyAST) (F : PyOps K) (w : World K) : PUnit K → Py (UnitObj K) × World K
  | .full cls name d symbol uSymbol aliases order =>
    match loadDef P F w d with
    | (.error e, w1) => (.error e, w1)
    | (.ok d, w1) =>
      w1.instantiate ⟨cls, name⟩
        { definition := d.map Prod.fst, convRef := d.map Prod.snd, symbol := symbol,
          uSymbol := uSymbol, aliases := aliases, order := (cls.primaryOrder, w1.counter cls) } order
  | .byName cls name order =>
    if cls = .compound then
      match compoundDef P F w name with
      | .error e => (.error e, w)
      | .ok q =>
        w.instantiate ⟨cls, name⟩
          { definition := some q, convRef := some (w.reference q), symbol := none, uSymbol := none,
            aliases := [], order := (cls.primaryOrder, w.counter cls) } order
    else
      w.instantiate ⟨cls, name⟩
        { definition := none, convRef := none, symbol := none, uSymbol := none, aliases := [],
          order := (cls.primaryOrder, w.counter cls) } order
/-- Unpickling a definition. -/
def loadDef (P : List Char → Py PyAST) (F : PyOps K) (w : World K) : PDef K → Py (LoadedDef K) × World K
  | .none => (.ok none, w)
  | .some mag ds =>
    match loadDims P F w ds with
    | (.error e, w1) => (.error e, w1)
    | (.ok us, w1) => (.ok (some (⟨mag, objsDim us⟩, objsReference mag us)), w1)
/-- Unpickling the items of a `Dimensionality`. -/
def loadDims (P : List Char → Py PyAST) (F : PyOps K) (w : World K) :
    PDims K → Py (List (UnitObj K × ℚ)) × World K
  | .nil => (.ok [], w)
  | .cons t e rest =>
    match loadUnit P F w t with
    | (.error err, w1) => (.error err, w1)
    | (.ok o, w1) =>
      match loadDims P F w1 rest with
      | (.error err, w2) => (.error err, w2)
      | (.ok os, w2) => (.ok ((o, e) :: os), w2)
end

/-- Unpickling one component of a state. -/
def loadItem (P : List Char → Py PyAST) (F : PyOps K) (w : World K) :
    StateItem (PDims K) K → Py (StateItem (List (UnitObj K × ℚ)) K) × World K
  | .array a => (.ok (.array a), w)
  | .dims d =>
    match loadDims P F w d with
    | (.error e, w1) => (.error e, w1)
    | (.ok d, w1) => (.ok (.dims d), w1)
  | .quantity a d =>
    match loadDims P F w d with
    | (.error e, w1) => (.error e, w1)
    | (.ok d, w1) => (.ok (.quantity a d), w1)

/-- Unpickling a state, left to right. -/
def loadItems (P : List Char → Py PyAST) (F : PyOps K) (w : World K) :
    List (StateItem (PDims K) K) → Py (List (StateItem (List (UnitObj K × ℚ)) K)) × World K
  | [] => (.ok [], w)
  | s :: ss =>
    match loadItem P F w s with
    | (.error e, w1) => (.error e, w1)
    | (.ok s, w1) =>
      match loadItems P F w1 ss with
      | (.error e, w2) => (.error e, w2)
      | (.ok ss, w2) => (.ok (s :: ss), w2)

end

/-- `_reconstruct_quantity` (`quantity.py` 812-818): an empty array of the class, without units; an
uncertain quantity has zero uncertainty. -/
def ArrObj.blank {U : Type _} [Inhabited U] [Zero K] (cls : ArrClass) : ArrObj U K :=
  ⟨cls, ⟨[0], fun _ => 0⟩, default,
    match cls with
    | .quantity => none
    | .uncertain => some (⟨[0], fun _ => 0⟩, default)⟩

/-- `np.ndarray.__setstate__(self, state)`. -/
def ArrObj.setArray {U : Type _} (x : ArrObj U K) : List (StateItem U K) → Py (ArrObj U K)
  | [.array a] => .ok { x with mag := a }
  | _ => .error .typeError

/-- `__setstate__` (`quantity.py` 791-795; `uncertainquantity.py` 273-278). -/
def ArrObj.setState {U : Type _} (x : ArrObj U K) (state : List (StateItem U K)) : Py (ArrObj U K) :=
  match x.cls with
  | .quantity =>
    match x.setArray state.dropLast, state.getLast? with
    | .ok x, some (.dims d) => .ok { x with dims := d }
    | .error e, _ => .error e
    | _, _ => .error .typeError
  | .uncertain =>
    match x.setArray state.dropLast.dropLast, state.dropLast.getLast?, state.getLast? with
    | .ok x, some (.dims d), some (.quantity a e) => .ok { x with dims := d, unc := some (a, e) }
    | .error e, _, _ => .error e
    | _, _, _ => .error .typeError

/-- `pickle.loads(s)` for an array. -/
def loadArray [One K] [Zero K] [Mul K] [Div K] [Neg K] [RPow K] [DecidableEq K] [RatCast K]
    (P : List Char → Py PyAST) (F : PyOps K) (w : World K) (p : PArray (PDims K) K) :
    Py (ArrObj (List (UnitObj K × ℚ)) K) × World K :=
  match loadItems P F w p.state with
  | (.error e, w1) => (.error e, w1)
  | (.ok s, w1) => ((ArrObj.blank p.cls).setState s, w1)

end PQ
