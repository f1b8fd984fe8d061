import Verif.Model.Quantity

/-!
# Several threads

CPython runs one bytecode at a time, so loading or storing one attribute or one dict item is atomic
and anything longer can be interrupted.  A thread that only computes with quantities is a `Prog`: a
program that looks at the shared state (the `World`) any number of times; every look may see a
different state.  A thread that creates a unit or changes a default unit is a little state machine,
one constructor for every point where it can be interrupted.

Simplifications.
* A look reads one attribute of one unit object (its `_conv_ref`), one class attribute
  (`_default_unit`), or hashes one dimensionality.  The latter takes several attribute loads
  (`format_order` of each key), but its result does not depend on them.
* `Dimensionless` (created once, while the package is imported) is not created by threads here.
* A unit object exists from the moment its last attribute is set; an object whose registration failed
  stays in the model's table of objects, where nothing refers to it.
* The comparison `val == self.__context[string]` when a label is taken is one step.
-/

namespace PQ

universe u v v'

/-- A computation that looks at the shared state from time to time. -/
inductive Prog (K : Type u) (α : Type v) : Type (max u v)
  | ret (a : α)
  | read (f : World K → Prog K α)

namespace Prog

variable {K : Type u} {α : Type v} {β : Type v'}

/-- Sequential composition. -/
def bind : Prog K α → (α → Prog K β) → Prog K β
  | ret a, g => g a
  | read f, g => read fun w => (f w).bind g

/-- Sequential composition of computations that may raise. -/
def andThen (p : Prog K (Py α)) (g : α → Prog K (Py β)) : Prog K (Py β) :=
  p.bind fun
    | .error e => ret (.error e)
    | .ok a => g a

/-- The computation executed without interruption. -/
def alone (w : World K) : Prog K α → α
  | ret a => a
  | read f => (f w).alone w

end Prog

variable {K : Type u}

/-! ## Computations with quantities -/

section
variable [One K] [Mul K] [Div K] [RPow K]

/-- `unit._reference` (`unitquantity.py` 88-93). -/
def unitRefP (u : UKey) : Prog K (SQ K) := .read fun w => .ret (w.unitRef u)

/-- The loop of `Quantity._reference` (`quantity.py` 141-143): one unit's reference after the other. -/
def refLoopP : SQ K → List (UKey × ℚ) → Prog K (SQ K)
  | rq, [] => .ret rq
  | rq, ud :: rest => (unitRefP ud.1).bind fun r =>
      refLoopP ⟨rq.mag * rpow r.mag ud.2, Dim.mul rq.dim (Dim.pow r.dim ud.2)⟩ rest

/-- `Quantity._reference` of a scalar quantity (`quantity.py` 138-144). -/
def referenceP (q : SQ K) : Prog K (SQ K) :=
  (refLoopP ⟨1, []⟩ q.dim).bind fun rq => .ret ⟨rq.mag * q.mag, rq.dim⟩

/-- `hash(d)` (`dimensionality.py` 59-67). -/
def hashP (d : Dim) : Prog K (BitVec 64) :=
  .read fun w => .ret (Dim.hash w.hasher w.order d)

/-- `d1 == d2` (`dimensionality.py` 197-198). -/
def deqP (a b : Dim) : Prog K Bool :=
  (hashP a).bind fun x => (hashP b).bind fun y => .ret (x == y)

/-- `get_conversion_factor` (`quantity.py` 48-54). -/
def convFactorP (fromD toD : Dim) : Prog K (Py K) :=
  (referenceP ⟨1, fromD⟩).bind fun f => (referenceP ⟨1, toD⟩).bind fun t =>
    (deqP f.dim t.dim).bind fun b =>
      .ret (if b then .ok (f.mag / t.mag) else .error .assertionError)

/-- `Quantity.rescale` (`quantity.py` 223-241). -/
def rescaleP (q : Quantity K) (toD : Dim) : Prog K (Py (Quantity K)) :=
  (deqP q.dim toD).bind fun b =>
    if b then .ret (.ok q)
    else (convFactorP q.dim toD).bind fun
      | .ok cf => .ret (.ok ⟨q.mag.map (fun x => cf * x), toD⟩)
      | .error .assertionError => .ret (.error .valueError)
      | .error e => .ret (.error e)

/-- `scale_other_units` (`quantity.py` 56-65). -/
def scaleOtherP (self : Quantity K) (other : Operand K) : Prog K (Py (Quantity K)) :=
  (deqP other.toQuantity.dim self.dim).bind fun b =>
    if b then .ret (.ok other.toQuantity) else rescaleP other.toQuantity self.dim

/-- `self + other`, `self - other` (`quantity.py` 336-339, 352-355): the operand is converted, numpy
computes, `_d_check_uniform` compares the units once more (`dimensionality.py` 246-256). -/
def addLikeP (g : K → K → K) (self : Quantity K) (other : Operand K) : Prog K (Py (Quantity K)) :=
  (scaleOtherP self other).andThen fun o =>
    (deqP self.dim o.dim).bind fun b =>
      .ret (if b then
          match NDArr.bin g self.mag o.mag with
          | .error e => .error e
          | .ok m => .ok ⟨m, self.dim⟩
        else .error .valueError)

/-- `<`, `<=`, `>=`, `>` (`quantity.py` 102-110, 454-490). -/
def compareP (r : K → K → Bool) (self : Quantity K) (other : Operand K) :
    Prog K (Py (NDArr Bool)) :=
  match other with
  | .array a => .ret (NDArr.bin r self.mag a)
  | .quantity o =>
    (deqP o.dim self.dim).bind fun b =>
      if b then .ret (NDArr.bin r self.mag o.mag)
      else (rescaleP o self.dim).bind fun
        | .error e => .ret (.error e)
        | .ok o' => .ret (NDArr.bin r self.mag o'.mag)

/-- `Quantity.rescale` of a scalar. -/
def rescaleSP (q : SQ K) (toD : Dim) : Prog K (Py (SQ K)) :=
  (deqP q.dim toD).bind fun b =>
    if b then .ret (.ok q)
    else (convFactorP q.dim toD).bind fun
      | .ok cf => .ret (.ok ⟨cf * q.mag, toD⟩)
      | .error .assertionError => .ret (.error .valueError)
      | .error e => .ret (.error e)

mutual
/-- `unit.simplified` (`unitquantity.py` 114-116, 305-307): the class's default unit is looked up
anew for every unit. -/
def unitSimplifiedP : Nat → UKey → Prog K (Py (SQ K))
  | 0, _ => .ret (.error .recursionError)
  | fuel + 1, u =>
    if u.cls.irreducible then
      .read fun w =>
        match w.defaults u.cls with
        | some dflt => rescaleSP ⟨1, unitDim u⟩ dflt
        | none => .ret (.error .exception)
    else
      .read fun w =>
        match w.convRef u with
        | none => unitSimplifiedP fuel u
        | some r => scalarSimplifiedP fuel r

/-- `Quantity.simplified` of a scalar (`quantity.py` 176-181). -/
def scalarSimplifiedP : Nat → SQ K → Prog K (Py (SQ K))
  | 0, _ => .ret (.error .recursionError)
  | fuel + 1, q => (simplifiedLoopP fuel ⟨1, []⟩ q.dim).andThen fun rq =>
      .ret (.ok ⟨rq.mag * q.mag, rq.dim⟩)

/-- The loop `rq = rq * u.simplified**d` (`quantity.py` 179-180). -/
def simplifiedLoopP : Nat → SQ K → List (UKey × ℚ) → Prog K (Py (SQ K))
  | _, rq, [] => .ret (.ok rq)
  | fuel, rq, (u, d) :: rest => (unitSimplifiedP fuel u).andThen fun s =>
      simplifiedLoopP fuel ⟨rq.mag * rpow s.mag d, Dim.mul rq.dim (Dim.pow s.dim d)⟩ rest
end

/-- `Quantity.simplified` (`quantity.py` 176-181). -/
def simplifiedP (fuel : Nat) (q : Quantity K) : Prog K (Py (Quantity K)) :=
  (simplifiedLoopP fuel ⟨1, []⟩ q.dim).andThen fun rq =>
    .ret (.ok ⟨q.mag.map (fun x => rq.mag * x), rq.dim⟩)

/-! ## Threads that change the shared state -/

/-- A constructor call `UnitLength(name, definition, ...)` at each point where it can be interrupted
(`unitquantity.py` 56-80, 294-303; `registry.py` 49-60). -/
inductive Creator (K : Type u)
  /-- computing `definition._reference` (line 60) -/
  | defining (a : World.NewUnit K) (p : Prog K (Option (SQ K)))
  /-- about to read the class's number for `_format_order` (line 67) -/
  | numbering (a : World.NewUnit K) (ref : Option (SQ K))
  /-- about to load the number again for `+= 1` (line 68) -/
  | counting (a : World.NewUnit K)
  /-- about to store the number (line 68) -/
  | counted (a : World.NewUnit K) (n : Nat)
  /-- about to test whether the next label is taken (`registry.py` 51-54) -/
  | labelling (a : World.NewUnit K) (labels : List String)
  /-- the label was free; about to store it (`registry.py` 60) -/
  | binding (a : World.NewUnit K) (label : String) (labels : List String)
  /-- about to test `cls._default_unit is None` (line 302) -/
  | defaulting (a : World.NewUnit K)
  /-- it was; about to set it (line 303) -/
  | setting (a : World.NewUnit K)
  | done (a : World.NewUnit K) (e : Option PyErr)

/-- A call `cls.set_default_unit(unit)` at each point where it can be interrupted
(`unitquantity.py` 312-323). -/
inductive Setter (K : Type u)
  /-- about to read `cls._default_unit` -/
  | reading (c : UClass) (a : World.DefaultArg K)
  /-- inside `get_conversion_factor` -/
  | checking (c : UClass) (d : Dim) (p : Prog K (Py K))
  /-- about to set `cls._default_unit` -/
  | storing (c : UClass) (d : Dim)
  | done (e : Option PyErr)

/-- A thread: it computes with quantities, creates a unit, or changes a default unit. -/
inductive Thread (K : Type u) (ρ : Type v)
  | reader (p : Prog K ρ)
  | creator (c : Creator K)
  | setter (s : Setter K)

/-- `_conv_ref` of a new unit (`unitquantity.py` 56-63). -/
def convRefP : Option (SQ K) → Prog K (Option (SQ K))
  | none => .ret none
  | some q => (referenceP q).bind fun r => .ret (some r)

/-- A thread that is about to create a unit. -/
def Thread.create {ρ : Type v} (a : World.NewUnit K) : Thread K ρ :=
  .creator (.defining a (convRefP a.definition.toDef))

/-- A thread that is about to change a default unit. -/
def Thread.setDefault {ρ : Type v} (c : UClass) (a : World.DefaultArg K) : Thread K ρ :=
  .setter (.reading c a)

variable [DecidableEq K]

/-- One step of a constructor call. -/
def Creator.step (w : World K) : Creator K → World K × Creator K
  | .defining a (.read f) => (w, .defining a (f w))
  | .defining a (.ret r) => (w, .numbering a r)
  | .numbering a r =>
    let i : UnitInfo K :=
      { definition := a.definition.toDef, convRef := r, symbol := a.symbol, uSymbol := a.uSymbol,
        aliases := a.aliases, order := (a.cls.primaryOrder, w.counter a.cls) }
    ({ w with units := match w.info ⟨a.cls, a.name⟩ with
        | some _ => w.units
        | none => Dict.set w.units ⟨a.cls, a.name⟩ i }, .counting a)
  | .counting a => (w, .counted a (w.counter a.cls))
  | .counted a n =>
    ({ w with counters := fun c => if c = a.cls then some (n + 1) else w.counters c },
      .labelling a (World.labelsOf a.cls a.name a.symbol a.aliases))
  | .labelling a [] => (w, if a.cls.irreducible then .defaulting a else .done a none)
  | .labelling a (l :: ls) =>
    match Dict.get? w.registry l with
    | some v => if w.unitEq ⟨a.cls, a.name⟩ v then (w, .labelling a ls) else (w, .done a (some .keyError))
    | none => (w, .binding a l ls)
  | .binding a l ls =>
    ({ w with registry := Dict.set w.registry l ⟨a.cls, a.name⟩ }, .labelling a ls)
  | .defaulting a => (w, if (w.defaults a.cls).isNone then .setting a else .done a none)
  | .setting a =>
    ({ w with defaults := fun c => if c = a.cls then some (unitDim ⟨a.cls, a.name⟩) else w.defaults c },
      .done a none)
  | .done a e => (w, .done a e)

/-- One step of `set_default_unit`. -/
def Setter.step (w : World K) : Setter K → World K × Setter K
  | .reading c a =>
    match w.defaults c with
    | none => (w, .done (some .typeError))
    | some cur =>
      (w, if a.mag = 1 then .checking c a.dim (convFactorP cur a.dim) else .done (some .typeError))
  | .checking c d (.read f) => (w, .checking c d (f w))
  | .checking c d (.ret (.ok _)) => (w, .storing c d)
  | .checking _ _ (.ret (.error e)) => (w, .done (some e))
  | .storing c d =>
    ({ w with defaults := fun c' => if c' = c then some d else w.defaults c' }, .done none)
  | .done e => (w, .done e)

/-- One step of a thread. -/
def Thread.step {ρ : Type v} (w : World K) : Thread K ρ → World K × Thread K ρ
  | .reader (.ret r) => (w, .reader (.ret r))
  | .reader (.read f) => (w, .reader (f w))
  | .creator c => let r := c.step w; (r.1, .creator r.2)
  | .setter s => let r := s.step w; (r.1, .setter r.2)

/-- The shared state and all threads. -/
structure Sys (K : Type u) (ρ : Type v) where
  world : World K
  threads : List (Thread K ρ)

/-- The scheduler lets thread `i` make a step. -/
def Sys.step {ρ : Type v} (s : Sys K ρ) (i : Nat) : Sys K ρ :=
  match s.threads[i]? with
  | none => s
  | some t => ⟨(t.step s.world).1, s.threads.set i (t.step s.world).2⟩

/-- A schedule: which thread makes a step, one after the other. -/
def Sys.run {ρ : Type v} (s : Sys K ρ) (sched : List Nat) : Sys K ρ := sched.foldl Sys.step s

end
end PQ
