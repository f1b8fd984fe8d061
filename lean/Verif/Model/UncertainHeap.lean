import Verif.Model.Heap

/-!
# Uncertain quantities in memory

`Model/Uncertain.lean` has value semantics.  Here an `UncertainQuantity` is an array object of `Heap`
together with the object its attribute `_uncertainty` refers to, so that sharing of uncertainties
between copies and views, and in-place operations, can be followed.

`UncertainQuantity` inherits every in-place operator, `__setitem__`, `put`, `fill` and `copy` from
`Quantity` and `ndarray`: none of them mentions `_uncertainty`.

Not modelled: `Quantity(x, units)` and `np.array(x)` of an uncertain `x`, an uncertain quantity as the
uncertainty of another, the arithmetic operators (see `Model/Uncertain.lean`; their results are new
objects, here `new`).
-/

namespace PQ

variable {K : Type _}

/-- Array objects, and for each `UncertainQuantity` object its `_uncertainty`. -/
structure UHeap (K : Type _) where
  heap : Heap K
  unc : Nat → Option Nat

/-- What a program can do. -/
inductive UCmd (K : Type _)
  /-- a command that is not specific to uncertain quantities -/
  | plain (c : Cmd K)
  /-- `UncertainQuantity([...], units, [...])` -/
  | new (a : NDArr K) (d : Dim) (u : NDArr K)
  /-- `x[key]` with slices -/
  | index (i : Nat) (k : Key)
  /-- `x[2, 3]` -/
  | item (i : Nat) (idx : List Nat)
  /-- `x.T`, `x.reshape(...)`, `x.ravel()`: an inherited method returning a view -/
  | rearrange (i : Nat) (k : Key)
  /-- `x.copy()`, `copy.copy(x)` -/
  | copy (i : Nat)
  /-- `x.uncertainty = v` -/
  | setUncertainty (i : Nat) (v : Src K)

namespace UHeap

/-- Nothing allocated. -/
def empty [Zero K] : UHeap K := ⟨Heap.empty, fun _ => none⟩

/-- `x._uncertainty = y`. -/
def link (s : UHeap K) (x y : Nat) : UHeap K := ⟨s.heap, Function.update s.unc x (some y)⟩

/-- Commands of `Heap` that `UncertainQuantity` inherits unchanged when their subject is uncertain:
`magnitude`, `deepcopy` (`quantity.py` 807-809: a plain `Quantity`), `squeeze` and `real`
(`quantity.py` 161-162, 692-697: a plain `Quantity`), item assignment, `put`, `fill`, the in-place
operators, `out=`.  The others have their own `UCmd` or are not modelled. -/
def inherits : Cmd K → Bool
  | .wrap _ _ => false
  | .view _ _ => false
  | .item _ _ => false
  | .copy _ => false
  | .into _ _ _ => false
  | .setUnits _ _ => false
  | _ => true

/-- The object a command starts with. -/
def subject : Cmd K → Option Nat
  | .newUnit _ => none
  | .newArray _ => none
  | .newQuantity _ _ => none
  | .wrap i _ => some i
  | .magnitude i => some i
  | .view i _ => some i
  | .item i _ => some i
  | .copy i => some i
  | .deepcopy i => some i
  | .squeeze i _ => some i
  | .setitem i _ _ => some i
  | .put i _ _ => some i
  | .fill i _ => some i
  | .inplace _ i _ => some i
  | .ipow i _ => some i
  | .setUnits i _ => some i
  | .into _ i _ => some i
  | .rawWrite i _ _ => some i

section
variable [Zero K] [One K] [Add K] [Sub K] [Mul K] [Div K] [RPow K] [PyFloor K] [DecidableEq K]

/-- Go on with the result of a step on arrays; an exception ends the command.  (Objects made on the way
stay, but nothing refers to them.) -/
def andThen (unc : Nat → Option Nat) (r : Py Nat × Heap K) (f : Nat → Heap K → Py Nat × UHeap K) :
    Py Nat × UHeap K :=
  match r with
  | (.error e, h) => (.error e, ⟨h, unc⟩)
  | (.ok i, h) => f i h

/-- The `uncertainty` setter (`uncertainquantity.py` 56-66) for a `Quantity` object `j`: shapes must
agree; other units are converted (a new object), otherwise `j` itself becomes the uncertainty. -/
def attach (np2 : Bool) (w : World K) (unc : Nat → Option Nat) (i j : Nat) (h : Heap K) :
    Py Nat × UHeap K :=
  match h.objs[i]?, h.objs[j]? with
  | some o, some p =>
    if o.shape = p.shape then
      if w.dne p.kind.dim o.kind.dim then
        match (h.quantity p).rescale w o.kind.dim with
        | .error e => (.error e, ⟨h, unc⟩)
        | .ok r =>
          andThen unc (h.run np2 w (.newQuantity r.mag r.dim)) fun n h' => (.ok i, link ⟨h', unc⟩ i n)
      else (.ok i, link ⟨h, unc⟩ i j)
    else (.error .valueError, ⟨h, unc⟩)
  | _, _ => (.error .exception, ⟨h, unc⟩)

/-- Execute a command: the resulting object or an exception, and the new state. -/
def run (np2 : Bool) (w : World K) (s : UHeap K) : UCmd K → Py Nat × UHeap K
  | .plain c =>
    if (subject c).bind s.unc = none ∨ inherits c = true then
      ((s.heap.run np2 w c).1, ⟨(s.heap.run np2 w c).2, s.unc⟩)
    else
      match c with
      | .setUnits _ _ => (.error .attributeError, s) -- `super()._set_units`, uncertainquantity.py 36-39
      | _ => (.error .exception, s) -- not modelled
  -- uncertainquantity.py 17-34
  | .new a d u =>
    andThen s.unc (s.heap.run np2 w (.newQuantity a d)) fun i h1 =>
    andThen s.unc (h1.run np2 w (.newQuantity u d)) fun j h2 =>
    attach np2 w s.unc i j h2
  -- uncertainquantity.py 168-174
  | .index i k =>
    match s.heap.objs[i]?, s.unc i with
    | some o, some ui =>
      andThen s.unc (s.heap.run np2 w (.magnitude i)) fun m h1 =>
      andThen s.unc (h1.run np2 w (.view m k)) fun mv h2 =>
      andThen s.unc (h2.run np2 w (.view ui k)) fun uv h3 =>
      andThen s.unc (h3.run np2 w (.wrap mv o.kind.dim)) fun x h4 =>
      andThen s.unc (h4.run np2 w (.wrap uv o.kind.dim)) fun y h5 =>
      attach np2 w s.unc x y h5
    | _, _ => (.error .exception, s)
  -- the same with an integer key: both parts are copies
  | .item i idx =>
    match s.heap.objs[i]?, s.unc i with
    | some o, some ui =>
      andThen s.unc (s.heap.run np2 w (.item i idx)) fun x h1 =>
      andThen s.unc (h1.run np2 w (.item ui idx)) fun u h2 =>
      andThen s.unc (h2.run np2 w (.wrap u o.kind.dim)) fun y h3 =>
      attach np2 w s.unc x y h3
    | _, _ => (.error .exception, s)
  -- `__array_finalize__`, uncertainquantity.py 79-88: the view gets the same `_uncertainty` object
  | .rearrange i k =>
    match s.unc i with
    | none => (.error .exception, s)
    | some ui => andThen s.unc (s.heap.run np2 w (.view i k)) fun x h1 => (.ok x, link ⟨h1, s.unc⟩ x ui)
  -- `ndarray.copy` and `__array_finalize__`: the copy gets the same `_uncertainty` object
  | .copy i =>
    match s.unc i with
    | none => (.error .exception, s)
    | some ui => andThen s.unc (s.heap.run np2 w (.copy i)) fun x h1 => (.ok x, link ⟨h1, s.unc⟩ x ui)
  -- uncertainquantity.py 56-66
  | .setUncertainty i v =>
    match s.unc i, v with
    | none, _ => (.error .exception, s)
    | some _, .lit x =>
      andThen s.unc (s.heap.run np2 w (.newQuantity x.toQuantity.mag x.toQuantity.dim)) fun j h1 =>
      attach np2 w s.unc i j h1
    | some _, .obj j =>
      match s.heap.objs[j]?, s.unc j with
      | some p, none =>
        if p.kind.isQuantity then attach np2 w s.unc i j s.heap
        else andThen s.unc (s.heap.run np2 w (.wrap j [])) fun q h1 => attach np2 w s.unc i q h1
      | _, _ => (.error .exception, s)

/-- Execute commands one after the other, going on after an exception. -/
def runAll (np2 : Bool) (w : World K) (s : UHeap K) : List (UCmd K) → UHeap K
  | [] => s
  | c :: cs => runAll np2 w (run np2 w s c).2 cs

end
end UHeap
end PQ
