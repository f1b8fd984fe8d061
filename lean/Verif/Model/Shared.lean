import Verif.Model.Heap

/-!
# Threads that share quantities

`Model/Threads.lean` is about threads that share the registry and the default units; here threads
share quantities: several threads call methods of the same objects, and some of them work in place.
A thread is interrupted between any two loads or stores of an attribute or of an array element (numpy
releases the interpreter lock inside its loops, so a loop over an array is not atomic).

Simplifications.
* Every shared quantity owns its memory and is writeable (views are in `Model/Heap.lean`).
* Units do not change while the threads run (`Model/Threads.lean` is about that).
* A plain number or array is given as the dimensionless quantity `scale_other_units` makes of it.
* numpy reads both operands of a binary operation before it computes; an in-place operation handles
  one element after the other.
-/

namespace PQ.Shared

universe u v v'

/-- The shared quantities. -/
structure Store (K : Type u) where
  shape : Nat → List Nat
  elem : Nat → List Nat → K
  dim : Nat → Dim

variable {K : Type u} {α : Type v} {β : Type v'}

/-- The values of a shared quantity. -/
def Store.mag [Zero K] (σ : Store K) (i : Nat) : NDArr K :=
  ⟨σ.shape i, fun x => if x ∈ NDArr.indices (σ.shape i) then σ.elem i x else 0⟩

/-- A shared quantity as a value. -/
def Store.quantity [Zero K] (σ : Store K) (i : Nat) : Quantity K := ⟨σ.mag i, σ.dim i⟩

/-- Store one element. -/
def Store.setElem (σ : Store K) (i : Nat) (x : List Nat) (v : K) : Store K :=
  { σ with elem := Function.update σ.elem i (Function.update (σ.elem i) x v) }

/-- `q._dimensionality = d`. -/
def Store.setDim (σ : Store K) (i : Nat) (d : Dim) : Store K :=
  { σ with dim := Function.update σ.dim i d }

/-- A computation, cut at every point where it can be interrupted. -/
inductive Task (K : Type u) (α : Type v) : Type (max u v)
  | ret (a : α)
  /-- load `q._dimensionality` -/
  | getDim (i : Nat) (f : Dim → Task K α)
  /-- load `q.shape` -/
  | getShape (i : Nat) (f : List Nat → Task K α)
  /-- load one element -/
  | getElem (i : Nat) (x : List Nat) (f : K → Task K α)
  /-- store one element -/
  | setElem (i : Nat) (x : List Nat) (v : K) (t : Task K α)
  /-- store `q._dimensionality` -/
  | setDim (i : Nat) (d : Dim) (t : Task K α)

namespace Task

/-- Sequential composition. -/
def bind : Task K α → (α → Task K β) → Task K β
  | ret a, g => g a
  | getDim i f, g => getDim i fun d => (f d).bind g
  | getShape i f, g => getShape i fun s => (f s).bind g
  | getElem i x f, g => getElem i x fun v => (f v).bind g
  | setElem i x v t, g => setElem i x v (t.bind g)
  | setDim i d t, g => setDim i d (t.bind g)

/-- Sequential composition of computations that may raise. -/
def andThen (p : Task K (Py α)) (g : α → Task K (Py β)) : Task K (Py β) :=
  p.bind fun
    | .error e => ret (.error e)
    | .ok a => g a

/-- One load or store. -/
def step (σ : Store K) : Task K α → Store K × Task K α
  | ret a => (σ, ret a)
  | getDim i f => (σ, f (σ.dim i))
  | getShape i f => (σ, f (σ.shape i))
  | getElem i x f => (σ, f (σ.elem i x))
  | setElem i x v t => (σ.setElem i x v, t)
  | setDim i d t => (σ.setDim i d, t)

/-- The state after `n` loads and stores, if no other thread interferes. -/
def after : Nat → Store K → Task K α → Store K × Task K α
  | 0, σ, p => (σ, p)
  | n + 1, σ, p => after n (p.step σ).1 (p.step σ).2

/-- The computation executed to the end without interruption. -/
def alone (σ : Store K) : Task K α → Store K × α
  | ret a => (σ, a)
  | getDim i f => (f (σ.dim i)).alone σ
  | getShape i f => (f (σ.shape i)).alone σ
  | getElem i x f => (f (σ.elem i x)).alone σ
  | setElem i x v t => t.alone (σ.setElem i x v)
  | setDim i d t => t.alone (σ.setDim i d)

end Task

open _root_.PQ.Shared.Task

/-- The shared quantities and all threads. -/
structure Sys (K : Type u) (ρ : Type v) where
  store : Store K
  threads : List (Task K ρ)

/-- The scheduler lets thread `t` make a step. -/
def Sys.step {ρ : Type v} (s : Sys K ρ) (t : Nat) : Sys K ρ :=
  match s.threads[t]? with
  | none => s
  | some p => ⟨(p.step s.store).1, s.threads.set t (p.step s.store).2⟩

/-- A schedule: which thread makes a step, one after the other. -/
def Sys.run {ρ : Type v} (s : Sys K ρ) (sched : List Nat) : Sys K ρ := sched.foldl Sys.step s

/-! ## The methods -/

/-- An operand: a shared quantity, or a quantity only this thread knows. -/
inductive Ref (K : Type u)
  | obj (j : Nat)
  | own (q : Quantity K)

/-- Load the units of an operand. -/
def Ref.withDim : Ref K → (Dim → Task K α) → Task K α
  | .obj j, f => getDim j f
  | .own q, f => f q.dim

/-- Load the shape of an operand. -/
def Ref.withShape : Ref K → (List Nat → Task K α) → Task K α
  | .obj j, f => getShape j f
  | .own q, f => f q.mag.shape

/-- Load one element of an operand. -/
def Ref.withElem : Ref K → List Nat → (K → Task K α) → Task K α
  | .obj j, x, f => getElem j x f
  | .own q, x, f => f (q.mag.elem x)

/-- The value an operand has. -/
def Ref.value [Zero K] (σ : Store K) : Ref K → Quantity K
  | .obj j => σ.quantity j
  | .own q => q

/-- Load the elements of a shared array one by one. -/
def readElems (i : Nat) : List (List Nat) → (List Nat → K) → Task K (List Nat → K)
  | [], f => .ret f
  | x :: xs, f => .getElem i x fun v => readElems i xs (Function.update f x v)

/-- `q.magnitude`, read by a numpy loop. -/
def readMag [Zero K] (i : Nat) : Task K (NDArr K) :=
  .getShape i fun s => (readElems i (NDArr.indices s) fun _ => 0).bind fun f => .ret ⟨s, f⟩

/-- The magnitude of an operand. -/
def Ref.readMag [Zero K] : Ref K → Task K (NDArr K)
  | .obj j => Shared.readMag j
  | .own q => .ret q.mag

/-- Do something for every index. -/
def forEach : List (List Nat) → (List Nat → Task K PUnit.{v+1}) → Task K PUnit.{v+1}
  | [], _ => .ret ⟨⟩
  | x :: xs, body => (body x).bind fun _ => forEach xs body

section
variable [Zero K] [One K] [Mul K] [Div K] [RPow K] [DecidableEq K]

/-- `q.rescale(units)` of a shared quantity (`quantity.py` 223-241): the units are loaded twice, then
the elements. -/
def rescale (w : World K) (i : Nat) (d : Dim) : Task K (Py (Quantity K)) :=
  .getDim i fun d1 =>
    if w.deq d1 d then .getDim i fun d2 => (readMag i).bind fun m => .ret (.ok ⟨m, d2⟩)
    else .getDim i fun d2 =>
      match w.convFactor d2 d with
      | .ok cf => (readMag i).bind fun m => .ret (.ok ⟨m.map (fun x => cf * x), d⟩)
      | .error .assertionError => .ret (.error .valueError)
      | .error e => .ret (.error e)

/-- `x.rescale(units)` of an operand. -/
def Ref.rescale (w : World K) (r : Ref K) (d : Dim) : Task K (Py (Quantity K)) :=
  match r with
  | .obj j => Shared.rescale w j d
  | .own q => .ret (q.rescale w d)

/-- `scale_other_units` (`quantity.py` 56-65): the operand itself, or a converted copy of it. -/
def scaleOther (w : World K) (i : Nat) (r : Ref K) : Task K (Py (Ref K)) :=
  r.withDim fun dr => .getDim i fun di =>
    if w.dne dr di then .getDim i fun d => (r.rescale w d).andThen fun q => .ret (.ok (.own q))
    else .ret (.ok r)

/-- Whether an operator converts its operand (`scale_other_units`). -/
def scales : IOp → Bool
  | .add | .sub | .mod => true
  | .mul | .div | .floordiv => false

/-- The units of `x op y`, loaded by `__array_prepare__` (`quantity.py` 296-317;
`dimensionality.py` 224-256). -/
def unitsOf (w : World K) (op : IOp) (i : Nat) (r : Ref K) : Task K (Py Dim) :=
  .getDim i fun d1 => r.withDim fun d2 =>
    match op with
    | .add | .sub | .mod =>
      if w.deq d1 d2 then .getDim i fun d3 => .ret (.ok d3) else .ret (.error .valueError)
    | .mul => .ret (.ok (Dim.mul d1 d2))
    | .div | .floordiv => .ret (.ok (Dim.div d1 d2))

variable [Add K] [Sub K] [PyFloor K]

/-- What an operator does with two numbers. -/
def opFn : IOp → K → K → K
  | .add => (· + ·)
  | .sub => (· - ·)
  | .mod => modK
  | .mul => (· * ·)
  | .div => (· / ·)
  | .floordiv => floorDivK

/-- `x op y` as one of the pure operators of `Model/Quantity.lean`. -/
def binary (w : World K) (op : IOp) (x y : Quantity K) : Py (Quantity K) :=
  match op with
  | .add => x.add w (.quantity y)
  | .sub => x.sub w (.quantity y)
  | .mod => x.mod w (.quantity y)
  | .mul => x.mul w (.quantity y)
  | .div => x.truediv w (.quantity y)
  | .floordiv => x.floordiv w (.quantity y)

/-- The operand of `x op y` as numpy sees it. -/
def prepared (w : World K) (op : IOp) (i : Nat) (r : Ref K) : Task K (Py (Ref K)) :=
  if scales op then scaleOther w i r else .ret (.ok r)

/-- `x op y` for a shared `x` (`quantity.py` 336-339, 352-355, 368-371).  numpy before 2.0 asks for
the units before it computes (`__array_prepare__`), numpy 2 afterwards (`__array_wrap__`). -/
def binop (np2 : Bool) (w : World K) (op : IOp) (i : Nat) (r : Ref K) : Task K (Py (Quantity K)) :=
  (prepared w op i r).andThen fun r' =>
    let compute : Task K (Py (NDArr K)) :=
      (readMag i).bind fun a => r'.readMag.bind fun b => .ret (NDArr.bin (opFn op) a b)
    if np2 then
      compute.andThen fun m => (unitsOf w op i r').andThen fun d => .ret (.ok ⟨m, d⟩)
    else
      (unitsOf w op i r').andThen fun d => compute.andThen fun m => .ret (.ok ⟨m, d⟩)

/-- `x < y` and so on for a shared `x` (`quantity.py` 102-110, 454-490). -/
def compare (r : K → K → Bool) (w : World K) (i : Nat) (y : Ref K) : Task K (Py (NDArr Bool)) :=
  y.withDim fun dy => .getDim i fun di =>
    (if w.dne dy di then .getDim i fun d => (y.rescale w d).andThen fun q => .ret (.ok q.mag)
      else y.readMag.bind fun m => .ret (.ok m) : Task K (Py (NDArr K))).andThen fun m =>
    (readMag i).bind fun a => .ret (NDArr.bin r a m)

/-- `x op= y` for a shared `x` (`quantity.py` 346-350, 362-366, 373-381, 387-391): numpy before 2.0
replaces the units of `x` before it computes (`__array_prepare__` of the output), numpy 2 leaves them
alone. -/
def inplace (np2 : Bool) (w : World K) (op : IOp) (i : Nat) (r : Ref K) :
    Task K (Py PUnit.{u+1}) :=
  (prepared w op i r).andThen fun r' =>
    .getShape i fun s => r'.withShape fun t =>
      if NDArr.bshape s t ≠ some s then .ret (.error .valueError)
      else
        let loop : Task K PUnit.{u+1} := forEach (NDArr.indices s) fun x => .getElem i x fun a =>
          r'.withElem (NDArr.bidx t x) fun b => .setElem i x (opFn op a b) (.ret ⟨⟩)
        if np2 then loop.bind fun _ => .ret (.ok ⟨⟩)
        else (unitsOf w op i r').andThen fun d => .setDim i d (loop.bind fun _ => .ret (.ok ⟨⟩))

omit [Zero K] [DecidableEq K] [Add K] [Sub K] [PyFloor K] in
/-- `x.units = d` for a shared `x` (`quantity.py` 186-210): the units are loaded twice, the elements
are multiplied one by one, and then the new units are stored. -/
def setUnits (w : World K) (i : Nat) (d : Dim) : Task K (Py PUnit.{u+1}) :=
  .getDim i fun d1 =>
    if w.deq d1 d then .ret (.ok ⟨⟩)
    else .getDim i fun d2 =>
      match w.convFactor d2 d with
      | .ok cf => .getShape i fun s =>
          (forEach (NDArr.indices s) fun x => .getElem i x fun a =>
            .setElem i x (a * cf) (.ret (⟨⟩ : PUnit.{u+1}))).bind fun _ => .setDim i d (.ret (.ok ⟨⟩))
      | .error .assertionError => .ret (.error .valueError)
      | .error e => .ret (.error e)

omit [Zero K] [One K] [Mul K] [Div K] [RPow K] [DecidableEq K] [Add K] [Sub K] [PyFloor K] in
/-- `self.magnitude[key] = m` (`quantity.py` 452): numpy finds the selected elements, then stores one
after the other. -/
def assign (i : Nat) (k : Key) (m : NDArr K) : Task K (Py PUnit.{u+1}) :=
  .getShape i fun s =>
    match k s with
    | .error e => .ret (.error e)
    | .ok (t, sel) =>
      match Heap.castTo t m with
      | .error e => .ret (.error e)
      | .ok v => (forEach (NDArr.indices t) fun x =>
          .setElem i (sel x) (v.elem x) (.ret (⟨⟩ : PUnit.{u+1}))).bind fun _ => .ret (.ok ⟨⟩)

omit [Add K] [Sub K] [PyFloor K] in
/-- `x[key] = y` for a shared `x` (`quantity.py` 444-452). -/
def setitem (w : World K) (i : Nat) (k : Key) (y : Ref K) : Task K (Py PUnit.{u+1}) :=
  .getDim i fun di => y.withDim fun dy =>
    (if w.dne di dy then .getDim i fun d => (y.rescale w d).andThen fun q => .ret (.ok q.mag)
      else y.readMag.bind fun m => .ret (.ok m) : Task K (Py (NDArr K))).andThen fun m => assign i k m

end
end PQ.Shared
