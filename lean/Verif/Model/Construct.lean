import Verif.Model.Elements
import Verif.Model.Registry

/-!
# Building quantities: `Quantity(data, units)` (`quantity.py` 118-131)

The `dtype` argument is not modelled here (see `Model/DType`), nor is the sharing of memory with an array
given as data (see `Heap.wrap` in `Model/Heap`).
-/

namespace PQ

variable {K : Type _}

/-- The `data` argument: nested lists (or tuples) whose entries are numbers, arrays or quantities; without any
list around it, a single one of these; or a unit object. -/
inductive DataArg (K : Type _)
  | nested (n : Nested (Operand K))
  | unit (u : UKey)

/-- Arrays of one shape put side by side along a new first axis (numpy, inside `np.asarray` of a list).  The
empty list gives the empty one-dimensional array; different shapes are a `ValueError`. -/
def NDArr.stack [Zero K] (l : List (NDArr K)) : Py (NDArr K) :=
  match l with
  | [] => .ok ⟨[0], fun _ => 0⟩
  | a :: _ =>
    if l.all (fun b => decide (b.shape = a.shape)) then
      .ok ⟨l.length :: a.shape, fun i =>
        match i with
        | [] => 0
        | k :: r =>
          match l[k]? with
          | none => 0
          | some b => b.elem r⟩
    else .error .valueError

mutual
/-- `np.asarray(data)` (numpy; `quantity.py` 129): quantities inside lists are arrays like any other, their
units are dropped. -/
def asArray [Zero K] : Nested (Operand K) → Py (NDArr K)
  | .leaf x => .ok x.arr
  | .list l =>
    match asArrays l with
    | .error e => .error e
    | .ok as => NDArr.stack as
/-- The entries of a list, in order. -/
def asArrays [Zero K] : List (Nested (Operand K)) → Py (List (NDArr K))
  | [] => .ok []
  | x :: xs =>
    match asArray x with
    | .error e => .error e
    | .ok a =>
      match asArrays xs with
      | .error e => .error e
      | .ok as => .ok (a :: as)
end

/-- `if units:` (`quantity.py` 124): Python's truth value of the argument.  A string or dimensionality is true if
it is not empty; an array with one element is true if that is not zero, and with more is a `ValueError` (as is an
empty one, with numpy 2.2).  Other objects are taken to be true (`None` is not modelled). -/
def UnitsArg.truth [Zero K] [DecidableEq K] : UnitsArg K → Py Bool
  | .str s => .ok (!s.isEmpty)
  | .dim d => .ok (!d.isEmpty)
  | .quantity q =>
    match q.mag.toList with
    | [x] => .ok (decide (x ≠ 0))
    | _ => .error .valueError
  | .other => .ok true

section
variable [Zero K] [One K] [Mul K] [Div K] [Neg K] [RPow K] [RatCast K] [DecidableEq K]

/-- `data.rescale(units)` with the argument as the user gives it (`quantity.py` 223-241). -/
def Quantity.rescaleTo (P : List Char → Py PyAST) (F : PyOps K) (w : World K) (q : Quantity K)
    (u : UnitsArg K) : Py (Quantity K) :=
  match validateDimensionality P F w u with
  | .error e => .error e
  | .ok d => q.rescale w d

/-- The branch of `Quantity.__new__` for data that is a quantity (`quantity.py` 123-127). -/
def Quantity.newFromQuantity (P : List Char → Py PyAST) (F : PyOps K) (w : World K) (q : Quantity K)
    (u : UnitsArg K) : Py (Quantity K) :=
  match u.truth with
  | .error e => .error e
  | .ok true => q.rescaleTo P F w u
  | .ok false => .ok q

/-- `Quantity(data, units)` (`quantity.py` 118-131).  A unit object is a quantity of magnitude 1 in its own units;
if it is not rescaled the result is `1*data`. -/
def Quantity.new (P : List Char → Py PyAST) (F : PyOps K) (w : World K) (data : DataArg K)
    (u : UnitsArg K) : Py (Quantity K) :=
  match data with
  | .unit k => (Quantity.ofUnit k).newFromQuantity P F w u
  | .nested (.leaf (.quantity q)) => q.newFromQuantity P F w u
  | .nested n =>
    match asArray n with
    | .error e => .error e
    | .ok a =>
      match validateDimensionality P F w u with
      | .error e => .error e
      | .ok d => .ok ⟨a, d⟩

end

end PQ
