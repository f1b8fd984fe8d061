import Verif.Model.Quantity

/-!
# `quantities/decorators.py`: `quantitizer`

The wrapped function and the handler are arbitrary Python functions: here, any functions of the
positional and keyword arguments that return or raise.  Arguments and the items of a result are
quantities or plain arrays.  Simplified: the functions have no side effects; a result item that is
already a `Quantity` (the base function received only plain arrays, so it would have to make one up)
is not considered; `__name__`.
-/

namespace PQ.Quantitizer

variable {K : Type _}

/-- What a Python call is given: positional and keyword arguments. -/
structure Call (α : Type _) where
  args : List α
  kwargs : List (String × α)

/-- What the base function returns, as `list(result)` (decorators.py 123) sees it. -/
inductive BaseOut (K : Type _)
  | tuple (items : List (NDArr K))
  /-- one array: `list` runs over its first axis -/
  | array (a : NDArr K)
  /-- a number: `TypeError` -/
  | number (x : K)

/-- What the handler returns (decorators.py 82). -/
inductive HandlerOut (K : Type _)
  /-- a tuple; per item the dimensionality if it is a `Quantity` -/
  | tuple (items : List (Option Dim))
  /-- one `Quantity`: indexing gives `Quantity` objects of the same units, `len` is the length of
  the first axis -/
  | quantity (q : Quantity K)
  /-- a number, such as the `1.0` of the default handler (line 57) -/
  | number

/-- The row `j` of an array. -/
def row (a : NDArr K) (j : Nat) : NDArr K := ⟨a.shape.tail, fun i => a.elem (j :: i)⟩

/-- `list(result)` (decorators.py 123). -/
def BaseOut.list : BaseOut K → Py (List (NDArr K))
  | .tuple items => .ok items
  | .array a =>
    match a.shape with
    | [] => .error .typeError
    | n :: _ => .ok ((List.range n).map (row a))
  | .number _ => .error .typeError

/-- `len(handler_quantities)` and, for each index, the units of `handler_quantities[i]` if it is a
`Quantity` (decorators.py 129, 135). -/
def HandlerOut.list : HandlerOut K → Py (List (Option Dim))
  | .tuple items => .ok items
  | .quantity q =>
    match q.mag.shape with
    | [] => .error .typeError
    | n :: _ => .ok (List.replicate n (some q.dim))
  | .number => .error .typeError

section
variable [One K] [Mul K] [Div K] [RPow K]

/-- `args[i].simplified.magnitude` for quantities, the argument itself otherwise
(decorators.py 95-102). -/
def plain (w : World K) (fuel : Nat) : Operand K → Py (NDArr K)
  | .array a => .ok a
  | .quantity q => (q.simplified w fuel).map Quantity.mag

/-- The loop over the positional arguments (decorators.py 95-102). -/
def plainAll (w : World K) (fuel : Nat) : List (Operand K) → Py (List (NDArr K))
  | [] => .ok []
  | a :: l =>
    match plain w fuel a with
    | .error e => .error e
    | .ok x =>
      match plainAll w fuel l with
      | .error e => .error e
      | .ok xs => .ok (x :: xs)

/-- The loop over the keyword arguments (decorators.py 109-116): line 113 calls `simplifed()`, a
misspelling, so that a `Quantity` raises `AttributeError`. -/
def plainKw : List (String × Operand K) → Py (List (String × NDArr K))
  | [] => .ok []
  | (k, .array a) :: l =>
    match plainKw l with
    | .error e => .error e
    | .ok xs => .ok ((k, a) :: xs)
  | (_, .quantity _) :: _ => .error .attributeError

/-- One turn of the loop over the results (decorators.py 135-146):
`Quantity(result[i], h.dimensionality.simplified).rescale(h.dimensionality)`. -/
def attach (w : World K) (fuel : Nat) (x : NDArr K) (d : Dim) : Py (Quantity K) :=
  match Dim.simplified w fuel d with
  | .error e => .error e
  | .ok s => (⟨x, s⟩ : Quantity K).rescale w d

/-- The loop over the results (decorators.py 129-146). -/
def attachAll (w : World K) (fuel : Nat) : List (NDArr K) → List (Option Dim) → Py (List (Operand K))
  | x :: xs, none :: hs =>
    match attachAll w fuel xs hs with
    | .error e => .error e
    | .ok r => .ok (.array x :: r)
  | x :: xs, some d :: hs =>
    match attach w fuel x d with
    | .error e => .error e
    | .ok q =>
      match attachAll w fuel xs hs with
      | .error e => .error e
      | .ok r => .ok (.quantity q :: r)
  | xs, _ => .ok (xs.map .array)

/-- `wrapped_function` (decorators.py 77-150). -/
def wrapped (w : World K) (fuel : Nat) (base : Call (NDArr K) → Py (BaseOut K))
    (handler : Call (Operand K) → Py (HandlerOut K)) (c : Call (Operand K)) : Py (List (Operand K)) :=
  match handler c with
  | .error e => .error e
  | .ok hq =>
    match plainAll w fuel c.args with
    | .error e => .error e
    | .ok args =>
      match plainKw c.kwargs with
      | .error e => .error e
      | .ok kwargs =>
        match base ⟨args, kwargs⟩ with
        | .error e => .error e
        | .ok result =>
          match result.list with
          | .error e => .error e
          | .ok result =>
            match hq.list with
            | .error e => .error e
            | .ok hs => attachAll w fuel result hs

/-- `quantitizer(base_function, handler_function)` (decorators.py 56-160): `None` as the docstring
of the base function makes the concatenation of line 157 raise `TypeError`.  The default handler
returns `1.0` (line 57). -/
def quantitizer (doc : Option String) (base : Call (NDArr K) → Py (BaseOut K))
    (handler : Option (Call (Operand K) → Py (HandlerOut K))) :
    Py (World K → Nat → Call (Operand K) → Py (List (Operand K))) :=
  match doc with
  | none => .error .typeError
  | some _ => .ok (fun w fuel c => wrapped w fuel base (handler.getD (fun _ => .ok .number)) c)

end
end PQ.Quantitizer
