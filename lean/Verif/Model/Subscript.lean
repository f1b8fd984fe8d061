import Verif.Model.Elements
import Verif.Model.Heap

/-!
# Subscripts

`Quantity.__getitem__` (`quantity.py` 436-442) and `Quantity.__setitem__` (`quantity.py` 445-452) hand the
subscript to numpy. In `Model/Uncertain.lean` a subscript is any function from the shape of the array to
the elements selected; here are the subscripts programs write: integers, slices, `...`, `np.newaxis` and tuples of these, and
boolean masks and lists of positions.

Simplified: integer arrays index the first axis only, and a mask has the shape of the array; mixtures of
such arrays with slices are not modelled. When several parts of a tuple are wrong, numpy may report another
one of the errors first.
-/

namespace PQ

/-- One entry of a subscript tuple (`quantity.py` 437, 452: `key`). -/
inductive Sub
  | int (i : Int)
  | slice (start stop step : Option Int)
  | ellipsis
  | newaxis
  deriving DecidableEq

/-- How many axes an entry uses up (numpy). -/
def Sub.uses : Sub → Nat
  | .int _ => 1
  | .slice _ _ _ => 1
  | .ellipsis => 0
  | .newaxis => 0

/-- An end of a slice, given explicitly, brought into range (CPython's `PySlice_AdjustIndices`, called by numpy for
`quantity.py` 437, 452). -/
def sliceEnd (n : Nat) (step b : Int) : Int :=
  if b < 0 then (if b + n < 0 then (if step < 0 then -1 else 0) else b + n)
  else if (n : Int) ≤ b then (if step < 0 then n - 1 else n) else b

/-- `slice.indices(n)`: first position, step and number of positions (`PySlice_Unpack`,
`PySlice_AdjustIndices`); a step of 0 is a `ValueError`. -/
def sliceIndices (n : Nat) (start stop step : Option Int) : Py (Int × Int × Nat) :=
  let k := step.getD 1
  if k = 0 then .error .valueError
  else
    let a := match start with
      | some b => sliceEnd n k b
      | none => if k < 0 then n - 1 else 0
    let e := match stop with
      | some b => sliceEnd n k b
      | none => if k < 0 then -1 else n
    let len : Int :=
      if k < 0 then (if e < a then (a - e - 1) / (-k) + 1 else 0)
      else (if a < e then (e - a - 1) / k + 1 else 0)
    .ok (a, k, len.toNat)

/-- The entries of a tuple, one after the other (numpy's `prepare_index`/`get_view_from_index`, for
`quantity.py` 437, 452); the axes left over are taken in full. -/
def Key.entries : List Sub → List Nat → Py (List Nat × (List Nat → List Nat))
  | [], s => .ok (s, fun i => i)
  | .newaxis :: ks, s =>
    match Key.entries ks s with
    | .error e => .error e
    | .ok (t, f) => .ok (1 :: t, fun i => f i.tail)
  | .ellipsis :: ks, s =>
    let n := s.length - (ks.map Sub.uses).sum
    match Key.entries ks (s.drop n) with
    | .error e => .error e
    | .ok (t, f) => .ok (s.take n ++ t, fun i => i.take n ++ f (i.drop n))
  | .int _ :: _, [] => .error .indexError
  | .int x :: ks, n :: s =>
    let p := if x < 0 then x + n else x
    if 0 ≤ p ∧ p < n then
      match Key.entries ks s with
      | .error e => .error e
      | .ok (t, f) => .ok (t, fun i => p.toNat :: f i)
    else .error .indexError
  | .slice _ _ _ :: _, [] => .error .indexError
  | .slice a b c :: ks, n :: s =>
    match sliceIndices n a b c with
    | .error e => .error e
    | .ok (first, step, len) =>
      match Key.entries ks s with
      | .error e => .error e
      | .ok (t, f) => .ok (len :: t, fun i => (first + step * i.headD 0).toNat :: f i.tail)

/-- `x[k1, k2, ...]` with integers, slices, `...` and `np.newaxis` (`quantity.py` 437, 452): at most one `...`,
no more entries than axes. -/
def Key.basic (ks : List Sub) : Key := fun s =>
  if 1 < ks.count .ellipsis ∨ s.length < (ks.map Sub.uses).sum then .error .indexError
  else Key.entries ks s

/-- Position of an element of an integer array (numpy, for `quantity.py` 437, 452). -/
def wrapPos (n : Nat) (x : Int) : Nat := (if x < 0 then x + n else x).toNat

/-- `x[positions]` with an array (or list) of integers, along the first axis (`quantity.py` 437, 452). -/
def Key.positions (p : NDArr Int) : Key := fun s =>
  match s with
  | [] => .error .indexError
  | n :: t =>
    if p.toList.all (fun x => decide (-(n : Int) ≤ x ∧ x < n)) then
      .ok (p.shape ++ t, fun i => wrapPos n (p.elem (i.take p.shape.length)) :: i.drop p.shape.length)
    else .error .indexError

/-- `x[mask]` with a boolean array of the shape of `x` (`quantity.py` 437, 452): the selected elements in
row-major order. -/
def Key.mask (m : NDArr Bool) : Key := fun s =>
  if m.shape = s then
    let sel := (NDArr.indices s).filter m.elem
    .ok ([sel.length], fun i => (sel[i.headD 0]?).getD [])
  else .error .indexError

end PQ
