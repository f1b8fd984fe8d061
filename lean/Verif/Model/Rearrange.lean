import Verif.Model.Subscript
import Verif.Model.Reduce

/-!
# Methods that rearrange or select elements

`reshape`, `flatten`, `ravel`, `transpose`, `swapaxes`, `repeat`, `take`, `compress`, `diagonal` and `sort` are
methods of numpy arrays that `quantities` does not override: numpy makes a new object of the class of
the array, and `__array_finalize__` (`quantity.py` 294-295) gives it the units.  So, as with a subscript,
the result is given by which element goes where (`Key`), and `Quantity.getitem` describes the rest.

Simplified: `repeat` takes one number of repetitions (not one per element); `take` refuses positions out of
range (`mode='raise'`, the default); `order='C'`; an array
without axes has no axis 0 (numpy lets `repeat`, `take` and `compress` treat it as a list of one); an error raised for several reasons may be another one.
-/

namespace PQ

open NDArr

/-- The place of the element with row-major number `p` of an array of shape `s` (numpy, for the methods that
`quantity.py` 294-295 completes). -/
def unflat (s : List Nat) (p : Nat) : List Nat := ((indices s)[p]?).getD []

/-- The shape meant by the argument of `reshape`, in which `none` stands for `-1` (numpy's
`_fix_unknown_dimension`, for `quantity.py` 294-295). -/
def reshapeTo (size : Nat) (t : List (Option Nat)) : Py (List Nat) :=
  match t.count none with
  | 0 => if (t.filterMap id).prod = size then .ok (t.filterMap id) else .error .valueError
  | 1 =>
    let known := (t.filterMap id).prod
    if known = 0 ∨ size % known ≠ 0 then .error .valueError
    else .ok (t.map (fun x => x.getD (size / known)))
  | _ => .error .valueError

/-- `x.reshape(t)` (`quantity.py` 294-295). -/
def Key.reshape (t : List (Option Nat)) : Key := fun s =>
  match reshapeTo s.prod t with
  | .error e => .error e
  | .ok u => .ok (u, fun i => unflat s (ravel u i))

/-- `x.flatten()`, `x.ravel()` (`quantity.py` 294-295). -/
def Key.flatten : Key := fun s => .ok ([s.prod], fun i => unflat s (i.headD 0))

/-- `x.transpose()`, `x.T`, `x.transpose(axes)` (`quantity.py` 294-295). -/
def Key.transpose (axes : Option (List Int)) : Key := fun s =>
  match axes with
  | none => .ok (s.reverse, List.reverse)
  | some as =>
    if as.length ≠ s.length then .error .valueError
    else
      match normAxes s.length as with
      | .error e => .error e
      | .ok ns => .ok (ns.map (fun n => s.getD n 0),
          fun i => (List.range s.length).map (fun m => i.getD (ns.idxOf m) 0))

/-- Exchange the entries `n` and `m` of a list. -/
def exchange (n m : Nat) (l : List Nat) : List Nat := (l.set n (l.getD m 0)).set m (l.getD n 0)

/-- `x.swapaxes(a, b)` (`quantity.py` 294-295). -/
def Key.swapaxes (a b : Int) : Key := fun s =>
  match normAxis s.length a, normAxis s.length b with
  | .ok n, .ok m => .ok (exchange n m s, exchange n m)
  | _, _ => .error .valueError

/-- `x.repeat(k, axis)` (`quantity.py` 294-295): every element `k` times; flattened for `axis=None`. -/
def Key.repeat (k : Nat) (ax : Axis) : Key := fun s =>
  match ax with
  | .all => .ok ([s.prod * k], fun i => unflat s (i.headD 0 / k))
  | .one a =>
    match normAxis s.length a with
    | .error e => .error e
    | .ok n => .ok (s.set n (s.getD n 0 * k), fun i => i.set n (i.getD n 0 / k))
  | .many _ => .error .typeError

/-- `x.take(p, axis)` (`quantity.py` 294-295): the elements at the positions `p`. -/
def Key.take (p : NDArr Int) (ax : Axis) : Key := fun s =>
  match ax with
  | .all =>
    if p.toList.all (fun x => decide (-(s.prod : Int) ≤ x ∧ x < s.prod)) then
      .ok (p.shape, fun i => unflat s (wrapPos s.prod (p.elem i)))
    else .error .indexError
  | .one a =>
    match normAxis s.length a with
    | .error e => .error e
    | .ok n =>
      let len := s.getD n 0
      if p.toList.all (fun x => decide (-(len : Int) ≤ x ∧ x < len)) then
        .ok (s.take n ++ p.shape ++ s.drop (n + 1), fun i =>
          i.take n ++ wrapPos len (p.elem ((i.drop n).take p.shape.length)) :: i.drop (n + p.shape.length))
      else .error .indexError
  | .many _ => .error .typeError

/-- The positions at which a condition holds. -/
def truePositions (c : List Bool) : List Nat := (List.range c.length).filter (fun j => c.getD j false)

/-- `x.compress(c, axis)` (`quantity.py` 294-295): the positions at which the condition holds are taken. -/
def Key.compress (c : List Bool) (ax : Axis) : Key :=
  Key.take ⟨[(truePositions c).length], fun i => ((truePositions c).getD (i.headD 0) 0 : Nat)⟩ ax

/-- `x.diagonal(offset, axis1, axis2)` (`quantity.py` 294-295): the plane of the two axes is replaced by one
last axis along its diagonal. -/
def Key.diagonal (offset axis1 axis2 : Int) : Key := fun s =>
  if s.length < 2 then .error .valueError
  else
    match normAxis s.length axis1, normAxis s.length axis2 with
    | .ok n1, .ok n2 =>
      if n1 = n2 then .error .valueError
      else
        let m := (List.range s.length).map (fun j => decide (j = n1 ∨ j = n2))
        let o1 := (max (-offset) 0).toNat
        let o2 := (max offset 0).toNat
        .ok (pick false m s ++ [diagLen (s.getD n1 0) (s.getD n2 0) offset], fun i =>
          let k := i.getLastD 0
          merge m i.dropLast (if n1 < n2 then [k + o1, k + o2] else [k + o2, k + o1]))
    | _, _ => .error .valueError

section
variable {K : Type _} [LT K] [DecidableLT K]

/-- What `a.sort(axis)` leaves in an array, and what `np.sort(a, axis)` returns, with the comparison sort `alg`. -/
def NDArr.sortAxis (alg : SortAlg) (ax : Int) (a : NDArr K) : Py (NDArr K) :=
  match normAxis a.shape.length ax with
  | .error e => .error e
  | .ok n => .ok ⟨a.shape, fun i => a.elem (i.set n
      ((alg (a.shape.getD n 0) (fun j k => decide (a.elem (i.set n j) < a.elem (i.set n k)))).getD (i.getD n 0) 0))⟩

/-- `q.sort(axis)`: numpy sorts the memory of the magnitude; the units (`quantity.py` 294-295 for `np.sort`, which
sorts a copy) are those of `q`. -/
def Quantity.sort (alg : SortAlg) (ax : Int) (q : Quantity K) : Py (Quantity K) :=
  match q.mag.sortAxis alg ax with
  | .error e => .error e
  | .ok m => .ok ⟨m, q.dim⟩

/-- `x.sort(axis)` for an `UncertainQuantity`: `sort` is not overridden, so numpy sorts the memory of the
magnitude, and nothing happens to `_uncertainty` (`uncertainquantity.py` 79-88). -/
def UQ.sort (alg : SortAlg) (ax : Int) (x : UQ K) : Py (UQ K) :=
  match x.val.sort alg ax with
  | .error e => .error e
  | .ok q => .ok ⟨q, x.unc⟩

end
end PQ
