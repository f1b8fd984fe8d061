import Verif.Model.Quantity
import Verif.Model.NDReduce

/-!
# Reduction methods of `Quantity` (`quantity.py` 518-800)

The `out=` argument is modelled in `Model/Heap.lean`; here it is `None`.  `dtype` is not modelled.
-/

namespace PQ

variable {K : Type _}

/-- `Quantity(ret, dim)` for the array `ret` returned by numpy. -/
def attach (m : Py (NDArr K)) (d : Dim) : Py (Quantity K) := m.map (fun a => ⟨a, d⟩)

namespace Quantity

/-- `Quantity.sum` (`quantity.py` 518-527; `umath.sum`, `umath.py` 42-44, calls it) where `S` is how numpy adds a list of numbers (for floats it
matters in which order). -/
def sumBy (S : List K → K) (q : Quantity K) (ax : Axis) : Py (Quantity K) := attach (q.mag.reduce S ax) q.dim

/-- `Quantity.mean` (`quantity.py` 699-708) where `M` is numpy's mean of a list of numbers. -/
def meanBy (M : List K → K) (q : Quantity K) (ax : Axis) : Py (Quantity K) := attach (q.mag.reduce M ax) q.dim

/-- `self.shape[axis]` for an integer axis: Python indexing of a tuple. -/
def shapeAt (s : List Nat) (ax : Int) : Py Nat :=
  match NDArr.normAxis s.length ax with
  | .ok n => .ok (s.getD n 0)
  | .error _ => .error .indexError

/-- The power `prod` raises the units to (`quantity.py` 748-751); indexing a tuple with a tuple is a
`TypeError`. -/
def prodPower (q : Quantity K) : Axis → Py Nat
  | .all => .ok q.mag.size
  | .one ax => shapeAt q.mag.shape ax
  | .many _ => .error .typeError

/-- `Quantity.prod` (`quantity.py` 746-760; `umath.prod`, `umath.py` 38-40, calls it) where `P` is how numpy multiplies a list of numbers. -/
def prodBy (P : List K → K) (q : Quantity K) (ax : Axis) : Py (Quantity K) :=
  match q.prodPower ax with
  | .error e => .error e
  | .ok n => attach (q.mag.reduce P ax) (Dim.pow q.dim (n : ℚ))

/-- `Quantity.cumsum` (`quantity.py` 762-771; `umath.cumsum`, `umath.py` 65-67, calls it) where `S` is how numpy adds a list of numbers. -/
def cumsumBy (S : List K → K) (q : Quantity K) (ax : Axis) : Py (Quantity K) :=
  attach (q.mag.cumulate S ax) q.dim

section
variable [Field K] [LinearOrder K] [RPow K]

/-- `Quantity.sum` (`quantity.py` 518-527). -/
def sum (q : Quantity K) (ax : Axis) : Py (Quantity K) := q.sumBy List.sum ax

/-- `Quantity.max` (`quantity.py` 580-589). -/
def max (q : Quantity K) (ax : Axis) : Py (Quantity K) := attach (q.mag.reduceNE NDArr.lmax ax) q.dim

/-- `Quantity.min` (`quantity.py` 602-611). -/
def min (q : Quantity K) (ax : Axis) : Py (Quantity K) := attach (q.mag.reduceNE NDArr.lmin ax) q.dim

/-- `Quantity.ptp` (`quantity.py` 632-641). -/
def ptp (q : Quantity K) (ax : Axis) : Py (Quantity K) := attach (q.mag.reduceNE NDArr.lptp ax) q.dim

/-- `Quantity.mean` (`quantity.py` 699-708). -/
def mean (q : Quantity K) (ax : Axis) : Py (Quantity K) := q.meanBy NDArr.lmean ax

/-- `Quantity.var` (`quantity.py` 717-726). -/
def var (q : Quantity K) (ax : Axis) (ddof : ℚ) : Py (Quantity K) :=
  attach (q.mag.reduce (NDArr.lvar ddof) ax) (Dim.pow q.dim 2)

/-- `Quantity.std` (`quantity.py` 728-737). -/
def std (q : Quantity K) (ax : Axis) (ddof : ℚ) : Py (Quantity K) :=
  attach (q.mag.reduce (NDArr.lstd ddof) ax) q.dim

/-- `Quantity.prod` (`quantity.py` 746-760). -/
def prod (q : Quantity K) (ax : Axis) : Py (Quantity K) := q.prodBy List.prod ax

/-- `Quantity.cumsum` (`quantity.py` 762-771). -/
def cumsum (q : Quantity K) (ax : Axis) : Py (Quantity K) := q.cumsumBy List.sum ax

/-- `Quantity.cumprod` (`quantity.py` 773-787; `umath.cumprod`, `umath.py` 57-63, calls it). -/
def cumprod (q : Quantity K) (ax : Axis) : Py (Quantity K) :=
  if !q.dim.isEmpty then .error .valueError else attach (q.mag.cumulate List.prod ax) q.dim

/-- `Quantity.trace` (`quantity.py` 681-690). -/
def trace (q : Quantity K) (offset axis1 axis2 : Int) : Py (Quantity K) :=
  attach (q.mag.trace offset axis1 axis2) q.dim

/-- `Quantity.round` (`quantity.py` 670-679), also `round(q, decimals)`: `Quantity.__round__` (`quantity.py`
409-410) calls `np.around`, which calls the method; `rnd` is `np.round(·, decimals)` on one number. -/
def round (q : Quantity K) (rnd : K → K) : Py (Quantity K) := attach (.ok (q.mag.map rnd)) q.dim

/-! ### Positions: plain arrays, no units -/

/-- `Quantity.argmax` (`quantity.py` 591-593). -/
def argmax (q : Quantity K) (ax : Axis) : Py (NDArr Nat) :=
  q.mag.argreduce (fun x y => decide (x < y)) ax

/-- `Quantity.argmin` (`quantity.py` 620-622). -/
def argmin (q : Quantity K) (ax : Axis) : Py (NDArr Nat) :=
  q.mag.argreduce (fun x y => decide (y < x)) ax

/-- `Quantity.argsort` (`quantity.py` 562-564). -/
def argsort (q : Quantity K) (alg : NDArr.SortAlg) (ax : Axis) : Py (NDArr Nat) := q.mag.argsort alg ax

/-- `Quantity.nonzero` (`quantity.py` 576-578). -/
def nonzero (q : Quantity K) : List (List Nat) := q.mag.nonzero

/-- `Quantity.searchsorted` (`quantity.py` 566-574): the units must be equal, nothing is converted. -/
def searchsorted (w : World K) (q : Quantity K) (values : Operand K) (right : Bool) :
    Py (NDArr Nat) :=
  let v := values.toQuantity
  if w.dne v.dim q.dim then .error .valueError else q.mag.searchsorted right v.mag

/-- `x.rescale(self._dimensionality).magnitude` for a bound of `clip`; an absent bound is an infinite
quantity in the units of `self` (`quantity.py` 648-649, whose rescaling is trivial), and a plain
number has no `rescale`. -/
def clipBound (w : World K) (q : Quantity K) : Option (Operand K) → Py (Option (NDArr K))
  | none => .ok none
  | some (.quantity b) => (b.rescale w q.dim).map (fun r => some r.mag)
  | some (.array _) => .error .attributeError

/-- `isinstance(bound, Quantity)` after an absent bound was replaced by an infinite quantity. -/
def isQBound : Option (Operand K) → Bool
  | some (.array _) => false
  | _ => true

/-- `Quantity.clip` (`quantity.py` 643-668). -/
def clip (w : World K) (q : Quantity K) (lo hi : Option (Operand K)) : Py (Quantity K) :=
  if lo.isNone && hi.isNone then .error .valueError
  else if !q.dim.isEmpty && !(isQBound lo && isQBound hi) then .error .valueError
  else
    match clipBound w q lo with
    | .error e => .error e
    | .ok l =>
      match clipBound w q hi with
      | .error e => .error e
      | .ok h => attach (q.mag.clip l h) q.dim

end

/-! ### nan-aware reductions

Elements are `Option K`, `none` being nan.  Scaling by a conversion factor keeps nan. -/

section
variable [Field K] [LinearOrder K] [RPow K]

/-- `Quantity.rescale` (`quantity.py` 211-241) of an array with nans. -/
def rescaleNan (w : World K) (q : Quantity (Option K)) (toD : Dim) : Py (Quantity (Option K)) :=
  if w.deq q.dim toD then .ok q
  else
    match w.convFactor q.dim toD with
    | .ok cf => .ok ⟨q.mag.map (Option.map (fun x => cf * x)), toD⟩
    | .error .assertionError => .error .valueError
    | .error e => .error e

/-- Reduce the elements that are not nan; nan if there are none and `empty` is `none`. -/
def nanOver (f : List K → K) (empty : Option K) (l : List (Option K)) : Option K :=
  match l.reduceOption with
  | [] => empty
  | x :: xs => some (f (x :: xs))

/-- `Quantity.nansum` (`quantity.py` 529-535): nan counts as 0. -/
def nansum (q : Quantity (Option K)) (ax : Axis) : Py (Quantity (Option K)) :=
  attach (q.mag.reduce (nanOver List.sum (some 0)) ax) q.dim

/-- `Quantity.nanmean` (`quantity.py` 710-715). -/
def nanmean (q : Quantity (Option K)) (ax : Axis) : Py (Quantity (Option K)) :=
  attach (q.mag.reduce (nanOver NDArr.lmean none) ax) q.dim

/-- `Quantity.nanstd` (`quantity.py` 739-744); nan unless more than `ddof` elements count. -/
def nanstd (q : Quantity (Option K)) (ax : Axis) (ddof : ℚ) : Py (Quantity (Option K)) :=
  attach (q.mag.reduce (fun l =>
    if (l.reduceOption.length : ℚ) ≤ ddof then none else nanOver (NDArr.lstd ddof) none l) ax) q.dim

/-- `Quantity.nanmax` (`quantity.py` 595-600): `axis` is accepted and ignored. -/
def nanmax (q : Quantity (Option K)) (_ax : Axis) : Py (Quantity (Option K)) :=
  attach (q.mag.reduceNE (nanOver NDArr.lmax none) .all) q.dim

/-- `Quantity.nanmin` (`quantity.py` 613-618): `axis` is accepted and ignored. -/
def nanmin (q : Quantity (Option K)) (_ax : Axis) : Py (Quantity (Option K)) :=
  attach (q.mag.reduceNE (nanOver NDArr.lmin none) .all) q.dim

end
end Quantity
end PQ
