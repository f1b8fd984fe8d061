import Verif.Model.NDArr
import Mathlib.Algebra.Order.Field.Basic
import Mathlib.Data.Rat.Cast.Defs

/-!
# numpy reductions (the part of numpy the reduction methods of `Quantity` rely on)

`axis` may be `None`, an integer or a tuple.  Reductions over an axis are functions of the list of
elements along it, in row-major order; for exact numbers the order in which numpy adds does not
matter.  `keepdims`, `where` and `initial` do not occur in `quantities`.
-/

namespace PQ

/-- The `axis` argument of a numpy reduction. -/
inductive Axis
  | all
  | one (ax : Int)
  | many (axs : List Int)

namespace NDArr

/-- numpy's `normalize_axis_index`: negative axes count from the end; otherwise `AxisError`, a
subclass of `ValueError`.  Simplified: most reductions, `repeat`, `take` and `compress` also accept the axes 0
and -1 of an array without axes; here they are refused like any other axis it does not have. -/
def normAxis (nd : Nat) (ax : Int) : Py Nat :=
  if 0 ≤ ax ∧ ax < nd then .ok ax.toNat
  else if -(nd : Int) ≤ ax ∧ ax < 0 then .ok (ax + nd).toNat
  else .error .valueError

/-- Normalise a tuple of axes; repeating an axis is a `ValueError`. -/
def normAxes (nd : Nat) : List Int → Py (List Nat)
  | [] => .ok []
  | ax :: axs =>
    match normAxis nd ax with
    | .error e => .error e
    | .ok n =>
      match normAxes nd axs with
      | .error e => .error e
      | .ok ns => if n ∈ ns then .error .valueError else .ok (n :: ns)

/-- Which axes are reduced: one flag per axis. -/
def axisMask (nd : Nat) : Axis → Py (List Bool)
  | .all => .ok (List.replicate nd true)
  | .one ax =>
    match normAxis nd ax with
    | .error e => .error e
    | .ok n => .ok ((List.range nd).map (fun j => decide (j = n)))
  | .many axs =>
    match normAxes nd axs with
    | .error e => .error e
    | .ok ns => .ok ((List.range nd).map (fun j => decide (j ∈ ns)))

/-- The entries of `s` at the positions where the flag is `b`. -/
def pick (b : Bool) : List Bool → List Nat → List Nat
  | m :: ms, n :: s => if m = b then n :: pick b ms s else pick b ms s
  | _, _ => []

/-- Rebuild an index from its kept part `i` and its reduced part `r`. -/
def merge : List Bool → List Nat → List Nat → List Nat
  | [], _, _ => []
  | true :: ms, i, r :: rs => r :: merge ms i rs
  | true :: ms, i, [] => 0 :: merge ms i []
  | false :: ms, j :: i, r => j :: merge ms i r
  | false :: ms, [], r => 0 :: merge ms [] r

/-- Apply `f` to the elements along the reduced axes. -/
def reduceMask {α β : Type _} (f : List α → β) (m : List Bool) (a : NDArr α) : NDArr β :=
  ⟨pick false m a.shape,
   fun i => f ((indices (pick true m a.shape)).map (fun r => a.elem (merge m i r)))⟩

/-- A reduction with an identity (`sum`, `prod`) or without error for empty input (`mean`, `var`). -/
def reduce {α β : Type _} (f : List α → β) (ax : Axis) (a : NDArr α) : Py (NDArr β) :=
  match axisMask a.shape.length ax with
  | .error e => .error e
  | .ok m => .ok (reduceMask f m a)

/-- A reduction without identity (`min`, `max`): `ValueError` if an element of the result would be
the reduction of nothing. -/
def reduceNE {α β : Type _} (f : List α → β) (ax : Axis) (a : NDArr α) : Py (NDArr β) :=
  match axisMask a.shape.length ax with
  | .error e => .error e
  | .ok m =>
    if a.size = 0 ∧ (pick false m a.shape).prod ≠ 0 then .error .valueError
    else .ok (reduceMask f m a)

/-! ## The reductions of a list of numbers -/

/-- Largest element (0 for the empty list, where numpy raises). -/
def lmax {K : Type _} [Zero K] [LinearOrder K] : List K → K
  | [] => 0
  | x :: xs => xs.foldl max x

/-- Smallest element (0 for the empty list, where numpy raises). -/
def lmin {K : Type _} [Zero K] [LinearOrder K] : List K → K
  | [] => 0
  | x :: xs => xs.foldl min x

/-- `np.ptp` of a list. -/
def lptp {K : Type _} [Zero K] [Sub K] [LinearOrder K] (l : List K) : K := lmax l - lmin l

/-- Arithmetic mean (division by zero for the empty list, where numpy gives nan). -/
def lmean {K : Type _} [Field K] (l : List K) : K := l.sum / (l.length : K)

/-- Variance with `ddof`: numpy divides by `max(n - ddof, 0)`. -/
def lvar {K : Type _} [Field K] [LinearOrder K] (ddof : ℚ) (l : List K) : K :=
  (l.map (fun x => (x - lmean l) ^ 2)).sum / ((max ((l.length : ℚ) - ddof) 0 : ℚ) : K)

/-- Standard deviation: the square root of the variance. -/
def lstd {K : Type _} [Field K] [LinearOrder K] [RPow K] (ddof : ℚ) (l : List K) : K :=
  rpow (lvar ddof l) (1 / 2)

/-! ## Cumulative operations, diagonal -/

/-- `cumsum`/`cumprod` with the fold `f` of a list: flattened for `axis=None`, otherwise along the
axis. (A tuple is a `TypeError`.) -/
def cumulate {α : Type _} (f : List α → α) (ax : Axis) (a : NDArr α) : Py (NDArr α) :=
  match ax with
  | .all => .ok ⟨[a.size], fun i => f (a.toList.take (i.headD 0 + 1))⟩
  | .one x =>
    match normAxis a.shape.length x with
    | .error e => .error e
    | .ok n => .ok ⟨a.shape, fun i =>
        f ((List.range (i.getD n 0 + 1)).map (fun j => a.elem (i.set n j)))⟩
  | .many _ => .error .typeError

/-- Length of the diagonal at `offset` of an `r` by `c` matrix. -/
def diagLen (r c : Nat) (offset : Int) : Nat :=
  (min (r - max (-offset) 0) (c - max offset 0)).toNat

/-- `a.trace(offset, axis1, axis2)`: at least two axes, which must differ. -/
def trace {K : Type _} [AddMonoid K] (offset axis1 axis2 : Int) (a : NDArr K) : Py (NDArr K) :=
  if a.shape.length < 2 then .error .valueError
  else
    match normAxis a.shape.length axis1, normAxis a.shape.length axis2 with
    | .ok n1, .ok n2 =>
      if n1 = n2 then .error .valueError
      else
        let m := (List.range a.shape.length).map (fun j => decide (j = n1 ∨ j = n2))
        let len := diagLen (a.shape.getD n1 0) (a.shape.getD n2 0) offset
        let o1 := (max (-offset) 0).toNat
        let o2 := (max offset 0).toNat
        .ok ⟨pick false m a.shape, fun i =>
          ((List.range len).map (fun k =>
            a.elem (merge m i (if n1 < n2 then [k + o1, k + o2] else [k + o2, k + o1])))).sum⟩
    | _, _ => .error .valueError

/-! ## Positions -/

/-- Position of the first element that no other element beats (`lt y x`: `x` beats `y`). -/
def argbest {K : Type _} (lt : K → K → Bool) : List K → Nat
  | [] => 0
  | x :: xs => (xs.foldl (fun (s : Nat × Nat × K) y =>
      if lt s.2.2 y then (s.1 + 1, s.1, y) else (s.1 + 1, s.2.1, s.2.2)) (1, 0, x)).2.1

/-- `a.argmax(axis)` / `a.argmin(axis)`: flattened for `axis=None`; `ValueError` on empty input. -/
def argreduce {K : Type _} (lt : K → K → Bool) (ax : Axis) (a : NDArr K) : Py (NDArr Nat) :=
  match ax with
  | .all => if a.size = 0 then .error .valueError else .ok (NDArr.scalar (argbest lt a.toList))
  | .one x => reduceNE (argbest lt) (.one x) a
  | .many _ => .error .typeError

/-- `a.nonzero()` as the list of the indices, in row-major order. -/
def nonzero {K : Type _} [Zero K] [DecidableEq K] (a : NDArr K) : List (List Nat) :=
  (indices a.shape).filter (fun i => decide (a.elem i ≠ 0))

/-- A comparison-based sort: an arbitrary function of the table of comparisons `x_j < x_k` between
the elements (numpy's `quicksort`, `mergesort`, ...). -/
def SortAlg := (n : Nat) → (Nat → Nat → Bool) → List Nat

/-- The table of comparisons of a list. -/
def cmpAt {K : Type _} [LT K] [DecidableLT K] (l : List K) (j k : Nat) : Bool :=
  match l[j]?, l[k]? with
  | some x, some y => decide (x < y)
  | _, _ => false

/-- `a.argsort(axis)` with the comparison-based algorithm `alg`; `axis=None` flattens. -/
def argsort {K : Type _} [LT K] [DecidableLT K] (alg : SortAlg) (ax : Axis) (a : NDArr K) :
    Py (NDArr Nat) :=
  match ax with
  | .all =>
    .ok ⟨[a.size], fun i => (alg a.size (cmpAt a.toList)).getD (i.headD 0) 0⟩
  | .one x =>
    match normAxis a.shape.length x with
    | .error e => .error e
    | .ok n => .ok ⟨a.shape, fun i =>
        (alg (a.shape.getD n 0) (fun j k => decide (a.elem (i.set n j) < a.elem (i.set n k)))).getD
          (i.getD n 0) 0⟩
  | .many _ => .error .typeError

/-- `a.clip(lo, hi)`: `minimum(maximum(a, lo), hi)`; an absent bound stands for an infinite one. -/
def clip {K : Type _} [LinearOrder K] (a : NDArr K) (lo hi : Option (NDArr K)) : Py (NDArr K) :=
  match (match lo with | none => .ok a | some l => bin max a l : Py (NDArr K)) with
  | .error e => .error e
  | .ok m => match hi with | none => .ok m | some h => bin min m h

/-- numpy's binary search for one key: the smallest position in `[lo, lo+n]` where the key can be
inserted, `before x` telling that `x` goes before the key. -/
def bsearch {K : Type _} (before : K → Bool) (l : Array K) : Nat → Nat → Nat → Nat
  | 0, lo, _ => lo
  | fuel + 1, lo, hi =>
    if lo < hi then
      let mid := (lo + hi) / 2
      match l[mid]? with
      | some x => if before x then bsearch before l fuel (mid + 1) hi else bsearch before l fuel lo mid
      | none => lo
    else lo

/-- `a.searchsorted(v, side)`: one-dimensional `a` only. -/
def searchsorted {K : Type _} [LinearOrder K] (right : Bool) (a v : NDArr K) : Py (NDArr Nat) :=
  match a.shape with
  | [n] => .ok (v.map (fun key =>
      bsearch (fun x => if right then decide (x ≤ key) else decide (x < key))
        ((List.range n).map (fun j => a.elem [j])).toArray n 0 n))
  | _ => .error .valueError

end NDArr
end PQ
