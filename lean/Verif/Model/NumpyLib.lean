import Verif.Model.NDReduce

/-!
# Library functions of numpy used by `quantities/umath.py`

`np.diff`, `np.ediff1d`, `np.gradient`, `np.cross`, `np.unwrap`, and the trapezoidal rule ported from
numpy 1.26 in `umath.py` (which calls scipy's identical `trapezoid` when scipy is installed).
-/

namespace PQ
namespace NDArr

variable {K : Type _}

/-- `a[1:]` along axis `n`. -/
def tailAx (n : Nat) (a : NDArr K) : NDArr K :=
  ⟨a.shape.set n (a.shape.getD n 0 - 1), fun i => a.elem (i.set n (i.getD n 0 + 1))⟩

/-- `a[:-1]` along axis `n`. -/
def initAx (n : Nat) (a : NDArr K) : NDArr K :=
  ⟨a.shape.set n (a.shape.getD n 0 - 1), a.elem⟩

/-- `n` steps of `a = subtract(a[1:], a[:-1])` along axis `ax`. -/
def diffLoop [Sub K] (ax : Nat) : Nat → NDArr K → Py (NDArr K)
  | 0, a => .ok a
  | n + 1, a =>
    match bin (· - ·) (tailAx ax a) (initAx ax a) with
    | .error e => .error e
    | .ok b => diffLoop ax n b

/-- `np.diff(a, n, axis)`. -/
def diff [Sub K] (n : Int) (ax : Int) (a : NDArr K) : Py (NDArr K) :=
  if n = 0 then .ok a
  else if n < 0 then .error .valueError
  else if a.shape = [] then .error .valueError
  else
    match normAxis a.shape.length ax with
    | .error e => .error e
    | .ok k => diffLoop k n.toNat a

/-- A one-dimensional array from a list. -/
def ofList [Zero K] (l : List K) : NDArr K := ⟨[l.length], fun i => l.getD (i.headD 0) 0⟩

/-- `np.ediff1d(a, to_end, to_begin)`: the differences of the flattened array, with the given values
around them. -/
def ediff1d [Zero K] [Sub K] (a : NDArr K) (toEnd toBegin : Option (NDArr K)) : NDArr K :=
  ofList ((toBegin.elim [] toList) ++ List.zipWith (· - ·) a.toList.tail a.toList ++
    (toEnd.elim [] toList))

/-- Component `k` of the vectors along the last axis (0 for the absent third component of 2-vectors). -/
def comps [Zero K] (a : NDArr K) : NDArr (Nat → K) :=
  ⟨a.shape.dropLast, fun i k => if k < a.shape.getLastD 0 then a.elem (i ++ [k]) else 0⟩

/-- The cross product of two vectors. -/
def cross3 [Mul K] [Sub K] (x y : Nat → K) : Nat → K
  | 0 => x 1 * y 2 - x 2 * y 1
  | 1 => x 2 * y 0 - x 0 * y 2
  | _ => x 0 * y 1 - x 1 * y 0

/-- `np.cross(a, b)` along the last axes (`axisa = axisb = axisc = -1`); two 2-vectors give only the
third component. -/
def cross [Zero K] [Mul K] [Sub K] (a b : NDArr K) : Py (NDArr K) :=
  let m := a.shape.getLastD 0
  let n := b.shape.getLastD 0
  if (m = 2 ∨ m = 3) ∧ (n = 2 ∨ n = 3) then
    match bin cross3 (comps a) (comps b) with
    | .error e => .error e
    | .ok c =>
      if m = 2 ∧ n = 2 then .ok (c.map (fun x => x 2))
      else .ok ⟨c.shape ++ [3], fun i => c.elem i.dropLast (i.getLastD 0)⟩
  else .error .valueError

/-- `list[axis]`: an `IndexError` where numpy would raise `AxisError`. -/
def listAxis (nd : Nat) (ax : Int) : Py Nat :=
  match normAxis nd ax with
  | .ok n => .ok n
  | .error _ => .error .indexError

/-- The widths of the trapezoids for sample points `x` (`umath.py` 217-225). -/
def widths [Sub K] (nd : Nat) (x : NDArr K) (ax : Int) : Py (NDArr K) :=
  if x.shape.length = 1 then
    match diff 1 (-1) x with
    | .error e => .error e
    | .ok d =>
      match listAxis nd ax with
      | .error e => .error e
      | .ok k => .ok ⟨(List.replicate nd 1).set k (d.shape.headD 0), fun i => d.elem [i.getD k 0]⟩
  else diff 1 ax x

/-- The widths: from the sample points if given, otherwise `dx` (`umath.py` 214-225). -/
def trapzWidths [Sub K] (nd : Nat) (x : Option (NDArr K)) (dx : NDArr K) (ax : Int) : Py (NDArr K) :=
  match x with
  | none => .ok dx
  | some x => widths nd x ax

/-- `_trapz(y, x, dx, axis)` (`umath.py` 204-240). -/
def trapz [Field K] (y : NDArr K) (x : Option (NDArr K)) (dx : NDArr K) (ax : Int) : Py (NDArr K) :=
  match trapzWidths y.shape.length x dx ax with
  | .error e => .error e
  | .ok d =>
    match listAxis y.shape.length ax with
    | .error e => .error e
    | .ok k =>
      match bin (· + ·) (tailAx k y) (initAx k y) with
      | .error e => .error e
      | .ok s =>
        match bin (· * ·) d s with
        | .error e => .error e
        | .ok p => (p.map (fun t => t / 2)).reduce List.sum (.one ax)

/-! ## `np.gradient` -/

/-- Spacing along one axis: a distance, or the widths between given coordinates. -/
inductive Spacing (K : Type _)
  | uniform (h : K)
  | widths (d : Nat → K)

/-- First differences at the ends, second-order central differences inside (`edge_order=1`). -/
def gradEl [Field K] (f : Nat → K) (len j : Nat) : Spacing K → K
  | .uniform h =>
    if j = 0 then (f 1 - f 0) / h
    else if j + 1 = len then (f (len - 1) - f (len - 2)) / h
    else (f (j + 1) - f (j - 1)) / (2 * h)
  | .widths d =>
    if j = 0 then (f 1 - f 0) / d 0
    else if j + 1 = len then (f (len - 1) - f (len - 2)) / d (len - 2)
    else
      (-(d j) / (d (j - 1) * (d (j - 1) + d j))) * f (j - 1) +
      ((d j - d (j - 1)) / (d (j - 1) * d j)) * f j +
      (d (j - 1) / (d j * (d (j - 1) + d j))) * f (j + 1)

/-- The gradient along axis `n`. -/
def gradAx [Field K] (a : NDArr K) (n : Nat) (s : Spacing K) : NDArr K :=
  ⟨a.shape, fun i => gradEl (fun j => a.elem (i.set n j)) (a.shape.getD n 0) (i.getD n 0) s⟩

/-- Differences of neighbouring coordinates. -/
def gaps [Sub K] (h : NDArr K) (j : Nat) : K := h.elem [j + 1] - h.elem [j]

/-- `(diffx == diffx[0]).all()` for `n` gaps. -/
def allEq [DecidableEq K] (n : Nat) (d : Nat → K) : Bool :=
  (List.range n).all (fun j => decide (d j = d 0))

/-- How `np.gradient` reads one of its distance arguments for an axis of length `len`. -/
def spacing [Sub K] [DecidableEq K] (len : Nat) (h : NDArr K) : Py (Spacing K) :=
  match h.shape with
  | [] => .ok (.uniform (h.elem []))
  | [n] =>
    if n ≠ len then .error .valueError
    else if n < 2 then .error .indexError
    else if allEq (n - 1) h.gaps then .ok (.uniform (h.gaps 0))
    else .ok (.widths h.gaps)
  | _ => .error .valueError

/-- Pair every axis with its distance argument. -/
def spacings [Sub K] [DecidableEq K] : List Nat → List (NDArr K) → Py (List (Spacing K))
  | len :: s, h :: hs =>
    match spacing len h with
    | .error e => .error e
    | .ok x =>
      match spacings s hs with
      | .error e => .error e
      | .ok xs => .ok (x :: xs)
  | _, _ => .ok []

/-- The distance arguments after the checks on their number. -/
def gradArgs [Field K] [DecidableEq K] (a : NDArr K) (hs : List (NDArr K)) :
    Py (List (Spacing K)) :=
  if hs.length = 0 then .ok (a.shape.map (fun _ => .uniform 1))
  else
    match hs with
    | [⟨[], e⟩] => .ok (a.shape.map (fun _ => .uniform (e [])))
    | hs => if hs.length = a.shape.length then spacings a.shape hs else .error .typeError

/-- `np.gradient(a, *hs)`: one array per axis. -/
def gradient [Field K] [DecidableEq K] (a : NDArr K) (hs : List (NDArr K)) : Py (List (NDArr K)) :=
  match gradArgs a hs with
  | .error e => .error e
  | .ok ss =>
    if a.shape.any (fun n => decide (n < 2)) then .error .valueError
    else .ok (List.zipWith (fun n s => gradAx a n s) (List.range a.shape.length) ss)

/-- What a caller that iterates over the value of `np.gradient` sees: for a one-dimensional array
numpy returns the only gradient itself, so its elements. -/
def gradientIter [Field K] [DecidableEq K] (a : NDArr K) (hs : List (NDArr K)) :
    Py (List (NDArr K)) :=
  match gradient a hs with
  | .error e => .error e
  | .ok gs =>
    match a.shape, gs with
    | [n], [g] => .ok ((List.range n).map (fun j => NDArr.scalar (g.elem [j])))
    | _, gs => .ok gs

/-! ## `np.unwrap` -/

/-- `mod(x, p)` for numbers. -/
def unwrapMod [Field K] (floor : K → K) (x p : K) : K := x - p * floor (x / p)

/-- The correction of one difference `dd` (before the discontinuity test). -/
def unwrapCorr [Field K] [LinearOrder K] (floor : K → K) (period dd : K) : K :=
  let hi := period / 2
  let lo := -hi
  let m := unwrapMod floor (dd - lo) period + lo
  (if m = lo ∧ 0 < dd then hi else m) - dd

/-- `np.unwrap(p, discont, axis)` with `period`. -/
def unwrap [Field K] [LinearOrder K] (floor : K → K) (period : K) (p discont : NDArr K) (ax : Int) :
    Py (NDArr K) :=
  match diff 1 ax p with
  | .error e => .error e
  | .ok dd =>
    match normAxis p.shape.length ax with
    | .error e => .error e
    | .ok k =>
      match bin (fun (x t : K) => if |x| < t then 0 else unwrapCorr floor period x) dd discont with
      | .error e => .error e
      | .ok c =>
        match cumulate List.sum (.one ax) c with
        | .error e => .error e
        | .ok s => .ok ⟨p.shape, fun i =>
            if i.getD k 0 = 0 then p.elem i else p.elem i + s.elem (i.set k (i.getD k 0 - 1))⟩

end NDArr
end PQ
