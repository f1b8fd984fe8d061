import Verif.Model.Py

/-!
# numpy arrays (the part of numpy the modelled code relies on)

An array is its shape and a function from multi-indices to elements.  Elementwise binary operations
broadcast exactly as numpy does.  `dtype` is not part of this module.
-/

namespace PQ

/-- `x ** e` on magnitudes (`np.power` with a scalar exponent). -/
class RPow (K : Type _) where
  rpow : K → Rat → K

export RPow (rpow)

/-- A numpy array. Only the values of `elem` at indices inside `shape` are observable. -/
structure NDArr (α : Type _) where
  shape : List Nat
  elem : List Nat → α

namespace NDArr

/-- A 0-d array. -/
def scalar {α : Type _} (a : α) : NDArr α := ⟨[], fun _ => a⟩

/-- Elementwise unary operation. -/
def map {α β : Type _} (f : α → β) (a : NDArr α) : NDArr β := ⟨a.shape, fun i => f (a.elem i)⟩

/-- numpy's broadcasting rule for one axis. -/
def baxis (m n : Nat) : Option Nat :=
  if m = n then some m else if m = 1 then some n else if n = 1 then some m else none

/-- Broadcast two shapes, given innermost axis first. -/
def bshapeRev : List Nat → List Nat → Option (List Nat)
  | [], t => some t
  | s, [] => some s
  | m :: s, n :: t =>
    match baxis m n, bshapeRev s t with
    | some k, some r => some (k :: r)
    | _, _ => none

/-- numpy's broadcast of two shapes (aligned at the innermost axis). -/
def bshape (s t : List Nat) : Option (List Nat) := (bshapeRev s.reverse t.reverse).map List.reverse

/-- The index into an operand of shape `s` that a result index `i` reads: align at the innermost
axis and read axes of length 1 at position 0. -/
def bidx (s i : List Nat) : List Nat :=
  List.zipWith (fun d j => if d = 1 then 0 else j) s (i.drop (i.length - s.length))

/-- Elementwise binary operation with broadcasting; `ValueError` when the shapes do not broadcast. -/
def bin {α β γ : Type _} (f : α → β → γ) (a : NDArr α) (b : NDArr β) : Py (NDArr γ) :=
  match bshape a.shape b.shape with
  | some s => .ok ⟨s, fun i => f (a.elem (bidx a.shape i)) (b.elem (bidx b.shape i))⟩
  | none => .error .valueError

/-- All multi-indices of a shape in row-major order. -/
def indices : List Nat → List (List Nat)
  | [] => [[]]
  | n :: s => (List.range n).flatMap (fun j => (indices s).map (fun r => j :: r))

/-- The elements in row-major order (`a.ravel()`). -/
def toList {α : Type _} (a : NDArr α) : List α := (indices a.shape).map a.elem

/-- `a.size`. -/
def size {α : Type _} (a : NDArr α) : Nat := a.shape.prod

end NDArr
end PQ
