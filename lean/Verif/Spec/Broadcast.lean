import Verif.Spec.Arrays

/-!
# Broadcasting, axis by axis

Two arrays of different shapes are combined as numpy's documentation says: axes are matched starting
from the innermost one, a missing axis counts as one of length 1, two axes match when their lengths are
equal or one of them is 1, and an axis of length 1 is repeated.
-/

namespace PQ.NDArr

/-- Length of the `k`-th axis counted from the innermost one. -/
def axisLen (s : List Nat) (k : Nat) : Nat := (s.reverse[k]?).getD 1

/-- The shapes can be broadcast together. -/
def Broadcastable (s t : List Nat) : Prop :=
  ∀ k, axisLen s k = axisLen t k ∨ axisLen s k = 1 ∨ axisLen t k = 1

/-- `r` is the broadcast of the shapes `s` and `t`. -/
def BroadcastShape (s t r : List Nat) : Prop :=
  r.length = max s.length t.length ∧
    ∀ k, axisLen r k = if axisLen s k = 1 then axisLen t k else axisLen s k

/-- The place `j` of an operand of shape `s` is the one repeated at the place `i` of the result: same
coordinates counted from the innermost axis, 0 along axes of length 1. -/
def Under (s i j : List Nat) : Prop :=
  InB s j ∧ ∀ k : Nat, k < s.length → j.reverse[k]? = if axisLen s k = 1 then some 0 else i.reverse[k]?

/-- `r` is `f` of `x` and `y`, element by element after broadcasting. -/
structure BroadcastOf {α β γ : Type _} (f : α → β → γ) (x : NDArr α) (y : NDArr β) (r : NDArr γ) : Prop where
  fits : Broadcastable x.shape y.shape
  shape : BroadcastShape x.shape y.shape r.shape
  elem : ∀ i, InB r.shape i → ∃ j k, Under x.shape i j ∧ Under y.shape i k ∧
    r.elem i = f (x.elem j) (y.elem k)

/-- An array of shape `s` can be assigned to a place of shape `t`: counted from the innermost one, every
axis of it has the length of the destination's or length 1. -/
def Assignable (s t : List Nat) : Prop := ∀ k, axisLen s k = axisLen t k ∨ axisLen s k = 1

/-- `a` is `x` repeated to the shape `t`. -/
structure AssignedTo {α : Type _} (t : List Nat) (x a : NDArr α) : Prop where
  fits : Assignable x.shape t
  shape : a.shape = t
  elem : ∀ i, InB t i → ∃ j, Under x.shape i j ∧ a.elem i = x.elem j

end PQ.NDArr
