import Verif.Model.NDArr
import Mathlib.Data.List.Forall2

/-!
# When two arrays are the same

Only the elements at indices inside the shape are observable.
-/

namespace PQ.NDArr

/-- `i` is a valid index into an array of shape `s`. -/
def InB (s i : List Nat) : Prop := List.Forall₂ (· < ·) i s

/-- Same shape and same elements. -/
def Same {α : Type _} (a b : NDArr α) : Prop :=
  a.shape = b.shape ∧ ∀ i, InB a.shape i → a.elem i = b.elem i

/-- Every element of `a` satisfies `P`. -/
def All {α : Type _} (P : α → Prop) (a : NDArr α) : Prop := ∀ i, InB a.shape i → P (a.elem i)

end PQ.NDArr
