import Verif.Spec.Arrays
import Verif.Spec.Physical

/-!
# Positions in an array

What the integers that `argmax` and its relatives return stand for: the row-major number of an
element, or its position along an axis.
-/

namespace PQ

/-- The row-major number of the element at index `i` of an array of shape `s`
(`np.ravel_multi_index`): the last axis varies fastest. -/
def rowMajor : List Nat → List Nat → Nat
  | _ :: s, j :: i => j * s.prod + rowMajor s i
  | _, _ => 0

/-- `p` is the row-major number of the first element of `a` that no other element beats. -/
def FirstBest {K : Type _} (beats : K → K → Prop) (a : NDArr K) (p : Nat) (i : List Nat) : Prop :=
  NDArr.InB a.shape i ∧ rowMajor a.shape i = p ∧
  (∀ j, NDArr.InB a.shape j → ¬ beats (a.elem j) (a.elem i)) ∧
  (∀ j, NDArr.InB a.shape j → rowMajor a.shape j < p → beats (a.elem i) (a.elem j))

/-- On the line of `a` along axis `n` through `i`, `p` is the position of the first element that no
other element of the line beats. -/
def FirstBestOnLine {K : Type _} (beats : K → K → Prop) (a : NDArr K) (n len : Nat) (i : List Nat) (p : Nat) : Prop :=
  p < len ∧
  (∀ j < len, ¬ beats (a.elem (i.insertIdx n j)) (a.elem (i.insertIdx n p))) ∧
  (∀ j < p, beats (a.elem (i.insertIdx n p)) (a.elem (i.insertIdx n j)))

/-- `p` is the row-major number of the first present value that no other present value beats. -/
def FirstBestPresent {K : Type _} (beats : K → K → Prop) (a : NDArr (Option K)) (p : Nat) (i : List Nat) : Prop :=
  NDArr.InB a.shape i ∧ rowMajor a.shape i = p ∧ ∃ x, a.elem i = some x ∧
  (∀ j y, NDArr.InB a.shape j → a.elem j = some y → ¬ beats y x) ∧
  (∀ j y, NDArr.InB a.shape j → rowMajor a.shape j < p → a.elem j = some y → beats x y)

end PQ
