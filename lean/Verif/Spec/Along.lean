import Verif.Spec.Positions
import Verif.Model.NDReduce

/-!
# Reducing along axes

What the `axis` argument of `sum`, `max` and the like means: which axes it names, and which elements of
the array are combined into which element of the result.
-/

namespace PQ.NDArr

/-- The integer `a` names the axis `n` of an array with `nd` axes: `n` itself, or counted from the end. -/
def NamesAxis (nd : Nat) (a : Int) (n : Nat) : Prop := n < nd ∧ (a = n ∨ a = (n : Int) - nd)

/-- The argument `axis` names the axes `S`: all of them for `None`, otherwise distinct ones. -/
def NamesAxes (nd : Nat) : Axis → List Nat → Prop
  | .all, S => S = List.range nd
  | .one a, S => ∃ n, NamesAxis nd a n ∧ S = [n]
  | .many as, S => List.Forall₂ (NamesAxis nd) as S ∧ S.Nodup

/-- The coordinates of `j` along the axes that are not in `S`, in order (also: the lengths of those axes,
for a shape `j`). -/
def without (S j : List Nat) : List Nat :=
  ((List.range j.length).filter (fun k => k ∉ S)).map (fun k => j.getD k 0)

/-- The elements of `a`, in row-major order, that are combined into the element `i` of the result when the
axes `S` are reduced: those at places whose other coordinates are `i`. -/
def over {α : Type _} (a : NDArr α) (S i : List Nat) : List α :=
  ((indices a.shape).filter (fun j => without S j = i)).map a.elem

/-- `r` is obtained from `a` by reducing the axes `S`: every element of `r` is related by `R` to the elements
it combines. -/
structure Along {α β : Type _} (R : List α → β → Prop) (S : List Nat) (a : NDArr α) (r : NDArr β) : Prop where
  shape : r.shape = without S a.shape
  elem : ∀ i, InB r.shape i → R (over a S i) (r.elem i)

/-- The elements of `a` on the line along the axis `n` through the place `i`, up to and including `i`. -/
def upTo {α : Type _} (a : NDArr α) (n : Nat) (i : List Nat) : List α :=
  ((indices a.shape).filter (fun j => without [n] j = without [n] i ∧ j.getD n 0 ≤ i.getD n 0)).map a.elem

/-- The elements of `a` whose row-major number is at most `k`. -/
def upToNumber {α : Type _} (a : NDArr α) (k : Nat) : List α :=
  ((indices a.shape).filter (fun j => rowMajor a.shape j ≤ k)).map a.elem

/-- The elements of `a` on the diagonal `offset` of the plane of the axes `n1` and `n2` in which the other
coordinates are `i`: the second coordinate exceeds the first by `offset`. -/
def diagonal {α : Type _} (a : NDArr α) (n1 n2 : Nat) (offset : Int) (i : List Nat) : List α :=
  ((indices a.shape).filter (fun j => without [n1, n2] j = i ∧
    (j.getD n2 0 : Int) - (j.getD n1 0 : Int) = offset)).map a.elem

/-- The numbers in a list, nans left out. -/
def numbers {K : Type _} (l : List (Option K)) : List K := l.filterMap id

end PQ.NDArr
