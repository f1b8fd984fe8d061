import Verif.Model.Construct
import Verif.Spec.Arrays
import Verif.Spec.Physical

/-!
# Nested lists

What is at a position of a nested list, and which nested lists are arrays.
-/

namespace PQ

variable {K : Type _}

/-- `l[i][j]...`: the entry of a nested list at an index. -/
def Nested.get {α : Type _} : Nested α → List Nat → Option (Nested α)
  | x, [] => some x
  | .leaf _, _ :: _ => none
  | .list l, i :: r =>
    match l[i]? with
    | none => none
    | some x => Nested.get x r
  termination_by _ r => r.length

/-- The length of a nested list. -/
def Nested.length? {α : Type _} : Nested α → Option Nat
  | .leaf _ => none
  | .list l => some l.length

mutual
/-- Nested lists of quantities as data for a new quantity. -/
def Nested.asData : Nested (Quantity K) → Nested (Operand K)
  | .leaf q => .leaf (.quantity q)
  | .list l => .list (Nested.asDataList l)
/-- The entries of a list. -/
def Nested.asDataList : List (Nested (Quantity K)) → List (Nested (Operand K))
  | [] => []
  | n :: l => Nested.asData n :: Nested.asDataList l
end

/-- The nested list is a regular array of shape `s`: all entries of a list have one shape, to which the length of
the list is prepended. -/
inductive Nested.HasShape : Nested (Operand K) → List Nat → Prop
  | leaf (x : Operand K) : HasShape (.leaf x) x.arr.shape
  | empty : HasShape (.list []) [0]
  | list (l : List (Nested (Operand K))) (s : List Nat) : l ≠ [] → (∀ n ∈ l, HasShape n s) →
      HasShape (.list l) (l.length :: s)

/-- The number found at index `i`: an entry of the nested list, or an element of an array in it. -/
def Nested.ElemAt (n : Nested (Operand K)) (i : List Nat) (x : Operand K) (c : K) : Prop :=
  ∃ p j, i = p ++ j ∧ n.get p = some (.leaf x) ∧ NDArr.InB x.arr.shape j ∧ x.arr.elem j = c

end PQ
