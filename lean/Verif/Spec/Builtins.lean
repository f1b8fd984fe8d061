import Verif.Model.Builtins
import Verif.Spec.Expressions

/-!
# What the built-in functions should do to a sequence of quantities
-/

namespace PQ

variable {K : Type _} [Field K] [LinearOrder K] [RPow K]

/-- The physical value of an operand with a single element. -/
def PyVal.value {w : World K} (v : Valuation w) (x : PyVal K) : K := (x.phys v).elem []

/-- A sequence of units and quantities (with or without uncertainty) of single values in existing units, no
two of which are told equal by a hash collision. -/
structure Scalars (w : World K) (xs : List (PyVal K)) : Prop where
  units : ∀ x ∈ xs, match x with | .array _ => False | _ => True
  single : ∀ x ∈ xs, x.mag.shape = []
  known : ∀ x ∈ xs, DimOK w x.dim
  safe : ∀ x ∈ xs, ∀ y ∈ xs, HashSafe w x.dim y.dim

/-- Any two of the sequence can be compared. -/
def AllCompatible (w : World K) (xs : List (PyVal K)) : Prop :=
  ∀ x ∈ xs, ∀ y ∈ xs, Compatible w x.dim y.dim

/-- The sorting algorithm is correct and stable: of any `n` numbers it finds the ascending order, equal ones in
the order they came. -/
def CmpSort.Correct (K : Type _) [LinearOrder K] {n : Nat} (alg : CmpSort n) : Prop :=
  ∀ f : Fin n → K, ∃ order, alg.run (fun i j => .ok (decide (f i < f j))) = .ok order ∧
    order.Perm (List.finRange n) ∧ order.Pairwise (fun i j => f i < f j ∨ f i = f j ∧ i < j)

end PQ
