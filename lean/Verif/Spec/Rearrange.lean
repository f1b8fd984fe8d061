import Verif.Spec.Along
import Verif.Spec.Subscript
import Verif.Spec.Calculus
import Verif.Model.Uncertain

/-!
# What rearranging methods do
-/

namespace PQ

open NDArr

/-- `u` is the shape `t` with a length put in for every `-1` (`none`), and has `size` elements. -/
def FillsIn (size : Nat) (t : List (Option Nat)) (u : List Nat) : Prop :=
  List.Forall₂ (fun x n => x = none ∨ x = some n) t u ∧ u.prod = size

/-- `i` is `j` with the entries `n` and `m` exchanged. -/
def Swapped (n m : Nat) (j i : List Nat) : Prop :=
  i.length = j.length ∧ i.getD n 0 = j.getD m 0 ∧ i.getD m 0 = j.getD n 0 ∧
    ∀ k, k ≠ n → k ≠ m → i.getD k 0 = j.getD k 0

/-- The `m`-th position (from 0) at which the condition `c` holds is `x`. -/
def NthTrue (c : List Bool) (m x : Nat) : Prop :=
  c[x]? = some true ∧ (c.take x).count true = m

/-- The measurement `(x, s)`, a value and its uncertainty, is one of those in `a`. -/
def UQ.Has {K : Type _} (a : UQ K) (x s : K) : Prop :=
  ∃ i, InB a.val.mag.shape i ∧ a.val.mag.elem i = x ∧ a.unc.mag.elem i = s

end PQ
