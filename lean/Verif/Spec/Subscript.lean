import Verif.Model.Subscript
import Verif.Spec.Arrays

/-!
# What subscripts mean

From the Python reference: `s[i:j:k]` is "the sequence of items with index `x = i + m*k`", where omitted ends are the
ends of the sequence in the direction of travel, negative ends count from the end of the sequence, and
ends beyond the sequence are brought to its border.
-/

namespace PQ

/-- A given end of a slice counted from the beginning. -/
def fromStart (n : Nat) (b : Int) : Int := if b < 0 then b + n else b

/-- Where a slice with step `k` of `n` items begins: at the item given, or at the first item in the
direction of travel if none is given or the one given lies before it. -/
def sliceFirst (n : Nat) (k : Int) (start : Option Int) : Int :=
  match start with
  | none => if 0 < k then 0 else n - 1
  | some b => if 0 < k then max (fromStart n b) 0 else min (fromStart n b) (n - 1)

/-- The slice has not reached its end at `x`. -/
def BeforeEnd (n : Nat) (k : Int) (stop : Option Int) (x : Int) : Prop :=
  match stop with
  | none => True
  | some b => if 0 < k then x < fromStart n b else fromStart n b < x

/-- `x` is the item number `m` of the slice `start:stop:step` of `n` items. -/
def SliceItem (n : Nat) (start stop step : Option Int) (m x : Nat) : Prop :=
  step.getD 1 ≠ 0 ∧ (x : Int) = sliceFirst n (step.getD 1) start + m * step.getD 1 ∧ x < n ∧
    BeforeEnd n (step.getD 1) stop x

/-- `x` is an item of `n` items, possibly counted from the end. -/
def AxisItem (n : Nat) (i : Int) (x : Nat) : Prop := x < n ∧ (i = x ∨ i = (x : Int) - n)

/-- The subscript `ks`, applied to an array of shape `s`, has at the place `i` the element that the array has at
the place `j`. -/
inductive Picks : List Sub → List Nat → List Nat → List Nat → Prop
  | nil {s i} : Picks [] s i i
  | newaxis {ks s i j} : Picks ks s i j → Picks (.newaxis :: ks) s (0 :: i) j
  | int {ks s i j n x p} : AxisItem n x p → Picks ks s i j → Picks (.int x :: ks) (n :: s) i (p :: j)
  | slice {ks s i j n a b c m x} : SliceItem n a b c m x → Picks ks s i j →
      Picks (.slice a b c :: ks) (n :: s) (m :: i) (x :: j)
  | ellipsis {ks s₀ s i₀ i j} : i₀.length = s₀.length → s.length = (ks.map Sub.uses).sum → Picks ks s i j →
      Picks (.ellipsis :: ks) (s₀ ++ s) (i₀ ++ i) (i₀ ++ j)

/-- The subscript is one numpy accepts for the shape `s`. -/
inductive Fits : List Sub → List Nat → Prop
  | nil {s} : Fits [] s
  | newaxis {ks s} : Fits ks s → Fits (.newaxis :: ks) s
  | int {ks s n x p} : AxisItem n x p → Fits ks s → Fits (.int x :: ks) (n :: s)
  | slice {ks s n a b c} : c ≠ some 0 → Fits ks s → Fits (.slice a b c :: ks) (n :: s)
  | ellipsis {ks s₀ s} : Sub.ellipsis ∉ ks → s.length = (ks.map Sub.uses).sum → Fits ks s →
      Fits (.ellipsis :: ks) (s₀ ++ s)

end PQ
