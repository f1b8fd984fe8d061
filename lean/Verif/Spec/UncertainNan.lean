import Verif.Spec.Uncertain
import Verif.Model.UncertainNan

/-!
# Measurements with missing values

A measurement whose value is nan is missing.
-/

namespace PQ

variable {K : Type _} [Field K] [LinearOrder K] [RPow K] {w : World K}

/-- The measurements of an array with missing values: an element is a value, or nan, with its
uncertainty, or nan; as physical values. -/
def Valuation.measNan (v : Valuation w) (u : UQ (Option K)) : NDArr (Option K × Option K) :=
  ⟨u.val.mag.shape, fun i =>
    ((u.val.mag.elem i).map (· * v.size u.val.dim), (u.unc.mag.elem i).map (· * v.size u.unc.dim))⟩

/-- The measurements present in a list of elements; an unknown uncertainty counts as 0. -/
def present (l : List (Option K × Option K)) : List (Meas K) :=
  l.filterMap (fun p => p.1.map (fun x => ⟨x, p.2.getD 0⟩))

/-- Missing values come with a missing uncertainty. -/
def UQ.MissingTogether (u : UQ (Option K)) : Prop :=
  ∀ i, NDArr.InB u.val.mag.shape i → u.val.mag.elem i = none → u.unc.mag.elem i = none

/-- `R` holds of the measurements present and of the result, which is not nan. -/
def OfPresent (R : List (Meas K) → Meas K → Prop) (l : List (Option K × Option K)) (z : Option K × Option K) :
    Prop :=
  ∃ x s, z = (some x, some s) ∧ R (present l) ⟨x, s⟩

/-- The same, but nan when nothing is present. -/
def OfPresentOrNan (R : List (Meas K) → Meas K → Prop) (l : List (Option K × Option K))
    (z : Option K × Option K) : Prop :=
  (present l = [] → z = (none, none)) ∧ (present l ≠ [] → OfPresent R l z)

end PQ
