import Verif.Spec.History
import Verif.Spec.Typeset

/-!
# The order in which units are printed
-/

namespace PQ

variable {K : Type _} [Field K] [LinearOrder K] [RPow K]

/-- Constants come first, then the base units from mass to currency, other units, compound units and, last,
dimensionless ones such as the radian. -/
def classesInPrintOrder : List UClass :=
  [.constant, .mass, .length, .time, .current, .luminousIntensity, .substance, .temperature, .information,
    .currency, .unitQuantity, .compound, .dimensionless]

/-- `u` is older than `v`: at some earlier time there was `u` but not yet `v`. -/
def OlderUnit (h : Hasher) (w : World K) (u v : UKey) : Prop :=
  ∃ w0, Reachable h w0 ∧ Evolves w0 w ∧ u ∈ w0.units.map Prod.fst ∧ v ∉ w0.units.map Prod.fst

/-- `u` is printed before `v`: its class comes first or, in the same class, it is older. -/
def PrintedBefore (h : Hasher) (w : World K) (u v : UKey) : Prop :=
  classesInPrintOrder.idxOf u.cls < classesInPrintOrder.idxOf v.cls ∨ (u.cls = v.cls ∧ OlderUnit h w u v)

end PQ
