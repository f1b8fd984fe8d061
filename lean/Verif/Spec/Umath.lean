import Verif.Spec.Physical
import Verif.Spec.Arrays
import Verif.Model.Umath

/-!
# What it means for the functions of `umath` to be physical
-/

namespace PQ

variable {K : Type _} [Field K] [LinearOrder K] [RPow K]

/-- The unit `radian` exists and is defined as `1*dimensionless`, as in `units/angle.py` 8-13. -/
def RadianOK (w : World K) : Prop :=
  ∃ i, w.info radianKey = some i ∧ i.definition = some ⟨1, []⟩

/-- `f` applies the numeric function `g` to pure numbers (angles count as pure numbers: one radian is
1).  It accepts exactly the quantities that can be converted to pure numbers and refuses the others
with `ValueError`; the result carries the units `out` and denotes `g` of the physical value; plain
arrays pass through.  `need` are the units the argument is converted to. -/
def PureFunction (w : World K) (f : Operand K → Py (Operand K)) (g : K → K) (need out : Dim) : Prop :=
  (∀ a, f (.array a) = .ok (.array (a.map g))) ∧
  ∀ q : Quantity K, DimOK w q.dim → HashSafe w q.dim need →
    (Compatible w q.dim [] → ∃ r : Quantity K, f (.quantity q) = .ok (.quantity r) ∧ r.dim = out ∧
      ∀ v : Valuation w, v.phys r = (v.phys q).map g) ∧
    (¬ Compatible w q.dim [] → f (.quantity q) = .error .valueError)

/-- Physical values of several operands. -/
def Valuation.physOps {w : World K} (v : Valuation w) (l : List (Operand K)) : List (NDArr K) :=
  l.map v.physOp

/-- Dimensionality of an operand; plain numbers have none. -/
def Operand.dimU : Operand K → Dim
  | .quantity q => q.dim
  | .array _ => []

end PQ
