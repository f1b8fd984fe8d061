import Verif.Spec.Physical
import Verif.Model.Reduce

/-!
# What it means for a reduction to be physical
-/

namespace PQ

variable {K : Type _} [Field K] [LinearOrder K] [RPow K]

/-- The method `op` keeps the units of the quantity, and its result (or exception) is that of numpy's
`red` on the physical values. -/
def DenotesReduction (w : World K) (op : Quantity K → Py (Quantity K))
    (red : NDArr K → Py (NDArr K)) : Prop :=
  ∀ q : Quantity K, (∀ r, op q = .ok r → r.dim = q.dim) ∧
    ∀ v : Valuation w, red (v.phys q) = (op q).map v.phys

/-- Converting then reducing is reducing then converting, exceptions included. -/
def CommutesWithRescale (w : World K) (op : Quantity K → Py (Quantity K)) : Prop :=
  ∀ (q r : Quantity K) (d : Dim), DimOK w q.dim → DimOK w d → HashSafe w q.dim d →
    q.rescale w d = .ok r → op r = (op q).bind (fun s => s.rescale w d)

/-- A result without units (positions, truth values) does not change when the quantity is expressed
in other units. -/
def UnitFree {β : Type _} (w : World K) (op : Quantity K → β) : Prop :=
  ∀ (q r : Quantity K) (d : Dim), DimOK w q.dim → DimOK w d → HashSafe w q.dim d →
    q.rescale w d = .ok r → op r = op q

/-- Physical value of an array with nans. -/
def Valuation.physNan {w : World K} (v : Valuation w) (q : Quantity (Option K)) : NDArr (Option K) :=
  q.mag.map (Option.map (fun x => x * v.size q.dim))

/-- `DenotesReduction` for arrays with nans. -/
def DenotesReductionNan (w : World K) (op : Quantity (Option K) → Py (Quantity (Option K)))
    (red : NDArr (Option K) → Py (NDArr (Option K))) : Prop :=
  ∀ q : Quantity (Option K), (∀ r, op q = .ok r → r.dim = q.dim) ∧
    ∀ v : Valuation w, red (v.physNan q) = (op q).map v.physNan

/-- `CommutesWithRescale` for arrays with nans. -/
def CommutesWithRescaleNan (w : World K)
    (op : Quantity (Option K) → Py (Quantity (Option K))) : Prop :=
  ∀ (q r : Quantity (Option K)) (d : Dim), DimOK w q.dim → DimOK w d → HashSafe w q.dim d →
    q.rescaleNan w d = .ok r → op r = (op q).bind (fun s => s.rescaleNan w d)

end PQ
