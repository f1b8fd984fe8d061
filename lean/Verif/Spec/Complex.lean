import Verif.Model.Complex
import Verif.Spec.Physical

/-!
# Physical values of complex quantities

The size of a unit is a positive real; a complex quantity is its complex magnitude times the size of its units.
-/

namespace PQ

variable {w : World ℝ}

/-- Physical value of a complex quantity, elementwise. -/
noncomputable def Valuation.cphys (v : Valuation w) (q : Quantity ℂ) : NDArr ℂ :=
  q.mag.map (fun z => z * (v.size q.dim : ℂ))

/-- Physical value of an operand; a plain array is a pure number. -/
noncomputable def Valuation.cphysOp (v : Valuation w) : Operand ℂ → NDArr ℂ
  | .quantity q => v.cphys q
  | .array a => a

end PQ
