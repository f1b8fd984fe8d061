import Verif.Spec.Physical
import Verif.Spec.Arrays

/-!
# What it means for the unit rule of a ufunc to be sound

The number computed by numpy from the magnitudes, read in the units the library attaches to the
result, is the number the same function gives on the physical values.
-/

namespace PQ

variable {K : Type _} [Field K] [LinearOrder K] [RPow K]

/-- The rule for the unary ufunc `f` is sound for the numeric function `g`, on arrays whose elements
satisfy `P`. -/
def Sound1 (w : World K) (f : UF1) (g : K → K) (P : K → Prop) : Prop :=
  ∀ q r : Quantity K, DimOK w q.dim → NDArr.All P q.mag → applyUF1 w f g q = .ok r →
    DimOK w r.dim ∧ ∀ v : Valuation w, NDArr.Same ((v.phys q).map g) (v.phys r)

/-- Dimensionality of an operand; a plain array is dimensionless. -/
def Operand.dimOf : Operand K → Dim
  | .quantity q => q.dim
  | .array _ => []

/-- The rule for the binary ufunc `f` is sound for the numeric function `g`. -/
def Sound2 (w : World K) (f : UF2) (g : K → K → K) : Prop :=
  ∀ (x y : Operand K) (r : Quantity K), DimOK w x.dimOf → DimOK w y.dimOf →
    NoColl w x.dimOf y.dimOf → applyUF2 w f g x y = .ok r →
    DimOK w r.dim ∧ ∀ v : Valuation w,
      ∃ m, NDArr.bin g (v.physOp x) (v.physOp y) = .ok m ∧ NDArr.Same m (v.phys r)

/-- The label is bound to a unit defined as `1*dimensionless`, like the shipped radian
(`units/angle.py` 8-13). -/
def IsRadian (w : World K) (label : String) : Prop :=
  ∃ u i, Dict.get? w.registry label = some u ∧ w.info u = some i ∧ i.definition = some ⟨1, []⟩

/-- The label is bound to a unit defined as `c*radian` (`units/angle.py` 33-42: `pi/180*radian`). -/
def IsDegree (w : World K) (c : K) (label : String) : Prop :=
  ∃ u i r, Dict.get? w.registry label = some u ∧ w.info u = some i ∧
    Dict.get? w.registry "radian" = some r ∧ i.definition = some ⟨c, [(r, 1)]⟩

end PQ
