import Verif.Spec.History

/-!
# What a new unit is defined to be
-/

namespace PQ

/-- The `definition` argument says that one of the new units is `x` times the compound unit `d`: it is the
quantity of magnitude `x` in units `d`, or the number `x` (and then `d` is dimensionless). -/
inductive DefinedAs {K : Type _} : World.DefArg K → K → Dim → Prop
  | quantity (x : K) (d : Dim) : DefinedAs (.quantity ⟨x, d⟩) x d
  | number (x : K) : DefinedAs (.number x) x []

/-- The `definition` argument is missing. -/
inductive NotDefined {K : Type _} : World.DefArg K → Prop
  | none : NotDefined .none

end PQ
