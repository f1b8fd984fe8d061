import Verif.Spec.UncertainPrograms

/-!
# Checking units before running

What of a quantity can be known without its numbers.
-/

namespace PQ.Client

variable {K : Type _}

/-- Same units and same shape; the numbers may differ. -/
structure SameKind (a b : Quantity K) : Prop where
  units : a.dim = b.dim
  shape : a.mag.shape = b.mag.shape

/-- The same for the values and for the uncertainties. -/
structure USameKind (a b : UQ K) : Prop where
  val : SameKind a.val b.val
  unc : SameKind a.unc b.unc

/-- Arrays of one shape. -/
def SameShape {α β : Type _} (a : NDArr α) (b : NDArr β) : Prop := a.shape = b.shape

/-- Two operands of one kind. -/
inductive OpKind : Operand K → Operand K → Prop
  | quantity {a b : Quantity K} (h : SameKind a b) : OpKind (.quantity a) (.quantity b)
  | array {a b : NDArr K} (h : SameShape a b) : OpKind (.array a) (.array b)

end PQ.Client
