import Verif.Spec.Physical
import Verif.Spec.Arrays
import Verif.Spec.Simplify
import Verif.Model.Uncertain

/-!
# Measurements: values with uncertainties

A measurement is a pair of a value and a standard uncertainty, both physical values.  The rules of
first-order error propagation for independent measurements, stated without square roots.
-/

namespace PQ

variable {K : Type _}

/-- The uncertainty has the units and the shape of the value. -/
def UQ.Aligned (u : UQ K) : Prop :=
  SameContent u.unc.dim u.val.dim ∧ u.unc.mag.shape = u.val.mag.shape

/-- An uncertain quantity as the class maintains it: units of the world, and the uncertainty in step with the
value. -/
structure UQ.OK (w : World K) (u : UQ K) : Prop where
  vdim : DimOK w u.val.dim
  udim : DimOK w u.unc.dim
  aligned : u.Aligned

/-- A value with its uncertainty. -/
structure Meas (K : Type _) where
  value : K
  sigma : K

section
variable [Field K] [LinearOrder K] [RPow K] {w : World K}

/-- The measurements an uncertain quantity denotes, elementwise. -/
def Valuation.meas (v : Valuation w) (u : UQ K) : NDArr (Meas K) :=
  ⟨u.val.mag.shape, fun i =>
    ⟨u.val.mag.elem i * v.size u.val.dim, u.unc.mag.elem i * v.size u.unc.dim⟩⟩

/-- A plain quantity or number is exact. -/
def Valuation.measOp (v : Valuation w) : UOperand K → NDArr (Meas K)
  | .uq u => v.meas u
  | .plain o => (v.physOp o).map (fun x => ⟨x, 0⟩)

end

section
variable [Field K] [LinearOrder K]

/-- `z` is the sum of the independent measurements `x` and `y`. -/
def IsSum (x y z : Meas K) : Prop :=
  z.value = x.value + y.value ∧ 0 ≤ z.sigma ∧ z.sigma ^ 2 = x.sigma ^ 2 + y.sigma ^ 2

/-- `z` is the difference of the independent measurements `x` and `y`. -/
def IsDifference (x y z : Meas K) : Prop :=
  z.value = x.value - y.value ∧ 0 ≤ z.sigma ∧ z.sigma ^ 2 = x.sigma ^ 2 + y.sigma ^ 2

/-- `z` is, up to the sign of its uncertainty, the product of `x` and `y`. -/
def IsProductUpToSign (x y z : Meas K) : Prop :=
  z.value = x.value * y.value ∧
    z.sigma ^ 2 = (y.value * x.sigma) ^ 2 + (x.value * y.sigma) ^ 2

/-- `z` is the product of the independent measurements `x` and `y`. -/
def IsProduct (x y z : Meas K) : Prop := IsProductUpToSign x y z ∧ 0 ≤ z.sigma

/-- `z` is, up to the sign of its uncertainty, the quotient of `x` and `y`. -/
def IsQuotientUpToSign (x y z : Meas K) : Prop :=
  z.value = x.value / y.value ∧
    z.sigma ^ 2 = (x.sigma / y.value) ^ 2 + (x.value * y.sigma / y.value ^ 2) ^ 2

/-- `z` is the quotient of the independent measurements `x` and `y`. -/
def IsQuotient (x y z : Meas K) : Prop := IsQuotientUpToSign x y z ∧ 0 ≤ z.sigma

/-- `z` is, up to the sign of its uncertainty, the power of a positive measurement. -/
def IsPowerUpToSign [RPow K] (p : ℚ) (x z : Meas K) : Prop :=
  z.value = rpow x.value p ∧ z.sigma ^ 2 = ((p : K) * rpow x.value (p - 1) * x.sigma) ^ 2

/-- `z` is the power of a positive measurement. -/
def IsPower [RPow K] (p : ℚ) (x z : Meas K) : Prop := IsPowerUpToSign p x z ∧ 0 ≤ z.sigma

/-- `z` is the sum of a list of independent measurements. -/
def IsTotal (l : List (Meas K)) (z : Meas K) : Prop :=
  z.value = (l.map Meas.value).sum ∧ 0 ≤ z.sigma ∧
    z.sigma ^ 2 = (l.map (fun x => x.sigma ^ 2)).sum

/-- `z` is the average of a list of independent measurements. -/
def IsAverage (l : List (Meas K)) (z : Meas K) : Prop :=
  z.value = (l.map Meas.value).sum / (l.length : K) ∧ 0 ≤ z.sigma ∧
    z.sigma ^ 2 = (l.map (fun x => x.sigma ^ 2)).sum / (l.length : K) ^ 2

end

/-- `C` is obtained from `A` and `B` elementwise, with broadcasting. -/
def Elementwise {α β γ : Type _} (R : α → β → γ → Prop) (A : NDArr α) (B : NDArr β) (C : NDArr γ) :
    Prop :=
  NDArr.bshape A.shape B.shape = some C.shape ∧
    ∀ i, NDArr.InB C.shape i →
      R (A.elem (NDArr.bidx A.shape i)) (B.elem (NDArr.bidx B.shape i)) (C.elem i)

/-- `C` is obtained from `A` by reducing the lists of elements along the axes `ax`. -/
def ReducedBy {α β : Type _} (R : List α → β → Prop) (ax : Axis) (A : NDArr α) (C : NDArr β) : Prop :=
  ∃ L : NDArr (List α), A.reduce id ax = .ok L ∧ L.shape = C.shape ∧
    ∀ i, NDArr.InB C.shape i → R (L.elem i) (C.elem i)

/-- The uncertain quantities a program can build with the constructor, the `uncertainty` setter,
`rescale`, `simplified`, the operators, indexing, `sum`, `mean`, `max`, `min` and `sqrt`, in any
order and any number of times.  The side conditions say that plain operands carry units of the world
and that the compared dimensionalities have no accidental hash collision. -/
inductive UQ.Built [Field K] [LinearOrder K] [RPow K] (w : World K) : UQ K → Prop
  | new {data units unc r} (hd : DimOK w (Operand.dim data)) (hu : DimOK w units)
      (hs : HashSafe w data.dim units) (ho : ∀ o, unc = some o → DimOK w (Operand.dim o))
      (hso : ∀ o, unc = some o → HashSafe w o.dim (if units.isEmpty then data.dim else units))
      (h : UQ.new w data units unc = .ok r) : Built w r
  | set {a o r} (ha : Built w a) (ho : DimOK w (Operand.dim o)) (hs : HashSafe w o.dim a.val.dim)
      (h : a.setUncertainty w o = .ok r) : Built w r
  | rescale {a d r} (ha : Built w a) (hd : DimOK w d) (hs : HashSafe w a.val.dim d)
      (h : a.rescale w d = .ok r) : Built w r
  | simplified {a fuel r} (ha : Built w a) (hds : DefaultsSafe w) (hg : GoodDefaults w)
      (h : a.simplified w fuel = .ok r) : Built w r
  | add {a b r} (ha : Built w a) (hb : Built w b) (hs : HashSafe w b.val.dim a.val.dim)
      (h : a.add w (.uq b) = .ok r) : Built w r
  | addPlain {a o r} (ha : Built w a) (h : a.add w (.plain o) = .ok r) : Built w r
  | radd {a o r} (ha : Built w a) (h : a.radd w (.plain o) = .ok r) : Built w r
  | sub {a b r} (ha : Built w a) (hb : Built w b) (hs : HashSafe w b.val.dim a.val.dim)
      (h : a.sub w (.uq b) = .ok r) : Built w r
  | subPlain {a o r} (ha : Built w a) (h : a.sub w (.plain o) = .ok r) : Built w r
  | rsub {a o r} (ha : Built w a) (ho : DimOK w (Operand.dim o)) (hs : HashSafe w o.dim a.val.dim)
      (h : a.rsub w (.plain o) = .ok r) : Built w r
  | mul {a b r} (ha : Built w a) (hb : Built w b) (h : a.mul w (.uq b) = .ok r) : Built w r
  | mulPlain {a o r} (ha : Built w a) (ho : DimOK w (Operand.dim o))
      (h : a.mul w (.plain o) = .ok r) : Built w r
  | rmul {a o r} (ha : Built w a) (ho : DimOK w (Operand.dim o))
      (h : a.rmul w (.plain o) = .ok r) : Built w r
  | neg {a r} (ha : Built w a) (h : a.neg w = .ok r) : Built w r
  | div {a b r} (ha : Built w a) (hb : Built w b) (h : a.truediv w (.uq b) = .ok r) : Built w r
  | divPlain {a o r} (ha : Built w a) (ho : DimOK w (Operand.dim o))
      (h : a.truediv w (.plain o) = .ok r) : Built w r
  | rdiv {a o r} (ha : Built w a) (ho : DimOK w (Operand.dim o))
      (h : a.rtruediv w o = .ok r) : Built w r
  | pow {a e r} (ha : Built w a) (h : a.pow w e = .ok r) : Built w r
  | sqrt {a r} (ha : Built w a) (h : a.sqrt w = .ok r) : Built w r
  | getitem {a k r} (ha : Built w a) (h : a.getitem w k = .ok r) : Built w r
  | sum {a ax r} (ha : Built w a) (h : a.sum w ax = .ok r) : Built w r
  | mean {a ax r} (ha : Built w a) (h : a.mean w ax = .ok r) : Built w r
  | max {a ax r} (ha : Built w a) (h : a.max w ax = .ok r) : Built w r
  | min {a ax r} (ha : Built w a) (h : a.min w ax = .ok r) : Built w r

end PQ
