import Verif.Spec.Rounding
import Verif.Spec.Uncertain
import Verif.Spec.Numbers

/-!
# Measurements under rounding

The measurement an uncertain quantity with rounded magnitudes denotes is exact; what an operator returns is
compared with the measurement the rules of error propagation prescribe.
-/

namespace PQ

variable {A : Arith} {w : World (Fl A)}

/-- The number `x` is the number `y` up to `n` rounding errors. -/
def Off (A : Arith) (n x y : ℝ) : Prop :=
  ∃ t : ℝ, (1 - A.eps) ^ n ≤ t ∧ t ≤ ((1 - A.eps) ^ n)⁻¹ ∧ x = t * y

/-- An exponent is itself one of the numbers, so writing it as one makes no error. -/
noncomputable instance : RatCast (Fl A) := ⟨fun p => ⟨p⟩⟩

/-- The exact measurements an uncertain quantity with rounded magnitudes denotes. -/
noncomputable def FlValuation.meas (v : FlValuation w) (u : UQ (Fl A)) : NDArr (Meas ℝ) :=
  ⟨u.val.mag.shape, fun i =>
    ⟨(u.val.mag.elem i).val * v.size u.val.dim, (u.unc.mag.elem i).val * v.size u.unc.dim⟩⟩

/-- A plain quantity or array has no uncertainty. -/
noncomputable def FlValuation.exact (v : FlValuation w) (o : Operand (Fl A)) : NDArr (Meas ℝ) :=
  (v.phys o.toQuantity).map (fun x => ⟨x, 0⟩)

/-- `z` is the measurement that `R` prescribes for `x` and `y`, its value and its uncertainty each up to `n`
rounding errors. -/
def Near (A : Arith) (n : ℝ) (R : Meas ℝ → Meas ℝ → Meas ℝ → Prop) (x y z : Meas ℝ) : Prop :=
  ∃ e, R x y e ∧ Off A n z.value e.value ∧ Off A n z.sigma e.sigma

/-- The same for a sum or difference: its value may have an absolute error, that which `n` rounding errors
make of the two operands. -/
def NearSum (A : Arith) (n : ℝ) (R : Meas ℝ → Meas ℝ → Meas ℝ → Prop) (x y z : Meas ℝ) : Prop :=
  ∃ e, R x y e ∧ |z.value - e.value| ≤ A.bound n * (|x.value| + |y.value|) ∧ Off A n z.sigma e.sigma

end PQ
