import Verif.Spec.Programs
import Verif.Spec.Uncertain

/-!
# Expressions with uncertain quantities

Expressions as a user writes them: sums, differences, products and quotients of uncertain quantities, the same with
an exact operand (a plain number or an expression over ordinary quantities, `Spec/Programs.lean`), powers, items,
totals, averages, extrema and conversions.  The operations are those of the model; the language itself is Python's.
-/

namespace PQ.Client

variable {K : Type _}

/-- Binary operators between uncertain quantities. -/
inductive UArith
  | add | sub | mul | div
  deriving DecidableEq

/-- An exact operand. -/
inductive Exact (K : Type _)
  /-- an expression over ordinary quantities -/
  | quantity (t : Term K)
  /-- a plain number or array -/
  | number (c : NDArr K)

/-- Methods of one uncertain quantity. -/
inductive UUn
  | neg
  | sqrt
  | item (i : Int)
  | sum (ax : Axis)
  | mean (ax : Axis)
  | max (ax : Axis)
  | min (ax : Axis)

/-- Expressions. -/
inductive UTerm (K : Type _)
  /-- a variable -/
  | var (x : String)
  | bin (op : UArith) (a b : UTerm K)
  /-- `a * c` -/
  | times (a : UTerm K) (c : Exact K)
  /-- `a / c` -/
  | over (a : UTerm K) (c : Exact K)
  /-- `c * a` -/
  | exactTimes (c : Exact K) (a : UTerm K)
  /-- `c - a` -/
  | exactMinus (c : Exact K) (a : UTerm K)
  /-- `c / a` -/
  | exactOver (c : Exact K) (a : UTerm K)
  | pow (a : UTerm K) (p : ℚ)
  | un (u : UUn) (a : UTerm K)
  /-- `a.rescale(d)` -/
  | inUnits (a : UTerm K) (d : Dim)

section eval
variable [Field K] [LinearOrder K] [RPow K] [PyFloor K]

def UArith.ap (w : World K) : UArith → UQ K → UQ K → Py (UQ K)
  | .add, a, b => a.add w (.uq b)
  | .sub, a, b => a.sub w (.uq b)
  | .mul, a, b => a.mul w (.uq b)
  | .div, a, b => a.truediv w (.uq b)

def UUn.ap (w : World K) : UUn → UQ K → Py (UQ K)
  | .neg, a => a.neg w
  | .sqrt, a => a.sqrt w
  | .item i, a => a.getitem w (Key.int i)
  | .sum ax, a => a.sum w ax
  | .mean ax, a => a.mean w ax
  | .max ax, a => a.max w ax
  | .min ax, a => a.min w ax

def Exact.eval (w : World K) (ρ : Env (Quantity K)) : Exact K → Py (Operand K)
  | .quantity t => t.eval w ρ >>= fun q => .ok (.quantity q)
  | .number c => .ok (.array c)

/-- Python's evaluation; `ρ` holds the ordinary variables and `μ` the uncertain ones. -/
def UTerm.eval (w : World K) (ρ : Env (Quantity K)) (μ : Env (UQ K)) : UTerm K → Py (UQ K)
  | .var x => getVar μ x
  | .bin op a b => a.eval w ρ μ >>= fun x => b.eval w ρ μ >>= fun y => op.ap w x y
  | .times a c => a.eval w ρ μ >>= fun x => c.eval w ρ >>= fun o => x.mul w (.plain o)
  | .over a c => a.eval w ρ μ >>= fun x => c.eval w ρ >>= fun o => x.truediv w (.plain o)
  | .exactTimes c a => c.eval w ρ >>= fun o => a.eval w ρ μ >>= fun x => x.rmul w (.plain o)
  | .exactMinus c a => c.eval w ρ >>= fun o => a.eval w ρ μ >>= fun x => x.rsub w (.plain o)
  | .exactOver c a => c.eval w ρ >>= fun o => a.eval w ρ μ >>= fun x => x.rtruediv w o
  | .pow a p => a.eval w ρ μ >>= fun x => x.pow w (expOf p)
  | .un u a => a.eval w ρ μ >>= u.ap w
  | .inUnits a d => a.eval w ρ μ >>= fun x => x.rescale w d

end eval

/-! ## What a run must satisfy

As in `Term.Safe`: no accidental hash collision between the units compared, powers are taken literally, units
written in the program exist; and a divisor under an exact numerator has no zero element. -/

section safe
variable [Field K] [LinearOrder K] [RPow K] [PyFloor K]

def Exact.Safe (w : World K) (ρ : Env (Quantity K)) : Exact K → Prop
  | .quantity t => t.Safe w ρ
  | .number _ => True

def UTerm.Safe (w : World K) (ρ : Env (Quantity K)) (μ : Env (UQ K)) : UTerm K → Prop
  | .var _ => True
  | .bin op a b => a.Safe w ρ μ ∧ b.Safe w ρ μ ∧ (op = .add ∨ op = .sub →
      ∀ x y, a.eval w ρ μ = .ok x → b.eval w ρ μ = .ok y → HashSafe w y.val.dim x.val.dim)
  | .times a c => a.Safe w ρ μ ∧ c.Safe w ρ
  | .over a c => a.Safe w ρ μ ∧ c.Safe w ρ
  | .exactTimes c a => c.Safe w ρ ∧ a.Safe w ρ μ
  | .exactMinus c a => c.Safe w ρ ∧ a.Safe w ρ μ ∧
      ∀ o x, c.eval w ρ = .ok o → a.eval w ρ μ = .ok x → HashSafe w o.dim x.val.dim
  | .exactOver c a => c.Safe w ρ ∧ a.Safe w ρ μ ∧
      ∀ x, a.eval w ρ μ = .ok x → NDArr.All (fun m => m ≠ 0) x.val.mag
  | .pow a p => a.Safe w ρ μ ∧ ∀ x, a.eval w ρ μ = .ok x → LiteralPow x.val.mag p
  | .un u a => a.Safe w ρ μ ∧ (u = .sqrt → ∀ x, a.eval w ρ μ = .ok x → LiteralPow x.val.mag (1/2))
  | .inUnits a d => a.Safe w ρ μ ∧ DimOK w d ∧ ∀ x, a.eval w ρ μ = .ok x → HashSafe w x.val.dim d

end safe

section rel
variable [Field K] [LinearOrder K] [RPow K]

/-- The same measurement, possibly in different units: equal values and equal uncertainties. -/
structure MeasEq (w : World K) (x y : UQ K) : Prop where
  left : UQ.Built w x
  right : UQ.Built w y
  compatible : Compatible w x.val.dim y.val.dim
  same : ∀ v : Valuation w, NDArr.Same (v.meas x) (v.meas y)

end rel

end PQ.Client
