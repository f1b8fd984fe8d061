import Verif.Spec.Variance
import Mathlib.Analysis.Calculus.Deriv.Basic

/-!
# The law of propagation of uncertainty

The standard uncertainty of `y = f(x₁, …, xₙ)` for independent measurements `xₖ ± σₖ` is, to first order,
`σ² = Σₖ (∂f/∂xₖ)² σₖ²` (JCGM 100:2008, 5.1.2).  Here `f` is what an expression computes for one element of its
result, as a function of all the measured numbers, and the partial derivatives are those of real analysis.
-/

namespace PQ.Client

/-- One measured number: the element at an index of an uncertain variable. -/
abbrev Cell := String × List Nat

variable {K : Type _}

/-- Variables of the given shapes with the given numbers as elements. -/
def arrays (sh : Env (List Nat)) (vals : Cell → K) : Env (NDArr K) :=
  fun x => (sh x).map (fun s => ⟨s, fun i => vals (x, i)⟩)

/-! ## The value of an expression

As for exact quantities: no uncertainties are involved. -/

section value
variable [Field K] [LinearOrder K] [RPow K]

def UArith.value : UArith → K → K → K
  | .add, x, y => x + y
  | .sub, x, y => x - y
  | .mul, x, y => x * y
  | .div, x, y => x / y

/-- The best element. -/
def bestValue (lt : K → K → Bool) (a : NDArr K) : Py (NDArr K) :=
  a.argreduce lt .all >>= fun p =>
    match a.toList[p.elem []]? with
    | none => .error .valueError
    | some x => .ok (NDArr.scalar x)

def UUn.value : UUn → NDArr K → Py (NDArr K)
  | .neg, a => .ok (a.map (fun x => -x))
  | .sqrt, a => .ok (a.map (fun x => rpow x (1/2)))
  | .item i, a => a.select (Key.int i)
  | .sum ax, a => a.reduce List.sum ax
  | .mean ax, a => a.reduce (fun l => l.sum / (l.length : K)) ax
  | .max _, a => bestValue (fun x y => decide (x < y)) a
  | .min _, a => bestValue (fun x y => decide (y < x)) a

variable [PyFloor K] {w : World K}

/-- The value of the expression, in the coherent units of `v`, when the measured numbers are `χ`. -/
def UTerm.value (v : Valuation w) (σ : Env (NDArr K)) (χ : Env (NDArr K)) : UTerm K → Py (NDArr K)
  | .var x => getVar χ x
  | .bin op a b => a.value v σ χ >>= fun x => b.value v σ χ >>= fun y => NDArr.bin op.value x y
  | .times a c => a.value v σ χ >>= fun x => c.num v σ >>= fun o => NDArr.bin (fun x c => x * c) x o
  | .over a c => a.value v σ χ >>= fun x => c.num v σ >>= fun o => NDArr.bin (fun x c => x / c) x o
  | .exactTimes c a => c.num v σ >>= fun o => a.value v σ χ >>= fun x => NDArr.bin (fun x c => x * c) x o
  | .exactMinus c a => c.num v σ >>= fun o => a.value v σ χ >>= fun x => NDArr.bin (fun c x => c - x) o x
  | .exactOver c a => c.num v σ >>= fun o => a.value v σ χ >>= fun x => NDArr.bin (fun c x => c / x) o x
  | .pow a p => a.value v σ χ >>= fun x => .ok (x.map (fun x => rpow x p))
  | .un u a => a.value v σ χ >>= u.value
  | .inUnits a _ => a.value v σ χ

/-! ## Which measured numbers enter an element -/

/-- All the sets together. -/
def unions (l : List (Finset Cell)) : Finset Cell := l.foldr (fun U V => U ∪ V) ∅

def UUn.cells : UUn → NDArr (Finset Cell) → Py (NDArr (Finset Cell))
  | .neg, a => .ok a
  | .sqrt, a => .ok a
  | .item i, a => a.select (Key.int i)
  | .sum ax, a => a.reduce unions ax
  | .mean ax, a => a.reduce unions ax
  | .max ax, a => a.reduce unions ax
  | .min ax, a => a.reduce unions ax

/-- For each element of the result, the measured numbers it is computed from. -/
def UTerm.cells (v : Valuation w) (σ : Env (NDArr K)) (sh : Env (List Nat)) : UTerm K → Py (NDArr (Finset Cell))
  | .var x => getVar (arrays sh (fun c => {c})) x
  | .bin _ a b => a.cells v σ sh >>= fun x => b.cells v σ sh >>= fun y => NDArr.bin (fun U V => U ∪ V) x y
  | .times a c => a.cells v σ sh >>= fun x => c.num v σ >>= fun o => NDArr.bin (fun U _ => U) x o
  | .over a c => a.cells v σ sh >>= fun x => c.num v σ >>= fun o => NDArr.bin (fun U _ => U) x o
  | .exactTimes c a => c.num v σ >>= fun o => a.cells v σ sh >>= fun x => NDArr.bin (fun U _ => U) x o
  | .exactMinus c a => c.num v σ >>= fun o => a.cells v σ sh >>= fun x => NDArr.bin (fun _ U => U) o x
  | .exactOver c a => c.num v σ >>= fun o => a.cells v σ sh >>= fun x => NDArr.bin (fun _ U => U) o x
  | .pow a _ => a.cells v σ sh
  | .un u a => a.cells v σ sh >>= u.cells
  | .inUnits a _ => a.cells v σ sh

/-- No measured number enters an element of the result twice: the operands of each operation, and the elements added
up by `sum` and `mean`, are computed from different ones.  (No extrema: they are not differentiable.) -/
def UTerm.Separate (v : Valuation w) (σ : Env (NDArr K)) (sh : Env (List Nat)) : UTerm K → Prop
  | .var _ => True
  | .bin _ a b => a.Separate v σ sh ∧ b.Separate v σ sh ∧ ∀ m n r, a.cells v σ sh = .ok m → b.cells v σ sh = .ok n →
      NDArr.bin Disjoint m n = .ok r → NDArr.All (fun p => p) r
  | .times a _ => a.Separate v σ sh
  | .over a _ => a.Separate v σ sh
  | .exactTimes _ a => a.Separate v σ sh
  | .exactMinus _ a => a.Separate v σ sh
  | .exactOver _ a => a.Separate v σ sh
  | .pow a _ => a.Separate v σ sh
  | .un (.sum ax) a => a.Separate v σ sh ∧ ∀ m r, a.cells v σ sh = .ok m →
      m.reduce (List.Pairwise Disjoint) ax = .ok r → NDArr.All (fun p => p) r
  | .un (.mean ax) a => a.Separate v σ sh ∧ ∀ m r, a.cells v σ sh = .ok m →
      m.reduce (List.Pairwise Disjoint) ax = .ok r → NDArr.All (fun p => p) r
  | .un (.max _) _ => False
  | .un (.min _) _ => False
  | .un _ a => a.Separate v σ sh
  | .inUnits a _ => a.Separate v σ sh

end value

/-! ## The law -/

section law
variable {w : World ℝ}

/-- The shapes of the uncertain variables. -/
def shapes (μ : Env (UQ ℝ)) : Env (List Nat) := fun x => (μ x).map (fun q => q.val.mag.shape)

/-- The measured numbers and their uncertainties, in the units of `v`. -/
noncomputable def measured (v : Valuation w) (μ : Env (UQ ℝ)) : Cell → Meas ℝ := fun c =>
  match μ c.1 with
  | some q => (v.meas q).elem c.2
  | none => ⟨0, 0⟩

/-- `y` is the result of propagating the uncertainties of the measured numbers `x` through `f`: its value is `f(x)`,
and its variance is the sum of the squared products of the partial derivatives of `f` at `x` and the uncertainties
of `x`.  Only finitely many of the derivatives are not zero. -/
def PropagatedBy (f : (Cell → ℝ) → ℝ) (x : Cell → Meas ℝ) (y : Meas ℝ) : Prop :=
  y.value = f (fun c => (x c).value) ∧
  ∃ (g : Cell → ℝ) (S : Finset Cell),
    (∀ c, HasDerivAt (fun s => f (Function.update (fun c => (x c).value) c s)) (g c) (x c).value) ∧
    (∀ c, c ∉ S → g c = 0) ∧
    y.sigma ^ 2 = ∑ c ∈ S, (g c * (x c).sigma) ^ 2

end law
end PQ.Client
