import Verif.Spec.Along
import Verif.Spec.Broadcast
import Mathlib.LinearAlgebra.CrossProduct
import Mathlib.Algebra.BigOperators.Group.Finset.Basic

/-!
# Differences, slopes, areas

The textbook formulas that the numpy-like functions of `quantities.umath` are meant to compute, on arrays
of numbers: finite differences, the trapezoidal rule, slopes of interpolating lines and parabolas, the
cross product, and the unwrapping of angles.
-/

namespace PQ.NDArr

variable {K : Type _}

/-- The place `k` steps further along axis `n`. -/
def moved (n k : Nat) (i : List Nat) : List Nat := i.set n (i.getD n 0 + k)

/-- The shape with `k` places less along axis `n`. -/
def shortened (n k : Nat) (s : List Nat) : List Nat := s.set n (s.getD n 0 - k)

/-- The vector along the last axis at the place `i` of the other axes, with a third component 0 if there
are only two. -/
def vector [Zero K] (a : NDArr K) (i : List Nat) : Fin 3 → K :=
  fun c => if (c : Nat) < a.shape.getLastD 0 then a.elem (i ++ [(c : Nat)]) else 0

/-- The coordinates a distance argument of `gradient` stands for: multiples of a number, or the given
coordinates. -/
def coordinate [NatCast K] [Mul K] (h : NDArr K) (j : Nat) : K :=
  if h.shape = [] then (j : K) * h.elem [] else h.elem [j]

/-- The distance argument for axis `k`: a single argument serves all axes. -/
def distanceFor {α : Type _} (hs : List α) (k : Nat) : Option α := if hs.length = 1 then hs[0]? else hs[k]?

/-- `g` is the slope at the `j`-th of `len` points `(x j, f j)`: that of the line through the two outermost
points at the ends, that of the parabola through the point and its two neighbours inside. -/
def SlopeAt [Field K] (x f : Nat → K) (len j : Nat) (g : K) : Prop :=
  (j = 0 → g * (x 1 - x 0) = f 1 - f 0) ∧
  (j ≠ 0 → j + 1 = len → g * (x j - x (j - 1)) = f j - f (j - 1)) ∧
  (j ≠ 0 → j + 1 < len → ∀ a b c : K,
    (∀ t ∈ [j - 1, j, j + 1], a + b * x t + c * x t ^ 2 = f t) → g = b + 2 * c * x j)

/-- The area under `f` over the points `x 0, …, x n` by the trapezoidal rule. -/
def trapezoids [Field K] (x f : Nat → K) (n : Nat) : K :=
  ∑ j ∈ Finset.range n, (x (j + 1) - x j) * ((f j + f (j + 1)) / 2)

/-- `g` is `f` unwrapped: every value differs by a whole number of periods, the first one by none; a step of
less than `d` is kept, any other becomes one of at most half a period (of the sign of the original step if
it is exactly half a period). -/
structure Unwrapped [Field K] [LinearOrder K] (period d : K) (len : Nat) (f g : Nat → K) : Prop where
  first : g 0 = f 0
  periods : ∀ j < len, ∃ z : ℤ, g j = f j + z * period
  small : ∀ j, j + 1 < len → |f (j + 1) - f j| < d → g (j + 1) - g j = f (j + 1) - f j
  big : ∀ j, j + 1 < len → d ≤ |f (j + 1) - f j| → |g (j + 1) - g j| ≤ period / 2 ∧
    (g (j + 1) - g j = period / 2 → 0 < f (j + 1) - f j) ∧
    (g (j + 1) - g j = -(period / 2) → f (j + 1) - f j ≤ 0)

/-- The comparison sort `alg` is correct: given the comparisons of `n` numbers it returns their positions in
ascending order. -/
def CorrectSort (K : Type _) [LinearOrder K] (alg : SortAlg) : Prop :=
  ∀ (n : Nat) (t : Nat → Nat → Bool) (f : Nat → K), (∀ j k, j < n → k < n → t j k = decide (f j < f k)) →
    (alg n t).Perm (List.range n) ∧ (alg n t).Pairwise (fun a b => f a ≤ f b)

end PQ.NDArr
