import Verif.Spec.Physical
import Verif.Spec.Simplify
import Verif.Model.NDReduce

/-!
# Rounded arithmetic

The other theorems are about exact numbers.  Here magnitudes are numbers on which multiplication,
division and powers are computed with a bounded relative error (the standard model of floating-point
arithmetic without overflow and underflow), and a size is the exact real number that the definitions
of the units, as stored, imply.
-/

namespace PQ

/-- The operations, each with relative error at most `eps`.  For numpy's doubles
`eps` is `2^-53` for all but the last; the power function of the C library is within one unit in the last
place, so `eps = 2^-52` covers all of them.  A square is computed for numbers of either sign, and a positive
power of zero is zero. -/
structure Arith where
  eps : ℝ
  eps_nonneg : 0 ≤ eps
  eps_lt_one : eps < 1
  add : ℝ → ℝ → ℝ
  sub : ℝ → ℝ → ℝ
  mul : ℝ → ℝ → ℝ
  div : ℝ → ℝ → ℝ
  pow : ℝ → ℚ → ℝ
  add_err : ∀ x y, |add x y - (x + y)| ≤ eps * |x + y|
  sub_err : ∀ x y, |sub x y - (x - y)| ≤ eps * |x - y|
  mul_err : ∀ x y, |mul x y - x * y| ≤ eps * |x * y|
  div_err : ∀ x y, y ≠ 0 → |div x y - x / y| ≤ eps * |x / y|
  pow_err : ∀ x (p : ℚ), 0 < x → |pow x p - x ^ (p : ℝ)| ≤ eps * |x ^ (p : ℝ)|
  sq_err : ∀ x, |pow x 2 - x ^ 2| ≤ eps * |x ^ 2|
  pow_zero : ∀ p : ℚ, 0 < p → pow 0 p = 0

/-- A number on which one computes with the arithmetic `A`. -/
@[ext] structure Fl (A : Arith) where
  val : ℝ

variable {A : Arith}

noncomputable instance : DecidableEq (Fl A) := Classical.decEq _
instance : Zero (Fl A) := ⟨⟨0⟩⟩
instance : One (Fl A) := ⟨⟨1⟩⟩
instance : LT (Fl A) := ⟨fun x y => x.val < y.val⟩
noncomputable instance : DecidableLT (Fl A) := fun _ _ => Classical.propDecidable _
instance : LE (Fl A) := ⟨fun x y => x.val ≤ y.val⟩
noncomputable instance : DecidableLE (Fl A) := fun _ _ => Classical.propDecidable _
noncomputable instance : Add (Fl A) := ⟨fun x y => ⟨A.add x.val y.val⟩⟩
noncomputable instance : Sub (Fl A) := ⟨fun x y => ⟨A.sub x.val y.val⟩⟩
noncomputable instance : Mul (Fl A) := ⟨fun x y => ⟨A.mul x.val y.val⟩⟩
noncomputable instance : Div (Fl A) := ⟨fun x y => ⟨A.div x.val y.val⟩⟩
noncomputable instance : RPow (Fl A) := ⟨fun x p => ⟨A.pow x.val p⟩⟩

/-- A consistent assignment of exact sizes to units: like `Valuation`, but the definitions are made
of rounded numbers. -/
structure FlValuation (w : World (Fl A)) where
  val : UKey → ℝ
  pos : ∀ u, 0 < val u
  dimless : ∀ u, u.cls = .dimensionless → val u = 1
  /-- a unit defined as `q` has exactly the size of `q` -/
  defined : ∀ u i q, w.info u = some i → i.definition = some q → val u = q.mag.val * dsize val q.dim

/-- Exact size of a compound unit. -/
noncomputable def FlValuation.size {w : World (Fl A)} (v : FlValuation w) (d : Dim) : ℝ := dsize v.val d

/-- Exact physical value of a quantity with rounded magnitudes. -/
noncomputable def FlValuation.phys {w : World (Fl A)} (v : FlValuation w) (q : Quantity (Fl A)) :
    NDArr ℝ := q.mag.map (fun x => x.val * v.size q.dim)

/-- The ratio of the exact sizes is fixed by the definitions. -/
def FlCompatible (w : World (Fl A)) (a b : Dim) : Prop :=
  ∃ c : ℝ, ∀ v : FlValuation w, v.size a = c * v.size b

/-- Number of rounding errors a compound unit stands for, when `cost u` is that of the unit `u`: two
operations for each unit, and the error of the unit itself times its exponent. -/
def dimCost (cost : UKey → ℝ) (d : Dim) : ℝ := (d.map (fun kv => |(kv.2 : ℝ)| * cost kv.1 + 2)).sum

/-- `cost` bounds the number of rounding errors in the stored size of each unit: a defined unit costs
one more than its definition, a base unit nothing. -/
structure ErrorBudget (w : World (Fl A)) (cost : UKey → ℝ) : Prop where
  nonneg : ∀ u, 0 ≤ cost u
  defined : ∀ u i q, w.info u = some i → i.definition = some q → 1 + dimCost cost q.dim ≤ cost u

/-- The array `x` is the array `y` up to `n` rounding errors, elementwise. -/
def WithinErrors (A : Arith) (n : ℝ) (x y : NDArr ℝ) : Prop :=
  x.shape = y.shape ∧ ∀ i, ∃ t : ℝ, (1 - A.eps) ^ n ≤ t ∧ t ≤ ((1 - A.eps) ^ n)⁻¹ ∧
    x.elem i = t * y.elem i

/-- The factor by which `n` rounding errors can change a number, minus one. -/
noncomputable def Arith.bound (A : Arith) (n : ℝ) : ℝ := ((1 - A.eps) ^ n)⁻¹ - 1

/-- The array `x` is, element by element, `f` of the pairs `p`, up to an absolute error that is what `n`
rounding errors make of the two operands. -/
def WithinOperandErrors (A : Arith) (n : ℝ) (f : ℝ → ℝ → ℝ) (x : NDArr ℝ) (p : NDArr (ℝ × ℝ)) : Prop :=
  x.shape = p.shape ∧ ∀ i, |x.elem i - f (p.elem i).1 (p.elem i).2| ≤
    A.bound n * (|(p.elem i).1| + |(p.elem i).2|)

/-- The array `x` is `f` of the pairs `p` up to `n` rounding errors, at the elements where `c` holds. -/
def WithinErrorsWhere (A : Arith) (n : ℝ) (c : ℝ → ℝ → Prop) (f : ℝ → ℝ → ℝ) (x : NDArr ℝ)
    (p : NDArr (ℝ × ℝ)) : Prop :=
  x.shape = p.shape ∧ ∀ i, c (p.elem i).1 (p.elem i).2 → ∃ t : ℝ, (1 - A.eps) ^ n ≤ t ∧
    t ≤ ((1 - A.eps) ^ n)⁻¹ ∧ x.elem i = t * f (p.elem i).1 (p.elem i).2

/-- The truth values `x` are those of the comparison `r` of the pairs `p`, except perhaps where the two
numbers agree up to `n` rounding errors of the second. -/
def RightUnlessClose (A : Arith) (n : ℝ) (r : ℝ → ℝ → Prop) (x : NDArr Bool) (p : NDArr (ℝ × ℝ)) : Prop :=
  x.shape = p.shape ∧ ∀ i, A.bound n * |(p.elem i).2| < |(p.elem i).1 - (p.elem i).2| →
    (x.elem i = true ↔ r (p.elem i).1 (p.elem i).2)

/-- `scost` bounds the number of rounding errors made when a unit is simplified, where `cost` bounds
those in its stored size: a base unit is converted to the default of its class; of a derived unit, the
stored size is multiplied with the simplified base units it consists of. -/
structure SimplifyBudget (w : World (Fl A)) (cost scost : UKey → ℝ) : Prop where
  nonneg : ∀ u, 0 ≤ scost u
  base : ∀ u d, u.cls.irreducible = true → w.defaults u.cls = some d →
    dimCost cost (unitDim u) + dimCost cost d + 4 ≤ scost u
  derived : ∀ u r, u.cls.irreducible = false → w.convRef u = some r →
    cost u + dimCost scost r.dim + 1 ≤ scost u

end PQ

namespace PQ

/-! ## Sums and products of many numbers -/

/-- `x` is the sum of the numbers `l` computed with the arithmetic `A`: added in some order, associated
somehow (numpy adds pairwise), possibly starting from 0. -/
inductive RoundedSum (A : Arith) : List ℝ → ℝ → Prop
  | nil : RoundedSum A [] 0
  | one (x : ℝ) : RoundedSum A [x] x
  | first (x : ℝ) : RoundedSum A [x] (A.add 0 x)
  | last (x : ℝ) : RoundedSum A [x] (A.add x 0)
  | add {l m : List ℝ} {x y : ℝ} : l ≠ [] → m ≠ [] → RoundedSum A l x → RoundedSum A m y →
      RoundedSum A (l ++ m) (A.add x y)
  | perm {l m : List ℝ} {x : ℝ} : l.Perm m → RoundedSum A l x → RoundedSum A m x

/-- `x` is the product of the numbers `l` computed with the arithmetic `A`, in some order. -/
inductive RoundedProd (A : Arith) : List ℝ → ℝ → Prop
  | one (x : ℝ) : RoundedProd A [x] x
  | mul {l m : List ℝ} {x y : ℝ} : RoundedProd A l x → RoundedProd A m y → RoundedProd A (l ++ m) (A.mul x y)
  | perm {l m : List ℝ} {x : ℝ} : l.Perm m → RoundedProd A l x → RoundedProd A m x

/-- Sum of absolute values. -/
def absSum (l : List ℝ) : ℝ := (l.map (fun x => |x|)).sum

/-- The array `x` is the sum of `a` along the axes up to an absolute error: what `c` rounding errors and one
more for each number added make of the sum of the absolute values. -/
def WithinSumErrors (A : Arith) (c : ℝ) (ax : Axis) (x a : NDArr ℝ) : Prop :=
  ∃ s n t, a.reduce List.sum ax = .ok s ∧ a.reduce List.length ax = .ok n ∧ a.reduce absSum ax = .ok t ∧
    x.shape = s.shape ∧ ∀ i, |x.elem i - s.elem i| ≤ A.bound (c + n.elem i) * t.elem i

/-- The same for the mean, with one more rounding error for the division. -/
def WithinMeanErrors (A : Arith) (c : ℝ) (ax : Axis) (x a : NDArr ℝ) : Prop :=
  ∃ s n t, a.reduce NDArr.lmean ax = .ok s ∧ a.reduce List.length ax = .ok n ∧ a.reduce absSum ax = .ok t ∧
    x.shape = s.shape ∧ ∀ i, n.elem i ≠ 0 →
      |x.elem i - s.elem i| ≤ A.bound (c + n.elem i + 1) * (t.elem i / n.elem i)

/-- The array `x` is the product of `a` along the axes, up to one rounding error for each factor. -/
def WithinProdErrors (A : Arith) (ax : Axis) (x a : NDArr ℝ) : Prop :=
  ∃ p n, a.reduce List.prod ax = .ok p ∧ a.reduce List.length ax = .ok n ∧
    x.shape = p.shape ∧ ∀ i, ∃ t : ℝ, (1 - A.eps) ^ (n.elem i : ℝ) ≤ t ∧ t ≤ ((1 - A.eps) ^ (n.elem i : ℝ))⁻¹ ∧
      x.elem i = t * p.elem i

end PQ

namespace PQ

/-! ## Numbers written in a program -/

/-- The literal `p / q` is read as a number with relative error at most `eps`, and so is the constant `π`. -/
structure RoundedLiterals (A : Arith) (lit : Int → Nat → Fl A) (pf : Fl A) (π : ℝ) : Prop where
  literal : ∀ (p : Int) (q : Nat), 0 < q → |(lit p q).val - (p : ℝ) / q| ≤ A.eps * |(p : ℝ) / q|
  pi : |pf.val - π| ≤ A.eps * |π|

/-- `b` rounding errors for each unit to the power one, and two operations for each unit. -/
def unitSteps (b : ℝ) (d : Dim) : ℝ := dimCost (fun _ => b) d

/-- Exact physical value of a quantity with rounded magnitudes, in a state with exact definitions. -/
noncomputable def exactPhys {w : World ℝ} (V : Valuation w) (q : Quantity (Fl A)) : NDArr ℝ :=
  q.mag.map (fun x => x.val * V.size q.dim)

end PQ
