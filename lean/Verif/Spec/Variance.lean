import Verif.Spec.UncertainPrograms

/-!
# Propagation of variances on bare numbers

The same expressions as in `Spec/UncertainPrograms.lean`, computed by hand: everything is converted to one coherent
system of units and each operation propagates the pair of the value and the variance by the textbook rule.
-/

namespace PQ.Client

variable {K : Type _}

/-- A value and its variance (the square of its standard uncertainty). -/
structure Spread (K : Type _) where
  value : K
  variance : K

section num
variable [Field K] [LinearOrder K] [RPow K]

/-- The variance of a measurement is the square of its uncertainty. -/
def Meas.spread (m : Meas K) : Spread K := ⟨m.value, m.sigma ^ 2⟩

/-- Two independent measurements. -/
def UArith.spread : UArith → Spread K → Spread K → Spread K
  | .add, x, y => ⟨x.value + y.value, x.variance + y.variance⟩
  | .sub, x, y => ⟨x.value - y.value, x.variance + y.variance⟩
  | .mul, x, y => ⟨x.value * y.value, y.value ^ 2 * x.variance + x.value ^ 2 * y.variance⟩
  | .div, x, y => ⟨x.value / y.value, x.variance / y.value ^ 2 + x.value ^ 2 * y.variance / y.value ^ 4⟩

/-- The power `p` of a measurement: the derivative is `p x^(p-1)`. -/
def Spread.pow (p : ℚ) (x : Spread K) : Spread K := ⟨rpow x.value p, ((p : K) * rpow x.value (p - 1)) ^ 2 * x.variance⟩

/-- The sum of independent measurements. -/
def Spread.total (l : List (Spread K)) : Spread K := ⟨(l.map Spread.value).sum, (l.map Spread.variance).sum⟩

/-- The average of independent measurements. -/
def Spread.average (l : List (Spread K)) : Spread K :=
  ⟨(l.map Spread.value).sum / (l.length : K), (l.map Spread.variance).sum / (l.length : K) ^ 2⟩

/-- The measurement with the best value (the first one, if there are several). -/
def bestOf (lt : K → K → Bool) (a : NDArr (Spread K)) : Py (NDArr (Spread K)) :=
  (a.map Spread.value).argreduce lt .all >>= fun p =>
    match a.toList[p.elem []]? with
    | none => .error .valueError
    | some x => .ok (NDArr.scalar x)

def UUn.num : UUn → NDArr (Spread K) → Py (NDArr (Spread K))
  | .neg, a => .ok (a.map (fun x => ⟨-x.value, x.variance⟩))
  | .sqrt, a => .ok (a.map (Spread.pow (1/2)))
  | .item i, a => a.select (Key.int i)
  | .sum ax, a => a.reduce Spread.total ax
  | .mean ax, a => a.reduce Spread.average ax
  | .max _, a => bestOf (fun x y => decide (x < y)) a
  | .min _, a => bestOf (fun x y => decide (y < x)) a

variable [PyFloor K] {w : World K}

def Exact.num (v : Valuation w) (σ : Env (NDArr K)) : Exact K → Py (NDArr K)
  | .quantity t => t.num v σ
  | .number c => .ok c

/-- The expression on bare numbers. -/
def UTerm.num (v : Valuation w) (σ : Env (NDArr K)) (τ : Env (NDArr (Spread K))) : UTerm K → Py (NDArr (Spread K))
  | .var x => getVar τ x
  | .bin op a b => a.num v σ τ >>= fun x => b.num v σ τ >>= fun y => NDArr.bin op.spread x y
  | .times a c => a.num v σ τ >>= fun x => c.num v σ >>= fun o =>
      NDArr.bin (fun x c => ⟨x.value * c, c ^ 2 * x.variance⟩) x o
  | .over a c => a.num v σ τ >>= fun x => c.num v σ >>= fun o =>
      NDArr.bin (fun x c => ⟨x.value / c, x.variance / c ^ 2⟩) x o
  | .exactTimes c a => c.num v σ >>= fun o => a.num v σ τ >>= fun x =>
      NDArr.bin (fun x c => ⟨x.value * c, c ^ 2 * x.variance⟩) x o
  | .exactMinus c a => c.num v σ >>= fun o => a.num v σ τ >>= fun x =>
      NDArr.bin (fun c x => ⟨c - x.value, x.variance⟩) o x
  | .exactOver c a => c.num v σ >>= fun o => a.num v σ τ >>= fun x =>
      NDArr.bin (fun c x => ⟨c / x.value, c ^ 2 * x.variance / x.value ^ 4⟩) o x
  | .pow a p => a.num v σ τ >>= fun x => .ok (x.map (Spread.pow p))
  | .un u a => a.num v σ τ >>= u.num
  | .inUnits a _ => a.num v σ τ

/-- No factor or quotient of two uncertain values is zero, nor the uncertain divisor of an exact value; the elements
raised to a power are positive, or not zero if the exponent is an integer. -/
def UTerm.Regular (v : Valuation w) (σ : Env (NDArr K)) (τ : Env (NDArr (Spread K))) : UTerm K → Prop
  | .var _ => True
  | .bin op a b => a.Regular v σ τ ∧ b.Regular v σ τ ∧ (op = .mul ∨ op = .div →
      (∀ m, a.num v σ τ = .ok m → NDArr.All (fun x => x.value ≠ 0) m) ∧
      (∀ m, b.num v σ τ = .ok m → NDArr.All (fun x => x.value ≠ 0) m))
  | .times a _ => a.Regular v σ τ
  | .over a _ => a.Regular v σ τ
  | .exactTimes _ a => a.Regular v σ τ
  | .exactMinus _ a => a.Regular v σ τ
  | .exactOver _ a => a.Regular v σ τ ∧ ∀ m, a.num v σ τ = .ok m → NDArr.All (fun x => x.value ≠ 0) m
  | .pow a p => a.Regular v σ τ ∧ ∀ m, a.num v σ τ = .ok m →
      NDArr.All (fun x => 0 < x.value ∨ x.value ≠ 0 ∧ ∃ n : ℤ, p = n) m
  | .un u a => a.Regular v σ τ ∧ (u = .sqrt → ∀ m, a.num v σ τ = .ok m → NDArr.All (fun x => 0 < x.value) m)
  | .inUnits a _ => a.Regular v σ τ

end num

/-! ## Checking units in advance -/

section typing
variable [Field K] [LinearOrder K] [RPow K]

/-- The exact operand has units of the kind of `d`. -/
inductive Exact.HasUnits (w : World K) (Γ : Env Dim) : Exact K → Dim → Prop
  | quantity {t : Term K} {d : Dim} (h : Client.HasUnits w Γ t d) : HasUnits w Γ (.quantity t) d
  | number (c : NDArr K) : HasUnits w Γ (.number c) []

/-- The methods for which the library follows the rule: an average along one axis or of everything, an extremum of
everything. -/
def UUn.Fine : UUn → Prop
  | .mean ax => ∀ l, ax ≠ .many l
  | .max ax => ax = .all
  | .min ax => ax = .all
  | _ => True

/-- The units of a method's result. -/
def UUn.kind (d : Dim) : UUn → Dim
  | .sqrt => Dim.pow d (1/2)
  | _ => d

/-- The expression has units of the kind of `d` if the ordinary variables have units of the kind of `Γ` and the
uncertain ones of the kind of `Δ`. -/
inductive UHasUnits (w : World K) (Γ Δ : Env Dim) : UTerm K → Dim → Prop
  | var {x : String} {d : Dim} (h : Δ x = some d) : UHasUnits w Γ Δ (.var x) d
  /-- sums and differences need units of the same kind -/
  | sum {op : UArith} {a b : UTerm K} {d e : Dim} (hop : op = .add ∨ op = .sub)
      (ha : UHasUnits w Γ Δ a d) (hb : UHasUnits w Γ Δ b e) (h : Compatible w e d) : UHasUnits w Γ Δ (.bin op a b) d
  | mul {a b : UTerm K} {d e : Dim} (ha : UHasUnits w Γ Δ a d) (hb : UHasUnits w Γ Δ b e) :
      UHasUnits w Γ Δ (.bin .mul a b) (Dim.mul d e)
  | div {a b : UTerm K} {d e : Dim} (ha : UHasUnits w Γ Δ a d) (hb : UHasUnits w Γ Δ b e) :
      UHasUnits w Γ Δ (.bin .div a b) (Dim.div d e)
  | times {a : UTerm K} {c : Exact K} {d e : Dim} (ha : UHasUnits w Γ Δ a d) (hc : c.HasUnits w Γ e) :
      UHasUnits w Γ Δ (.times a c) (Dim.mul d e)
  | over {a : UTerm K} {c : Exact K} {d e : Dim} (ha : UHasUnits w Γ Δ a d) (hc : c.HasUnits w Γ e) :
      UHasUnits w Γ Δ (.over a c) (Dim.div d e)
  | exactTimes {a : UTerm K} {c : Exact K} {d e : Dim} (hc : c.HasUnits w Γ e) (ha : UHasUnits w Γ Δ a d) :
      UHasUnits w Γ Δ (.exactTimes c a) (Dim.mul d e)
  | exactMinus {a : UTerm K} {c : Exact K} {d e : Dim} (hc : c.HasUnits w Γ e) (ha : UHasUnits w Γ Δ a d)
      (h : Compatible w e d) : UHasUnits w Γ Δ (.exactMinus c a) d
  | exactOver {a : UTerm K} {c : Exact K} {d e : Dim} (hc : c.HasUnits w Γ e) (ha : UHasUnits w Γ Δ a d) :
      UHasUnits w Γ Δ (.exactOver c a) (Dim.div e d)
  | pow {a : UTerm K} {d : Dim} (p : ℚ) (ha : UHasUnits w Γ Δ a d) : UHasUnits w Γ Δ (.pow a p) (Dim.pow d p)
  | un {a : UTerm K} {d : Dim} (u : UUn) (hu : u.Fine) (ha : UHasUnits w Γ Δ a d) :
      UHasUnits w Γ Δ (.un u a) (u.kind d)
  | inUnits {a : UTerm K} {d e : Dim} (ha : UHasUnits w Γ Δ a d) (h : Compatible w d e) :
      UHasUnits w Γ Δ (.inUnits a e) e
  /-- units of one kind are as good as each other -/
  | conv {a : UTerm K} {d e : Dim} (ha : UHasUnits w Γ Δ a d) (h : Compatible w d e) : UHasUnits w Γ Δ a e

/-- The uncertain variables declared have a value, in units of the declared kind. -/
def UDeclares (w : World K) (Δ : Env Dim) (μ : Env (UQ K)) : Prop :=
  ∀ x d, Δ x = some d → ∃ q, μ x = some q ∧ UQ.Built w q ∧ Compatible w q.val.dim d

/-- The values and variances of an uncertain quantity, in the units of `v`. -/
def IsSpread {w : World K} (v : Valuation w) (x : UQ K) (m : NDArr (Spread K)) : Prop :=
  NDArr.Same ((v.meas x).map Meas.spread) m

/-- The uncertain quantity has units of the kind of `d` and its values and variances, in the units of `v`, are `m`. -/
structure UDenotes (w : World K) (v : Valuation w) (d : Dim) (x : UQ K) (m : NDArr (Spread K)) : Prop where
  built : UQ.Built w x
  kind : Compatible w x.val.dim d
  same : IsSpread v x m

end typing
end PQ.Client
