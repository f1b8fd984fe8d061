import Verif.Model.Dispatch
import Verif.Model.Reduce
import Verif.Model.Elements
import Verif.Spec.Physical
import Verif.Spec.Arrays

/-!
# Programs that use the library

A small imperative language whose values are quantities: arithmetic with quantities and plain numbers, powers,
reductions, item access, conversions, comparisons deciding branches and loops.  The operations are those of the
model; the language itself is Python's.  What a program cannot do is look at `.magnitude` or `.units`.
-/

namespace PQ.Client

variable {K : Type _}

/-! ## Two outcomes of a call -/

/-- Both calls return, with related values, or both raise the same exception. -/
def OutRel {α β : Type _} (R : α → β → Prop) : Py α → Py β → Prop
  | .ok a, .ok b => R a b
  | .error e, .error e' => e = e'
  | _, _ => False

/-! ## Terms -/

/-- Binary operators. -/
inductive Arith
  | add | sub | mul | div | mod
  deriving DecidableEq

/-- Binary operators with a plain number on the left. -/
inductive LArith
  | add | sub | mul | div
  deriving DecidableEq

/-- Unary operators and methods that keep the units. -/
inductive Un
  | neg
  | abs
  | sum (ax : Axis)
  | mean (ax : Axis)
  | max (ax : Axis)
  | min (ax : Axis)
  | ptp (ax : Axis)
  | std (ax : Axis) (ddof : ℚ)
  | cumsum (ax : Axis)
  | item (i : Int)

/-- Terms. -/
inductive Term (K : Type _)
  /-- a variable -/
  | var (x : String)
  /-- a quantity written in the program -/
  | const (q : Quantity K)
  | bin (op : Arith) (a b : Term K)
  /-- a plain number or array on the right: `a * 2` -/
  | binr (op : Arith) (a : Term K) (c : NDArr K)
  /-- a plain number or array on the left: `2 * a` -/
  | binl (op : LArith) (c : NDArr K) (a : Term K)
  | pow (a : Term K) (p : ℚ)
  | un (u : Un) (a : Term K)
  /-- `a.rescale(d)` -/
  | inUnits (a : Term K) (d : Dim)

/-- Conditions: `np.all(a < b)` and the like, and their combinations. -/
inductive Cond (K : Type _)
  | cmp (op : CmpOp) (a b : Term K)
  | not (c : Cond K)
  | and (c d : Cond K)
  | or (c d : Cond K)

/-- Statements. -/
inductive Stmt (K : Type _)
  | skip
  | assign (x : String) (t : Term K)
  | seq (s t : Stmt K)
  | ite (c : Cond K) (s t : Stmt K)
  | loop (c : Cond K) (s : Stmt K)

/-- The values of the variables. -/
abbrev Env (α : Type _) := String → Option α

/-- Outcome of a program; `running` when it has not come to an end in the given number of iterations. -/
inductive Result (α : Type _)
  | running
  | raised (e : PyErr)
  | done (ρ : Env α)

/-! ## Python's evaluation -/

section eval
variable [Field K] [LinearOrder K] [RPow K] [PyFloor K]

def Arith.ap (w : World K) : Arith → Quantity K → Operand K → Py (Quantity K)
  | .add, a, b => a.add w b
  | .sub, a, b => a.sub w b
  | .mul, a, b => a.mul w b
  | .div, a, b => a.truediv w b
  | .mod, a, b => a.mod w b

def LArith.ap (w : World K) : LArith → Quantity K → NDArr K → Py (Quantity K)
  | .add, a, c => a.radd w (.array c)
  | .sub, a, c => a.rsub w (.array c)
  | .mul, a, c => a.rmul w (.array c)
  | .div, a, c => a.rtruediv w (.array c)

def Un.ap (w : World K) : Un → Quantity K → Py (Quantity K)
  | .neg, q => q.neg w
  | .abs, q => applyUF1 w .absolute (fun x => |x|) q
  | .sum ax, q => q.sum ax
  | .mean ax, q => q.mean ax
  | .max ax, q => q.max ax
  | .min ax, q => q.min ax
  | .ptp ax, q => q.ptp ax
  | .std ax ddof, q => q.std ax ddof
  | .cumsum ax, q => q.cumsum ax
  | .item i, q => q.getitem (Key.int i)

/-- A variable without value is a `NameError`. -/
def getVar {α : Type _} (ρ : Env α) (x : String) : Py α :=
  match ρ x with
  | some q => .ok q
  | none => .error .exception

def Term.eval (w : World K) (ρ : Env (Quantity K)) : Term K → Py (Quantity K)
  | .var x => getVar ρ x
  | .const q => .ok q
  | .bin op a b => a.eval w ρ >>= fun x => b.eval w ρ >>= fun y => op.ap w x (.quantity y)
  | .binr op a c => a.eval w ρ >>= fun x => op.ap w x (.array c)
  | .binl op c a => a.eval w ρ >>= fun x => op.ap w x c
  | .pow a p => a.eval w ρ >>= fun x => x.pow ⟨NDArr.scalar p, none⟩
  | .un u a => a.eval w ρ >>= u.ap w
  | .inUnits a d => a.eval w ρ >>= fun x => x.rescale w d

/-- `np.all(m)`. -/
def allTrue (m : NDArr Bool) : Bool := m.toList.all id

def Cond.eval (w : World K) (ρ : Env (Quantity K)) : Cond K → Py Bool
  | .cmp op a b => a.eval w ρ >>= fun x => b.eval w ρ >>= fun y => (x.cmp w op (.quantity y)).map allTrue
  | .not c => (c.eval w ρ).map (!·)
  | .and c d => c.eval w ρ >>= fun b => if b then d.eval w ρ else .ok false
  | .or c d => c.eval w ρ >>= fun b => if b then .ok true else d.eval w ρ

/-- The environment after an assignment. -/
def Env.set {α : Type _} (ρ : Env α) (x : String) (q : α) : Env α := fun y => if y = x then some q else ρ y

/-- `fuel` bounds the number of iterations of each loop. -/
def Stmt.run (w : World K) : Nat → Stmt K → Env (Quantity K) → Result (Quantity K)
  | _, .skip, ρ => .done ρ
  | _, .assign x t, ρ =>
    match t.eval w ρ with
    | .ok q => .done (ρ.set x q)
    | .error e => .raised e
  | fuel, .seq s t, ρ =>
    match s.run w fuel ρ with
    | .done ρ' => t.run w fuel ρ'
    | r => r
  | fuel, .ite c s t, ρ =>
    match c.eval w ρ with
    | .ok true => s.run w fuel ρ
    | .ok false => t.run w fuel ρ
    | .error e => .raised e
  | 0, .loop _ _, _ => .running
  | fuel + 1, .loop c s, ρ =>
    match c.eval w ρ with
    | .ok false => .done ρ
    | .error e => .raised e
    | .ok true =>
      match s.run w fuel ρ with
      | .done ρ' => (Stmt.loop c s).run w fuel ρ'
      | r => r
  termination_by fuel s => (fuel, s)

/-! ## The same program on plain numbers

The quantities in the program are replaced by their physical values and the conversions are dropped: this is the
program someone would write who keeps everything in one coherent system of units and computes with bare numbers. -/

def Arith.fn : Arith → K → K → K
  | .add => (· + ·)
  | .sub => (· - ·)
  | .mul => (· * ·)
  | .div => (· / ·)
  | .mod => fun x y => x - y * pfloor (x / y)

def LArith.fn : LArith → K → K → K
  | .add => (· + ·)
  | .sub => (· - ·)
  | .mul => (· * ·)
  | .div => (· / ·)

/-- The numpy functions. -/
def Un.num : Un → NDArr K → Py (NDArr K)
  | .neg, a => .ok (a.map (- ·))
  | .abs, a => .ok (a.map (fun x => |x|))
  | .sum ax, a => a.reduce List.sum ax
  | .mean ax, a => a.reduce NDArr.lmean ax
  | .max ax, a => a.reduceNE NDArr.lmax ax
  | .min ax, a => a.reduceNE NDArr.lmin ax
  | .ptp ax, a => a.reduceNE NDArr.lptp ax
  | .std ax ddof, a => a.reduce (NDArr.lstd ddof) ax
  | .cumsum ax, a => a.cumulate List.sum ax
  | .item i, a => a.select (Key.int i)

variable {w : World K}

def Term.num (v : Valuation w) (ρ : Env (NDArr K)) : Term K → Py (NDArr K)
  | .var x => getVar ρ x
  | .const q => .ok (v.phys q)
  | .bin op a b => a.num v ρ >>= fun x => b.num v ρ >>= fun y => NDArr.bin op.fn x y
  | .binr op a c => a.num v ρ >>= fun x => NDArr.bin op.fn x c
  | .binl op c a => a.num v ρ >>= fun x => NDArr.bin op.fn c x
  | .pow a p => a.num v ρ >>= fun x => .ok (x.map (fun y => rpow y p))
  | .un u a => a.num v ρ >>= u.num
  | .inUnits a _ => a.num v ρ

def Cond.num (v : Valuation w) (ρ : Env (NDArr K)) : Cond K → Py Bool
  | .cmp op a b => a.num v ρ >>= fun x => b.num v ρ >>= fun y => (NDArr.bin op.fn x y).map allTrue
  | .not c => (c.num v ρ).map (!·)
  | .and c d => c.num v ρ >>= fun b => if b then d.num v ρ else .ok false
  | .or c d => c.num v ρ >>= fun b => if b then .ok true else d.num v ρ

def Stmt.num (v : Valuation w) : Nat → Stmt K → Env (NDArr K) → Result (NDArr K)
  | _, .skip, ρ => .done ρ
  | _, .assign x t, ρ =>
    match t.num v ρ with
    | .ok q => .done (ρ.set x q)
    | .error e => .raised e
  | fuel, .seq s t, ρ =>
    match s.num v fuel ρ with
    | .done ρ' => t.num v fuel ρ'
    | r => r
  | fuel, .ite c s t, ρ =>
    match c.num v ρ with
    | .ok true => s.num v fuel ρ
    | .ok false => t.num v fuel ρ
    | .error e => .raised e
  | 0, .loop _ _, _ => .running
  | fuel + 1, .loop c s, ρ =>
    match c.num v ρ with
    | .ok false => .done ρ
    | .error e => .raised e
    | .ok true =>
      match s.num v fuel ρ with
      | .done ρ' => (Stmt.loop c s).num v fuel ρ'
      | r => r
  termination_by fuel s => (fuel, s)

end eval

/-! ## What a run must satisfy

Units compared with each other are not told equal by a hash collision; powers are taken literally (positive
elements, or a natural exponent, or an integer one of non-zero elements); units written in the program exist. -/

section safe
variable [Field K] [LinearOrder K] [RPow K] [PyFloor K]

/-- The exponents for which a power of the elements is taken literally. -/
def LiteralPow (a : NDArr K) (p : ℚ) : Prop :=
  NDArr.All (fun x => 0 < x) a ∨ (∃ n : ℕ, p = n) ∨ (NDArr.All (fun x => x ≠ 0) a ∧ ∃ n : ℤ, p = n)

def Term.Safe (w : World K) (ρ : Env (Quantity K)) : Term K → Prop
  | .var _ => True
  | .const q => DimOK w q.dim
  | .bin _ a b => a.Safe w ρ ∧ b.Safe w ρ ∧
      ∀ x y, a.eval w ρ = .ok x → b.eval w ρ = .ok y → HashSafe w y.dim x.dim
  | .binr _ a _ => a.Safe w ρ ∧ ∀ x, a.eval w ρ = .ok x → HashSafe w [] x.dim
  | .binl _ _ a => a.Safe w ρ ∧ ∀ x, a.eval w ρ = .ok x → HashSafe w [] x.dim
  | .pow a p => a.Safe w ρ ∧ ∀ x, a.eval w ρ = .ok x → LiteralPow x.mag p
  | .un _ a => a.Safe w ρ
  | .inUnits a d => a.Safe w ρ ∧ DimOK w d ∧ ∀ x, a.eval w ρ = .ok x → HashSafe w x.dim d

def Cond.Safe (w : World K) (ρ : Env (Quantity K)) : Cond K → Prop
  | .cmp _ a b => a.Safe w ρ ∧ b.Safe w ρ ∧
      ∀ x y, a.eval w ρ = .ok x → b.eval w ρ = .ok y → HashSafe w y.dim x.dim
  | .not c => c.Safe w ρ
  | .and c d => c.Safe w ρ ∧ (c.eval w ρ = .ok true → d.Safe w ρ)
  | .or c d => c.Safe w ρ ∧ (c.eval w ρ = .ok false → d.Safe w ρ)

def Stmt.Safe (w : World K) : Nat → Stmt K → Env (Quantity K) → Prop
  | _, .skip, _ => True
  | _, .assign _ t, ρ => t.Safe w ρ
  | fuel, .seq s t, ρ => s.Safe w fuel ρ ∧ ∀ ρ', s.run w fuel ρ = .done ρ' → t.Safe w fuel ρ'
  | fuel, .ite c s t, ρ => c.Safe w ρ ∧ (c.eval w ρ = .ok true → s.Safe w fuel ρ) ∧
      (c.eval w ρ = .ok false → t.Safe w fuel ρ)
  | 0, .loop _ _, _ => True
  | fuel + 1, .loop c s, ρ => c.Safe w ρ ∧ (c.eval w ρ = .ok true → s.Safe w fuel ρ ∧
      ∀ ρ', s.run w fuel ρ = .done ρ' → (Stmt.loop c s).Safe w fuel ρ')
  termination_by fuel s => (fuel, s)

end safe

/-! ## Relations between runs -/

section rel
variable [Field K] [LinearOrder K] [RPow K]

/-- The same physical quantity, possibly in different units. -/
structure PhysEq (w : World K) (x y : Quantity K) : Prop where
  left : DimOK w x.dim
  right : DimOK w y.dim
  compatible : Compatible w x.dim y.dim
  same : ∀ v : Valuation w, NDArr.Same (v.phys x) (v.phys y)

/-- The variables of two environments are related one by one. -/
def EnvRel {α β : Type _} (R : α → β → Prop) (ρ : Env α) (σ : Env β) : Prop :=
  ∀ x, Option.Rel R (ρ x) (σ x)

/-- Two runs end in the same way: both are still going on, both raise the same exception, or both end with
related variables. -/
inductive ResultRel {α β : Type _} (R : α → β → Prop) : Result α → Result β → Prop
  | running : ResultRel R .running .running
  | raised (e : PyErr) : ResultRel R (.raised e) (.raised e)
  | done {ρ : Env α} {σ : Env β} (h : EnvRel R ρ σ) : ResultRel R (.done ρ) (.done σ)

end rel

/-! ## Checking units in advance -/

section typing
variable [Field K] [LinearOrder K] [RPow K]

/-- The term has units of the kind of `d` if the variables have units of the kind of `Γ`. -/
inductive HasUnits (w : World K) (Γ : Env Dim) : Term K → Dim → Prop
  | var {x : String} {d : Dim} (h : Γ x = some d) : HasUnits w Γ (.var x) d
  | const (q : Quantity K) : HasUnits w Γ (.const q) q.dim
  /-- sums, differences and remainders need units of the same kind -/
  | sum {op : Arith} {a b : Term K} {d e : Dim} (hop : op = .add ∨ op = .sub ∨ op = .mod)
      (ha : HasUnits w Γ a d) (hb : HasUnits w Γ b e) (h : Compatible w e d) : HasUnits w Γ (.bin op a b) d
  | mul {a b : Term K} {d e : Dim} (ha : HasUnits w Γ a d) (hb : HasUnits w Γ b e) :
      HasUnits w Γ (.bin .mul a b) (Dim.mul d e)
  | div {a b : Term K} {d e : Dim} (ha : HasUnits w Γ a d) (hb : HasUnits w Γ b e) :
      HasUnits w Γ (.bin .div a b) (Dim.div d e)
  | sumr {op : Arith} {a : Term K} {d : Dim} (c : NDArr K) (hop : op = .add ∨ op = .sub ∨ op = .mod)
      (ha : HasUnits w Γ a d) (h : Compatible w [] d) : HasUnits w Γ (.binr op a c) d
  | mulr {op : Arith} {a : Term K} {d : Dim} (c : NDArr K) (hop : op = .mul ∨ op = .div)
      (ha : HasUnits w Γ a d) : HasUnits w Γ (.binr op a c) d
  | suml {op : LArith} {a : Term K} {d : Dim} (c : NDArr K) (hop : op = .add ∨ op = .sub)
      (ha : HasUnits w Γ a d) (h : Compatible w [] d) : HasUnits w Γ (.binl op c a) d
  | mull {a : Term K} {d : Dim} (c : NDArr K) (ha : HasUnits w Γ a d) : HasUnits w Γ (.binl .mul c a) d
  | divl {a : Term K} {d : Dim} (c : NDArr K) (ha : HasUnits w Γ a d) :
      HasUnits w Γ (.binl .div c a) (Dim.pow d (-1))
  | pow {a : Term K} {d : Dim} (p : ℚ) (ha : HasUnits w Γ a d) : HasUnits w Γ (.pow a p) (Dim.pow d p)
  | un {a : Term K} {d : Dim} (u : Un) (ha : HasUnits w Γ a d) : HasUnits w Γ (.un u a) d
  | inUnits {a : Term K} {d e : Dim} (ha : HasUnits w Γ a d) (h : Compatible w d e) : HasUnits w Γ (.inUnits a e) e
  /-- units of one kind are as good as each other -/
  | conv {a : Term K} {d e : Dim} (ha : HasUnits w Γ a d) (h : Compatible w d e) : HasUnits w Γ a e

/-- The condition compares only units of the same kind. -/
inductive Cond.Checks (w : World K) (Γ : Env Dim) : Cond K → Prop
  | cmp {op : CmpOp} {a b : Term K} {d : Dim} (ha : HasUnits w Γ a d) (hb : HasUnits w Γ b d) :
      Checks w Γ (.cmp op a b)
  | not {c : Cond K} (h : Checks w Γ c) : Checks w Γ (.not c)
  | and {c d : Cond K} (h : Checks w Γ c) (h' : Checks w Γ d) : Checks w Γ (.and c d)
  | or {c d : Cond K} (h : Checks w Γ c) (h' : Checks w Γ d) : Checks w Γ (.or c d)

/-- Every variable keeps the kind of units declared for it. -/
inductive Stmt.Checks (w : World K) (Γ : Env Dim) : Stmt K → Prop
  | skip : Checks w Γ .skip
  | assign {x : String} {t : Term K} {d : Dim} (hx : Γ x = some d) (h : HasUnits w Γ t d) :
      Checks w Γ (.assign x t)
  | seq {s t : Stmt K} (h : Checks w Γ s) (h' : Checks w Γ t) : Checks w Γ (.seq s t)
  | ite {c : Cond K} {s t : Stmt K} (hc : Cond.Checks w Γ c) (h : Checks w Γ s) (h' : Checks w Γ t) :
      Checks w Γ (.ite c s t)
  | loop {c : Cond K} {s : Stmt K} (hc : Cond.Checks w Γ c) (h : Checks w Γ s) : Checks w Γ (.loop c s)

/-- The variables declared have a value, in units of the declared kind. -/
def Declares (w : World K) (Γ : Env Dim) (ρ : Env (Quantity K)) : Prop :=
  ∀ x d, Γ x = some d → DimOK w d ∧ ∃ q, ρ x = some q ∧ DimOK w q.dim ∧ Compatible w q.dim d

end typing

end PQ.Client
