import Verif.Spec.Physical
import Verif.Spec.Arrays
import Verif.Model.Shared

/-!
# What threads that share quantities may do
-/

namespace PQ.Shared

universe u v

variable {K : Type u} {ρ : Type v}

/-- A computation that looks only at the shared quantities in `R` and `W`, and changes only those in
`W`. -/
inductive Task.Uses (R W : Nat → Prop) : Task K ρ → Prop
  | ret (a : ρ) : Uses R W (.ret a)
  | getDim {i : Nat} {f : Dim → Task K ρ} (hi : R i ∨ W i) (hf : ∀ d, Uses R W (f d)) :
      Uses R W (.getDim i f)
  | getShape {i : Nat} {f : List Nat → Task K ρ} (hi : R i ∨ W i) (hf : ∀ s, Uses R W (f s)) :
      Uses R W (.getShape i f)
  | getElem {i : Nat} {x : List Nat} {f : K → Task K ρ} (hi : R i ∨ W i) (hf : ∀ v, Uses R W (f v)) :
      Uses R W (.getElem i x f)
  | setElem {i : Nat} {x : List Nat} {v : K} {t : Task K ρ} (hi : W i) (ht : Uses R W t) :
      Uses R W (.setElem i x v t)
  | setDim {i : Nat} {d : Dim} {t : Task K ρ} (hi : W i) (ht : Uses R W t) :
      Uses R W (.setDim i d t)

/-- A shared quantity has the same shape, elements and units in both states. -/
def SameAt (σ τ : Store K) (i : Nat) : Prop :=
  σ.shape i = τ.shape i ∧ σ.elem i = τ.elem i ∧ σ.dim i = τ.dim i

/-- Thread `t` has finished with the result `r`. -/
def Sys.Result (s : Sys K ρ) (t : Nat) (r : ρ) : Prop := s.threads[t]? = some (.ret r)

/-- The objects an operand refers to. -/
def Ref.At : Ref K → Nat → Prop
  | .obj j, i => i = j
  | .own _, _ => False

/-! ## Client programs -/

/-- A method call on shared quantities. -/
inductive Call (K : Type u)
  | rescale (i : Nat) (d : Dim)
  | binop (op : IOp) (i : Nat) (y : Ref K)
  | compare (c : K → K → Bool) (i : Nat) (y : Ref K)
  | inplace (op : IOp) (i : Nat) (y : Ref K)
  | setUnits (i : Nat) (d : Dim)
  | setitem (i : Nat) (k : Key) (y : Ref K)

/-- What a call returns. -/
inductive Val (K : Type u)
  | quantity (q : Quantity K)
  | bools (b : NDArr Bool)
  | none

/-- The quantity a call changes. -/
def Call.Changes : Call K → Nat → Prop
  | .rescale _ _, _ | .binop _ _ _, _ | .compare _ _ _, _ => False
  | .inplace _ i _, j | .setUnits i _, j | .setitem i _ _, j => j = i

/-- The quantities a call mentions. -/
def Call.Mentions : Call K → Nat → Prop
  | .rescale i _, j | .setUnits i _, j => j = i
  | .binop _ i y, j | .compare _ i y, j | .inplace _ i y, j | .setitem i _ y, j => j = i ∨ y.At j

/-- The program of a thread: it makes calls and goes on depending on what they returned or raised. -/
inductive Client (K : Type u) (ρ : Type v) : Type (max u v)
  | done (r : ρ)
  | call (c : Call K) (next : Py (Val K) → Client K ρ)

/-- A program that mentions only the shared quantities in `R` and changes only those in `W`. -/
inductive Client.Within (R W : Nat → Prop) : Client K ρ → Prop
  | done (r : ρ) : Within R W (.done r)
  | call {c : Call K} {next : Py (Val K) → Client K ρ} (hr : ∀ j, c.Mentions j → R j)
      (hw : ∀ j, c.Changes j → W j) (hn : ∀ v, Within R W (next v)) : Within R W (.call c next)

section
variable [Zero K] [One K] [Mul K] [Div K] [RPow K] [DecidableEq K] [Add K] [Sub K] [PyFloor K]

/-- The loads and stores of a call. -/
def Call.task (np2 : Bool) (w : World K) : Call K → Task K (Py (Val K))
  | .rescale i d => (Shared.rescale w i d).bind fun x => .ret (x.map .quantity)
  | .binop op i y => (Shared.binop np2 w op i y).bind fun x => .ret (x.map .quantity)
  | .compare c i y => (Shared.compare c w i y).bind fun x => .ret (x.map .bools)
  | .inplace op i y => (Shared.inplace np2 w op i y).bind fun x => .ret (x.map fun _ => .none)
  | .setUnits i d => (Shared.setUnits w i d).bind fun x => .ret (x.map fun _ => .none)
  | .setitem i k y => (Shared.setitem w i k y).bind fun x => .ret (x.map fun _ => .none)

/-- The loads and stores of a program. -/
def Client.task (np2 : Bool) (w : World K) : Client K ρ → Task K ρ
  | .done r => .ret r
  | .call c next => (c.task np2 w).bind fun v => (next v).task np2 w

/-- Only `i` differs, and it keeps its shape. -/
def OnlyAt (i : Nat) (σ τ : Store K) : Prop := τ.shape = σ.shape ∧ ∀ j, j ≠ i → SameAt τ σ j

/-- The value assigned by `x[key] = y` when `x` has the units `d`. -/
def assignedMag (w : World K) (d : Dim) (y : Quantity K) : Py (NDArr K) :=
  if w.dne d y.dim then (y.rescale w d).map Quantity.mag else .ok y.mag

/-- What one call does when it is alone, in terms of the operations on values
(`Model/Quantity.lean`). -/
inductive Call.Does (np2 : Bool) (w : World K) (σ : Store K) : Call K → Store K → Py (Val K) → Prop
  | rescale (i : Nat) (d : Dim) : Does np2 w σ (.rescale i d) σ (((σ.quantity i).rescale w d).map .quantity)
  | binop (op : IOp) (i : Nat) (y : Ref K) :
      Does np2 w σ (.binop op i y) σ ((binary w op (σ.quantity i) (y.value σ)).map .quantity)
  | compare (c : K → K → Bool) (i : Nat) (y : Ref K) :
      Does np2 w σ (.compare c i y) σ
        (((σ.quantity i).compare c w (.quantity (y.value σ))).map .bools)
  /-- the result is stored in `x`; numpy 2 leaves the units of `x` alone -/
  | inplace (op : IOp) (i : Nat) (y : Ref K) (res : Quantity K) (τ : Store K)
      (h : binary w op (σ.quantity i) (y.value σ) = .ok res) (hm : (τ.mag i).Same res.mag)
      (hd : τ.dim i = if np2 then σ.dim i else res.dim) (ho : OnlyAt i σ τ) :
      Does np2 w σ (.inplace op i y) τ (.ok .none)
  /-- the operator is refused, or its result does not have the shape of `x` -/
  | inplaceRefused (op : IOp) (i : Nat) (y : Ref K) (e : PyErr)
      (h : binary w op (σ.quantity i) (y.value σ) = .error e ∨
        e = .valueError ∧ ∃ res, binary w op (σ.quantity i) (y.value σ) = .ok res ∧
          res.mag.shape ≠ σ.shape i) :
      Does np2 w σ (.inplace op i y) σ (.error e)
  | setUnits (i : Nat) (d : Dim) (τ : Store K) (h : ((σ.quantity i).setUnits w d).1 = none)
      (hm : (τ.mag i).Same ((σ.quantity i).setUnits w d).2.mag)
      (hd : τ.dim i = ((σ.quantity i).setUnits w d).2.dim) (ho : OnlyAt i σ τ) :
      Does np2 w σ (.setUnits i d) τ (.ok .none)
  | setUnitsRefused (i : Nat) (d : Dim) (e : PyErr) (h : ((σ.quantity i).setUnits w d).1 = some e) :
      Does np2 w σ (.setUnits i d) σ (.error e)
  /-- each selected element holds the last value assigned to it -/
  | setitem (i : Nat) (k : Key) (y : Ref K) (m v : NDArr K) (t : List Nat) (sel : List Nat → List Nat)
      (τ : Store K) (hm : assignedMag w (σ.dim i) (y.value σ) = .ok m) (hk : k (σ.shape i) = .ok (t, sel))
      (hc : Heap.castTo t m = .ok v) (hd : τ.dim = σ.dim) (ho : OnlyAt i σ τ)
      (he : ∀ p, ((∀ x ∈ NDArr.indices t, sel x ≠ p) ∧ τ.elem i p = σ.elem i p) ∨
        ∃ pre x post, NDArr.indices t = pre ++ x :: post ∧ sel x = p ∧ (∀ y ∈ post, sel y ≠ p) ∧
          τ.elem i p = v.elem x) :
      Does np2 w σ (.setitem i k y) τ (.ok .none)
  | setitemRefused (i : Nat) (k : Key) (y : Ref K) (e : PyErr)
      (h : assignedMag w (σ.dim i) (y.value σ) = .error e ∨
        ∃ m, assignedMag w (σ.dim i) (y.value σ) = .ok m ∧ (k (σ.shape i) = .error e ∨
          ∃ t sel, k (σ.shape i) = .ok (t, sel) ∧ Heap.castTo t m = .error e)) :
      Does np2 w σ (.setitem i k y) σ (.error e)

/-- What a program does when it is alone: one call after the other. -/
inductive Client.Runs (np2 : Bool) (w : World K) : Store K → Client K ρ → Store K → ρ → Prop
  | done (σ : Store K) (r : ρ) : Runs np2 w σ (.done r) σ r
  | call (σ τ υ : Store K) (c : Call K) (next : Py (Val K) → Client K ρ) (v : Py (Val K)) (r : ρ)
      (hc : c.Does np2 w σ τ v) (hn : Runs np2 w τ (next v) υ r) :
      Runs np2 w σ (.call c next) υ r

end

end PQ.Shared
