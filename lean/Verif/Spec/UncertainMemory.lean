import Verif.Model.UncertainHeap
import Verif.Spec.Memory
import Verif.Spec.Uncertain

/-!
# What a user sees of an uncertain quantity in memory
-/

namespace PQ

variable {K : Type _}

/-- Object `i` is an uncertain quantity showing the value `q` (units up to order) and the uncertainty
`u`. -/
structure UHeap.Shows (s : UHeap K) (i : Nat) (q u : Quantity K) : Prop where
  ex : ∃ j, s.unc i = some j ∧ Sees s.heap i (.quantity q.dim) q.mag ∧
    Sees s.heap j (.quantity u.dim) u.mag

/-- Commands whose subscripts mean something. -/
def UCmd.Valid : UCmd K → Prop
  | .plain c => c.Valid
  | .index _ k => k.Basic
  | .rearrange _ k => k.Basic
  | _ => True

/-- The object `i` is modified by the command, or an alias of its memory is made; for an uncertain
quantity also when its uncertainty is replaced. -/
def UHeap.touches (s : UHeap K) : UCmd K → Nat → Prop
  | .plain c, n => c.touches = some n
  | .new _ _ _, _ => False
  | .index i _, n => n = i ∨ s.unc i = some n
  | .item _ _, _ => False
  | .rearrange i _, n => n = i
  | .copy _, _ => False
  | .setUncertainty i v, n => n = i ∨ ∃ j, v = .obj j ∧ n = j

/-- `x.uncertainty` has the shape of `x`, and `x.uncertainty.dimensionality == x.dimensionality`, for
every uncertain quantity `x`. -/
def UHeap.Aligned (w : World K) (s : UHeap K) : Prop :=
  ∀ i j, s.unc i = some j → ∃ o p, s.heap.objs[i]? = some o ∧ s.heap.objs[j]? = some p ∧
    o.shape = p.shape ∧ w.deq p.kind.dim o.kind.dim = true

/-- In-place commands that cannot change units: item assignment, `put`, `+=`, `-=`, `%=`, and `*=` and
`/=` with an operand without units. -/
def Cmd.KeepsUnits (h : Heap K) : Cmd K → Prop
  | .setitem _ _ _ => True
  | .put _ _ _ => True
  | .inplace op _ v =>
    match op with
    | .add | .sub | .mod => True
    | .mul | .div | .floordiv => ∀ x, h.src v = some x → x.dim = []
  | _ => False

/-- Commands that keep to what `UncertainQuantity` supports: units of uncertain quantities, and of
their uncertainties, are not changed in place, and views are taken with subscripts, or with methods
that keep the shape. -/
def UCmd.Careful (s : UHeap K) : UCmd K → Prop
  | .plain c => ∀ i, c.modifies = some i → (s.unc i ≠ none ∨ ∃ x, s.unc x = some i) →
      c.KeepsUnits s.heap
  | .rearrange i k => ∀ o sh f, s.heap.objs[i]? = some o → k o.shape = .ok (sh, f) → sh = o.shape
  | _ => True

section
variable [Zero K] [One K] [Add K] [Sub K] [Mul K] [Div K] [RPow K] [PyFloor K] [DecidableEq K]

/-- States a program can reach. -/
inductive UHeap.Reached (np2 : Bool) (w : World K) : UHeap K → Prop
  | empty : UHeap.Reached np2 w UHeap.empty
  | step {s : UHeap K} (c : UCmd K) : UHeap.Reached np2 w s → c.Valid →
      UHeap.Reached np2 w (s.run np2 w c).2

/-- Commands none of which touches an object in `S`, in the state in which it is executed. -/
def UHeap.Avoids (np2 : Bool) (w : World K) (S : Nat → Prop) (s : UHeap K) : List (UCmd K) → Prop
  | [] => True
  | c :: cs => (∀ n, S n → ¬ s.touches c n) ∧ Avoids np2 w S (s.run np2 w c).2 cs

/-- Commands each of which is careful in the state in which it is executed. -/
def UHeap.AllCareful (np2 : Bool) (w : World K) (s : UHeap K) : List (UCmd K) → Prop
  | [] => True
  | c :: cs => c.Careful s ∧ AllCareful np2 w (s.run np2 w c).2 cs

end

end PQ
