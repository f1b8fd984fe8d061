import Verif.Model.Heap
import Verif.Spec.Arrays
import Verif.Spec.Physical

/-!
# Sharing of memory

Which objects share memory, which object a command works on, and what a user can see of an object.
-/

namespace PQ

variable {K : Type _}

/-- Memory cell `a` belongs to array `o`. -/
def Obj.Cell (o : Obj) (a : Nat) : Prop := ∃ i, NDArr.InB o.shape i ∧ o.addr i = a

/-- Two arrays have no memory in common. -/
def Obj.Apart (o p : Obj) : Prop := ∀ a, o.Cell a → ¬ p.Cell a

/-- A subscript that selects existing elements. -/
def Key.Sound (k : Key) : Prop :=
  ∀ s s' f, k s = .ok (s', f) → ∀ i, NDArr.InB s' i → NDArr.InB s (f i)

/-- A subscript (slices, transposition, reshaping) that selects existing elements, none twice: the
kind that gives a view. -/
structure Key.Basic (k : Key) : Prop where
  sound : k.Sound
  inj : ∀ s s' f, k s = .ok (s', f) → ∀ i j, NDArr.InB s' i → NDArr.InB s' j → f i = f j → i = j

/-- Commands whose subscripts mean something. -/
def Cmd.Valid : Cmd K → Prop
  | .view _ k => k.Basic
  | .squeeze _ k => k.Basic
  | .setitem _ k _ => k.Sound
  | .rawWrite _ k _ => k.Sound
  | _ => True

/-- The object that a command modifies or makes an alias of.  (Objects that are only read, such as
`y` in `x += y` or `x` in `x.copy()`, do not count.) -/
def Cmd.touches : Cmd K → Option Nat
  | .newUnit _ => none
  | .newArray _ => none
  | .newQuantity _ _ => none
  | .wrap i _ => some i
  | .magnitude i => some i
  | .view i _ => some i
  | .item _ _ => none
  | .copy _ => none
  | .deepcopy i => some i
  | .squeeze i _ => some i
  | .setitem i _ _ => some i
  | .put i _ _ => some i
  | .fill i _ => some i
  | .inplace _ i _ => some i
  | .ipow i _ => some i
  | .setUnits i _ => some i
  | .into _ _ out => some out
  | .rawWrite i _ _ => some i

/-- The object that a command is meant to change: item assignment, `put`, `fill`, the in-place
operators, `units = ...`, and `out=`. -/
def Cmd.modifies : Cmd K → Option Nat
  | .setitem i _ _ => some i
  | .put i _ _ => some i
  | .fill i _ => some i
  | .inplace _ i _ => some i
  | .ipow i _ => some i
  | .setUnits i _ => some i
  | .into _ _ out => some out
  | _ => none

/-- What a user sees of object `i`: its type and units, and its elements. -/
structure Sees (h : Heap K) (i : Nat) (k : AKind) (a : NDArr K) : Prop where
  ex : ∃ o, h.objs[i]? = some o ∧ o.kind = k ∧ (h.arr o).Same a

/-- Objects `i` and `j` exist and share no memory. -/
def ApartIds (h : Heap K) (i j : Nat) : Prop :=
  ∀ o p, h.objs[i]? = some o → h.objs[j]? = some p → o.Apart p

/-- States of memory a program can reach. -/
inductive Heap.Reached [Zero K] [One K] [Add K] [Sub K] [Mul K] [Div K] [RPow K] [PyFloor K]
    [DecidableEq K] (np2 : Bool) (w : World K) : Heap K → Prop
  | empty : Heap.Reached np2 w Heap.empty
  | step {h : Heap K} (c : Cmd K) : Heap.Reached np2 w h → c.Valid →
      Heap.Reached np2 w (h.run np2 w c).2

end PQ

namespace PQ

variable {K : Type _}

/-- Any two quantities sharing memory have the same units, so they agree about what the shared
elements mean. -/
def Heap.Coherent (h : Heap K) : Prop :=
  ∀ (i j : Nat) (o p : Obj), h.objs[i]? = some o → h.objs[j]? = some p →
    o.kind.isQuantity = true → p.kind.isQuantity = true → ¬ o.Apart p →
    SameContent o.kind.dim p.kind.dim

/-- No other quantity shares memory with object `i`. -/
def Heap.Unshared (h : Heap K) (i : Nat) : Prop :=
  ∀ (j : Nat) (o p : Obj), j ≠ i → h.objs[i]? = some o → h.objs[j]? = some p →
    p.kind.isQuantity = true → o.Apart p

/-- `isinstance(x.base, Quantity)` for object `i`: it is a view of another quantity. -/
def Heap.ViewOfQuantity (h : Heap K) (i : Nat) : Prop :=
  ∃ (o : Obj) (b : Nat) (ob : Obj), h.objs[i]? = some o ∧ o.base = some b ∧
    h.objs[b]? = some ob ∧ ob.kind.isQuantity = true

/-- Commands that do not use the holes in the protection of views: units are changed (by `units =`,
`*=`, `/=`, `**=`, `//=`, `fill`, `out=`) only if no other quantity shares the memory or through
a view that the library protects, and memory that already belongs to a quantity is
not wrapped with other units. -/
def Cmd.Careful (h : Heap K) : Cmd K → Prop
  | .setUnits i _ => h.Unshared i ∨ h.ViewOfQuantity i
  | .ipow i _ => h.Unshared i ∨ h.ViewOfQuantity i
  | .inplace op i _ =>
    match op with
    | .mul | .div => h.Unshared i ∨ h.ViewOfQuantity i
    | .floordiv => h.Unshared i
    | _ => True
  | .fill i _ => h.Unshared i
  | .into _ _ out => h.Unshared out
  | .wrap i d => ∀ (j : Nat) (o p : Obj), h.objs[i]? = some o → o.kind.isQuantity = false →
      h.objs[j]? = some p → p.kind.isQuantity = true → ¬ o.Apart p → SameContent d p.kind.dim
  | _ => True

/-- A sequence of commands each of which is careful in the state in which it is executed. -/
def Heap.AllCareful [Zero K] [One K] [Add K] [Sub K] [Mul K] [Div K] [RPow K] [PyFloor K]
    [DecidableEq K] (np2 : Bool) (w : World K) (h : Heap K) : List (Cmd K) → Prop
  | [] => True
  | c :: cs => c.Careful h ∧ AllCareful np2 w (h.run np2 w c).2 cs

end PQ
