import Verif.Spec.Memory
import Verif.Spec.Programs

/-!
# The same program started with the same quantities in other units

Two states of memory with the same arrays, sharing memory in the same way, whose quantities have the same physical
values; and the commands that do not look at the numbers behind a quantity.
-/

namespace PQ

variable {K : Type _}

open Client

section
variable [Field K] [LinearOrder K] [RPow K]

/-- The same type, with units of the same kind. -/
inductive KindEq (w : World K) : AKind → AKind → Prop
  | plain : KindEq w .ndarray .ndarray
  | unit {u : UKey} (hu : DimOK w (unitDim u)) : KindEq w (.unit u) (.unit u)
  | quantity {d d' : Dim} (hd : DimOK w d) (hd' : DimOK w d') (hc : Compatible w d d') :
      KindEq w (.quantity d) (.quantity d')

/-- The same array: which cells it shows, and numpy's flags. -/
structure SameLayout (o o' : Obj) : Prop where
  shape : o.shape = o'.shape
  addr : o.addr = o'.addr
  owns : o.owns = o'.owns
  base : o.base = o'.base
  writeable : o.writeable = o'.writeable

/-- The same objects in the same places; quantities have the same physical values.  Nothing is said about the
numbers in plain arrays: the array behind a quantity holds other numbers when the units are others. -/
structure Twin (w : World K) (h h' : Heap K) : Prop where
  next : h.next = h'.next
  length : h.objs.length = h'.objs.length
  array : ∀ (i : Nat) (o o' : Obj), h.objs[i]? = some o → h'.objs[i]? = some o' → SameLayout o o'
  kind : ∀ (i : Nat) (o o' : Obj), h.objs[i]? = some o → h'.objs[i]? = some o' → KindEq w o.kind o'.kind
  value : ∀ (i : Nat) (o o' : Obj), h.objs[i]? = some o → h'.objs[i]? = some o' → o.kind.isQuantity = true →
    ∀ v : Valuation w, NDArr.Same (v.phys (h.quantity o)) (v.phys (h'.quantity o'))

/-- Object `i` exists and is a quantity. -/
def Heap.IsQuantity (h : Heap K) (i : Nat) : Prop := ∃ o, h.objs[i]? = some o ∧ o.kind.isQuantity = true

/-- The operand is a quantity or a literal. -/
def Heap.Usable (w : World K) (h : Heap K) : Src K → Prop
  | .obj j => h.IsQuantity j
  | .lit x => DimOK w x.dim

/-- Units compared with those of object `i` are not told equal by a hash collision. -/
def Heap.NoClash (w : World K) (h : Heap K) (i : Nat) (v : Src K) : Prop :=
  ∀ o x, h.objs[i]? = some o → h.src v = some x → HashSafe w x.dim o.kind.dim

/-- A function of quantities that respects physical equality. -/
def RespectsUnits (w : World K) (f : Quantity K → Py (Quantity K)) : Prop :=
  ∀ x x', PhysEq w x x' → OutRel (PhysEq w) (f x) (f x')

/-- Commands that do not depend on the numbers behind a quantity.  Excluded are `.magnitude` and plain arrays as
operands, `fill` with a bare number, `//=`, changes of the units of an array that other quantities share, and - when
numpy does not update the units in place (numpy 2) - `*=`, `/=` and `**=` that should change units. -/
def Cmd.Plain (np2 : Bool) (w : World K) (h : Heap K) : Cmd K → Prop
  | .newUnit u => DimOK w (unitDim u)
  | .newArray _ => True
  | .newQuantity _ d => DimOK w d
  | .wrap i d => h.IsQuantity i ∧ DimOK w d ∧ ∀ o, h.objs[i]? = some o → HashSafe w o.kind.dim d
  | .magnitude _ => False
  | .view i k => h.IsQuantity i ∧ k.Basic
  | .item i _ => h.IsQuantity i
  | .copy i => h.IsQuantity i
  | .deepcopy i => h.IsQuantity i
  | .squeeze i k => h.IsQuantity i ∧ k.Basic
  | .setitem i k v => h.IsQuantity i ∧ k.Sound ∧ h.Usable w v ∧ h.NoClash w i v
  | .put i _ v => h.IsQuantity i ∧ h.Usable w v ∧ h.NoClash w i v
  | .fill i v => h.IsQuantity i ∧ h.Usable w v ∧ h.Unshared i ∧ ∃ q, h.src v = some (.quantity q)
  | .inplace op i v => h.IsQuantity i ∧ h.Usable w v ∧ h.NoClash w i v ∧
    match op with
    | .add | .sub | .mod => True
    | .mul | .div => (∀ x, h.src v = some x → x.dim = []) ∨
        np2 = false ∧ h.Unshared i ∧ ¬ h.ViewOfQuantity i
    | .floordiv => False
  | .ipow i e => h.IsQuantity i ∧ np2 = false ∧ (h.Unshared i ∨ h.ViewOfQuantity i) ∧
      ∀ o p, h.objs[i]? = some o → e.vals.toList = [p] → LiteralPow (h.arr o) p
  | .setUnits i d => h.IsQuantity i ∧ DimOK w d ∧ (h.Unshared i ∨ h.ViewOfQuantity i) ∧
      ∀ o, h.objs[i]? = some o → HashSafe w o.kind.dim d
  | .into f i out => h.IsQuantity i ∧ h.IsQuantity out ∧ RespectsUnits w f ∧ h.Unshared out
  | .rawWrite _ _ _ => False

/-- A sequence of such commands, each judged in the state in which it is executed. -/
def Heap.AllPlain [PyFloor K] (np2 : Bool) (w : World K) (h : Heap K) : List (Cmd K) → Prop
  | [] => True
  | c :: cs => c.Plain np2 w h ∧ AllPlain np2 w (h.run np2 w c).2 cs

/-- The results of the commands, one after the other: the object or the exception. -/
def Heap.outcomes [PyFloor K] (np2 : Bool) (w : World K) (h : Heap K) : List (Cmd K) → List (Py Nat)
  | [] => []
  | c :: cs => (h.run np2 w c).1 :: outcomes np2 w (h.run np2 w c).2 cs

end
end PQ
