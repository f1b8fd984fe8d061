import Verif.Model.UnitObjects
import Verif.Spec.Physical

/-!
# Forgetting which unit object is meant

`key` gives the class and name of a unit object.  `abs…` replace the objects by their class and name.
-/

namespace PQ.Obj

variable {K : Type _}

namespace OWorld

/-- Units named by class and name. -/
def absD (w : OWorld K) (d : ODim) : Dim := d.map (fun kv => (w.key kv.1, kv.2))

def absSQ (w : OWorld K) (q : OSQ K) : SQ K := ⟨q.mag, w.absD q.dim⟩

def absQ (w : OWorld K) (q : OQ K) : Quantity K := ⟨q.mag, w.absD q.dim⟩

def absOp (w : OWorld K) : OOperand K → Operand K
  | .quantity q => .quantity (w.absQ q)
  | .array a => .array a

def absInfo (w : OWorld K) (o : OUnit K) : UnitInfo K :=
  ⟨o.definition.map w.absSQ, o.convRef.map w.absSQ, o.symbol, o.uSymbol, o.aliases, o.order⟩

/-- For every class and name the object created first. -/
def firsts (w : OWorld K) : List (OUnit K) → Dict UKey (UnitInfo K) → Dict UKey (UnitInfo K)
  | [], D => D
  | o :: os, D =>
    match Dict.get? D o.key with
    | some _ => firsts w os D
    | none => firsts w os (Dict.set D o.key (w.absInfo o))

/-- The state in which a unit is its class and name. -/
def abs (w : OWorld K) : World K :=
  ⟨w.hasher, w.firsts w.objs [], w.registry.map (fun kv => (kv.1, w.key kv.2)),
    fun c => (w.defaults c).map w.absD, w.counters⟩

/-- The unit objects of a dimensionality exist. -/
def Scoped (w : OWorld K) (d : ODim) : Prop := ∀ kv ∈ d, kv.1 < w.objs.length

def OpScoped (w : OWorld K) : OOperand K → Prop
  | .quantity q => w.Scoped q.dim
  | .array _ => True

/-- Objects of the same class and name stand for the same multiple of the same reference units. -/
def Coherent (w : OWorld K) : Prop :=
  ∀ i j, i < w.objs.length → j < w.objs.length → w.key i = w.key j →
    (w.convRef i).map w.absSQ = (w.convRef j).map w.absSQ

/-- The state before `import quantities`. -/
def init (h : Hasher) : OWorld K := ⟨h, [], [], fun _ => none, fun _ => none⟩

/-- The two dimensionalities have units of the same classes and names, in the same order, with the same
exponents: one may contain copies of the units of the other. -/
def Alike (w : OWorld K) (a b : ODim) : Prop :=
  List.Forall₂ (fun x y => w.key x.1 = w.key y.1 ∧ x.2 = y.2) a b

end OWorld

section
variable [Zero K] [One K] [Mul K] [Div K] [RPow K] [LT K] [DecidableEq K]

/-- A constructor call as a user can make it (compare `Op.Valid`): the definition is a positive quantity over
existing unit objects; `Dimensionless` takes none. -/
structure NewValid (w : OWorld K) (a : OWorld.NewArgs K) : Prop where
  exist : ∀ q, a.definition = some q → w.Scoped q.dim
  defined : ∀ q, a.definition = some q → 0 < q.mag ∧ DimOK w.abs (w.absD q.dim)
  dimless : a.cls = .dimensionless → a.definition = none

/-- The call does not give a class and name in use to something else: units of that class and name created before
have the same reference. -/
def Agrees (w : OWorld K) (a : OWorld.NewArgs K) : Prop :=
  ∀ i, i < w.objs.length → w.key i = ⟨a.cls, a.name⟩ →
    (w.convRef i).map w.absSQ = a.definition.map (fun q => w.absSQ (w.reference q))

/-- One step of a history in which no class and name gets a second meaning.  The step may raise. -/
inductive Step : OWorld K → OWorld K → Prop
  | new {w : OWorld K} (a : OWorld.NewArgs K) : NewValid w a → Agrees w a → Step w (w.newUnit a).2
  | copy {w : OWorld K} (i : Nat) : (w.key i).cls ≠ .dimensionless → Step w (w.copy i).2
  | setDefault {w : OWorld K} (c : UClass) (a : Option (OSQ K)) :
      (∀ x, a = some x → w.Scoped x.dim ∧ DimOK w.abs (w.absD x.dim)) → Step w (w.setDefault c a).2

/-- The states of such histories. -/
inductive Created (h : Hasher) : OWorld K → Prop
  | init : Created h (OWorld.init h)
  | step {w w' : OWorld K} : Created h w → Step w w' → Created h w'

/-- Every label of the unit object is bound to a unit that compares equal to it. -/
def Labelled (w : OWorld K) (i : Nat) : Prop :=
  ∀ o, w.objs[i]? = some o → ∀ l ∈ World.labelsOf o.key.cls o.key.name o.symbol o.aliases,
    ∃ j, Dict.get? w.registry l = some j ∧ w.unitEq i j = true

/-- The same exception, or the same numbers with the same units up to copies. -/
def OutAlike (w : OWorld K) : Py (OQ K) → Py (OQ K) → Prop
  | .ok a, .ok b => a.mag = b.mag ∧ w.Alike a.dim b.dim
  | .error e, .error e' => e = e'
  | _, _ => False

/-- Operands that differ at most in which copies of the units they contain. -/
def OpAlike (w : OWorld K) : OOperand K → OOperand K → Prop
  | .quantity a, .quantity b => a.mag = b.mag ∧ w.Alike a.dim b.dim
  | .array a, .array b => a = b
  | _, _ => False

end
end PQ.Obj
