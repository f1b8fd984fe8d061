import Verif.Spec.Numbers
import Verif.Spec.Exponents

/-!
# Physical values

The meaning of a quantity.  A *valuation* of a world gives every unit a positive size (say, in some
hypothetical absolute system) in accordance with the definitions of the defined units.  The physical
value of a quantity is its magnitude times the size of its units.  Two units are *compatible* when
the ratio of their sizes does not depend on the valuation, i.e. is fixed by the definitions.
Nothing here mentions how the library converts.
-/

namespace PQ

variable {K : Type _}

/-- Size of a compound unit: product of powers of the sizes of its units. -/
def dsize [One K] [Mul K] [RPow K] (val : UKey → K) (d : Dim) : K :=
  (d.map (fun kv => rpow (val kv.1) kv.2)).prod

/-- A consistent assignment of sizes to units. -/
structure Valuation [Field K] [LinearOrder K] [RPow K] (w : World K) where
  val : UKey → K
  pos : ∀ u, 0 < val u
  dimless : ∀ u, u.cls = .dimensionless → val u = 1
  /-- a unit defined as `q` has the size of `q` -/
  defined : ∀ u i q, w.info u = some i → i.definition = some q → val u = q.mag * dsize val q.dim

section
variable [Field K] [LinearOrder K] [RPow K] {w : World K}

/-- Size of a compound unit under a valuation. -/
def Valuation.size (v : Valuation w) (d : Dim) : K := dsize v.val d

/-- Physical value of a scalar quantity. -/
def Valuation.scalar (v : Valuation w) (q : SQ K) : K := q.mag * v.size q.dim

/-- Physical value of a quantity, elementwise. -/
def Valuation.phys (v : Valuation w) (q : Quantity K) : NDArr K :=
  q.mag.map (fun x => x * v.size q.dim)

/-- Physical value of an operand; a plain array is a dimensionless quantity. -/
def Valuation.physOp (v : Valuation w) : Operand K → NDArr K
  | .quantity q => v.phys q
  | .array a => a

/-- The ratio of the sizes of two compound units is fixed by the definitions. -/
def Compatible (w : World K) (a b : Dim) : Prop :=
  ∃ c : K, ∀ v : Valuation w, v.size a = c * v.size b

end

/-- The dimensionality of an operand, empty for a plain array. -/
def Operand.dim : Operand K → Dim
  | .quantity q => q.dim
  | .array _ => []

/-- The two dimensionalities are not told equal by a hash collision. -/
def NoColl (w : World K) (a b : Dim) : Prop := w.deq a b = true → SameContent a b

/-- A dimensionality as a user of world `w` can have it: a canonical dict over existing units
(`dimensionless` never occurs as a key). -/
structure DimOK (w : World K) (d : Dim) : Prop where
  canon : Canon d
  known : ∀ kv ∈ d, kv.1 ∈ w.units.map Prod.fst
  notDimless : ∀ kv ∈ d, kv.1.cls ≠ .dimensionless

/-- The comparisons made while converting between `a` and `b` hit no hash collision: neither the
comparison of the two dimensionalities nor that of their reference units. -/
structure HashSafe [One K] [Mul K] [RPow K] (w : World K) (a b : Dim) : Prop where
  direct : NoColl w a b
  refs : NoColl w (w.refUnits a).dim (w.refUnits b).dim

/-! ## Histories -/

/-- Operations that change the state of the library. -/
inductive Op (K : Type _)
  | newUnit (a : World.NewUnit K)
  | setDefault (c : UClass) (a : Option (World.DefaultArg K))

/-- Operations a user can perform in world `w`: definitions are positive quantities over existing
units; `Dimensionless` takes no definition. -/
def Op.Valid [Zero K] [LT K] (w : World K) : Op K → Prop
  | .newUnit a =>
    (∀ q, a.definition.toDef = some q → 0 < q.mag ∧ DimOK w q.dim) ∧
    (a.cls = .dimensionless → a.definition.toDef = none)
  | .setDefault _ a => ∀ x, a = some x → DimOK w x.dim

/-- Perform an operation: the exception, if any, and the next state. -/
def Op.run [One K] [Mul K] [Div K] [RPow K] [DecidableEq K] (w : World K) :
    Op K → Option PyErr × World K
  | .newUnit a => w.newUnit a
  | .setDefault c a => w.setDefault c a

/-- The state before `import quantities`: nothing defined. -/
def World.init (h : Hasher) : World K := ⟨h, [], [], fun _ => none, fun _ => none⟩

/-- States reachable by any finite sequence of operations, whether they succeed or raise. -/
inductive Reachable [Zero K] [One K] [Mul K] [Div K] [RPow K] [LT K] [DecidableEq K] (h : Hasher) :
    World K → Prop
  | init : Reachable h (World.init h)
  | step {w : World K} (op : Op K) : Reachable h w → op.Valid w → Reachable h (op.run w).2

end PQ
