import Verif.Model.Quantitizer
import Verif.Spec.Simplify

/-!
# Vocabulary for functions wrapped by `quantitizer`
-/

namespace PQ

variable {K : Type _} [Field K] [LinearOrder K] [RPow K]

/-- The number `x` that the base function received for the argument `a`: a plain argument unchanged;
of a quantity, its value in default units. -/
def GivenAs (w : World K) (a : Operand K) (x : NDArr K) : Prop :=
  match a with
  | .array y => x = y
  | .quantity q => ∃ s : Dim, DimOK w s ∧ (∀ u ∈ s.map Prod.fst, IsDefaultUnit w u) ∧
      ∀ v : Valuation w, v.phys ⟨x, s⟩ = v.phys q

/-- The item `o` that the caller receives for the item `x` of the base function's result, when the
handler announced `d`: without units `x` itself; with units `d`, a quantity in these units whose
physical value is `x` default units. -/
def ReturnedAs (w : World K) (x : NDArr K) (d : Option Dim) (o : Operand K) : Prop :=
  match d with
  | none => o = .array x
  | some d => ∃ (r : Quantity K) (s : Dim), o = .quantity r ∧ SameContent r.dim d ∧
      DimOK w s ∧ (∀ u ∈ s.map Prod.fst, IsDefaultUnit w u) ∧ Compatible w s d ∧
      ∀ v : Valuation w, v.phys r = v.phys ⟨x, s⟩

/-- The handler announces units that a user can have, whose simplification causes no hash collision. -/
def Announceable (w : World K) (fuel : Nat) (hs : List (Option Dim)) : Prop :=
  ∀ d, some d ∈ hs → DimOK w d ∧ ∀ s, Dim.simplified w fuel d = .ok s → HashSafe w s d

/-- The quantities among the arguments are ones a user can have. -/
def ArgsOK (w : World K) (l : List (Operand K)) : Prop := ∀ q, Operand.quantity q ∈ l → DimOK w q.dim

/-- The same argument given in other units: plain arguments are equal, quantities have compatible
units and the same physical value. -/
def SameArg (w : World K) (a b : Operand K) : Prop :=
  match a, b with
  | .array x, .array y => x = y
  | .quantity p, .quantity q => Compatible w p.dim q.dim ∧ ∀ v : Valuation w, v.phys p = v.phys q
  | _, _ => False

/-- The same announcement in other units. -/
def SameAnnounced (w : World K) (a b : Option Dim) : Prop :=
  match a, b with
  | none, none => True
  | some d, some e => Compatible w d e
  | _, _ => False

/-- What a sequence of results consists of: the items of a tuple, the rows of an array along its first
axis. -/
def Quantitizer.BaseOut.Items {K : Type _} : Quantitizer.BaseOut K → List (NDArr K) → Prop
  | .tuple l, xs => xs = l
  | .array a, xs => a.shape = xs.length :: a.shape.tail ∧
      ∀ (j : Nat) (x : NDArr K), xs[j]? = some x → x.shape = a.shape.tail ∧
        ∀ i, x.elem i = a.elem (j :: i)
  | .number _, _ => False

/-- The units a handler's result announces, item by item: one quantity announces its units for each
element along its first axis. -/
def Quantitizer.HandlerOut.Announces {K : Type _} : Quantitizer.HandlerOut K → List (Option Dim) → Prop
  | .tuple l, hs => hs = l
  | .quantity q, hs => q.mag.shape = hs.length :: q.mag.shape.tail ∧ ∀ d ∈ hs, d = some q.dim
  | .number, _ => False

end PQ
