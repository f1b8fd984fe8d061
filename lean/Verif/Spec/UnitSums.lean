import Verif.Spec.UnitText

/-!
# Sums in unit strings, and what they say
-/

namespace PQ

variable {K : Type _}

/-- The rest of a sum, written down: for each further term a sign (`true` for minus), with blanks around
it, and the term. -/
inductive WritesTail : List (Bool × UX) → List Char → Prop
  | nil : WritesTail [] []
  | cons {neg : Bool} {f : UX} {l t s b₁ b₂} : Blank b₁ → Blank b₂ → Writes .term f t → WritesTail l s →
      WritesTail ((neg, f) :: l) (b₁ ++ [if neg then '-' else '+'] ++ b₂ ++ t ++ s)

/-- `s` writes the sum of `e` and the signed terms `l`. -/
def WritesSum (e : UX) (l : List (Bool × UX)) (s : List Char) : Prop :=
  ∃ t r, Writes .term e t ∧ WritesTail l r ∧ s = t ++ r

section
variable [Field K] [RPow K] [LinearOrder K]

/-- `d` is the dimensionality of the expression `e`. -/
def UX.HasDim (w : World K) (e : UX) (d : Dim) : Prop := DimOK w d ∧ ∀ u, expo d u = e.exponent w u

/-- Terms that can be added: their units convert into each other. -/
def UX.SameKind (w : World K) (e f : UX) : Prop := ∃ d d', e.HasDim w d ∧ f.HasDim w d' ∧ Compatible w d d'

/-- The physical value of the further terms. -/
def tailValue {w : World K} (v : Valuation w) : List (Bool × UX) → K
  | [] => 0
  | (neg, f) :: l => (if neg then - f.value v else f.value v) + tailValue v l

/-- The signed sum of the further terms, when all of them are numbers. -/
def tailNumber : List (Bool × UX) → Option ℚ
  | [] => some 0
  | (neg, f) :: l => f.number.bind fun x => (tailNumber l).map fun y => (if neg then -x else x) + y

/-- The term makes sense and is not a plain number. -/
def UX.IsUnits (w : World K) (e : UX) : Prop := e.Sensible w ∧ e.number = none

/-- No hash collision while the terms are compared. -/
def SumSafe (w : World K) (e : UX) (l : List (Bool × UX)) : Prop :=
  ∀ nf ∈ l, ∀ d d', e.HasDim w d → nf.2.HasDim w d' → HashSafe w d' d

end
end PQ
