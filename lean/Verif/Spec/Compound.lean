import Verif.Spec.UnitText

/-!
# Names of compound units
-/

namespace PQ

variable {K : Type _}

/-- The key under which the compound unit of that name is known. -/
def compoundKey (name : String) : UKey := ⟨.compound, name⟩

/-- `name` writes the expression `e` (possibly followed by blanks), which makes sense, mentions a
unit and has a positive numerical factor. -/
structure CompoundText [Field K] [RPow K] [LT K] (w : World K) (name : String) (e : UX) : Prop where
  written : ∃ s b, name.toList = s ++ b ∧ Writes .term e s ∧ Blank b
  notInch : ¬ LooksLikeIn name.toList
  sensible : e.Sensible w
  mentions : e.number = none
  positive : 0 < (e.factor : K)

/-- The text printed for unit `u` reads as an expression that stands for the unit: an identifier
looking it up, or the parenthesised name of a compound unit. -/
structure SymbolReads [Field K] [LinearOrder K] [RPow K] (w : World K) (u : UKey) (e : UX) : Prop where
  written : Writes .atom e (w.unitSymbol false u)
  notInch : ¬ LooksLikeIn (w.unitSymbol false u)
  sensible : e.Sensible w
  mentions : e.number = none
  positive : 0 < (e.factor : K)
  value : ∀ v : Valuation w, e.value v = v.val u

end PQ
