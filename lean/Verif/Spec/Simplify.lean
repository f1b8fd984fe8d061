import Verif.Spec.Physical

/-!
# Vocabulary for `simplified`
-/

namespace PQ

section
variable {K : Type _}

/-- `u` occurs in the default unit of some base-unit class. -/
def IsDefaultUnit (w : World K) (u : UKey) : Prop :=
  ∃ c d, w.defaults c = some d ∧ u ∈ d.map Prod.fst

/-- The comparison of a unit with the default of its class hits no hash collision. -/
def DefaultsSafe [One K] [Mul K] [RPow K] (w : World K) : Prop :=
  ∀ (u : UKey) (d : Dim), u ∈ w.units.map Prod.fst → w.defaults u.cls = some d →
    HashSafe w (unitDim u) d

end

variable {K : Type _} [Field K] [LinearOrder K] [RPow K]

/-- Every base-unit class's default is, dimensionally, a base unit of that class: convertible to a
unit of the class that has no definition. -/
def GoodDefaults (w : World K) : Prop :=
  ∀ c d, w.defaults c = some d → DimOK w d ∧
    ∃ u₀ : UKey, u₀.cls = c ∧ u₀ ∈ w.units.map Prod.fst ∧ w.convRef u₀ = none ∧
      Compatible w d (unitDim u₀)

/-- `u` can be expressed in default units directly: it belongs to a base-unit class and is
compatible with the default of the class. -/
def MeetsDefault (w : World K) (u : UKey) : Prop :=
  u.cls.irreducible = true ∧ ∃ d, w.defaults u.cls = some d ∧ Compatible w (unitDim u) d

/-- `u` simplifies: either it meets its class's default, or it is a derived unit whose definition
ultimately consists of units that do. -/
def Simplifies (w : World K) (u : UKey) : Prop :=
  MeetsDefault w u ∨ (u.cls.irreducible = false ∧ ∃ r, w.convRef u = some r ∧
    ∀ kv ∈ r.dim, MeetsDefault w kv.1)

end PQ
