import Verif.Spec.Simplify
import Verif.Model.Threads

/-!
# What several threads may do
-/

namespace PQ

universe u v

variable {K : Type u} {ρ : Type v}

section
variable [Field K] [LinearOrder K] [RPow K]

/-- What a thread may start with in the world `w`: any computation with quantities, the creation of
a unit by a positive definition over existing units, a change of a default to existing units. -/
inductive Thread.Starts (w : World K) : Thread K ρ → Prop
  | reader (p : Prog K ρ) : Starts w (.reader p)
  | create (a : World.NewUnit K) (hv : (Op.newUnit a).Valid w) (hc : a.cls ≠ .dimensionless) :
      Starts w (.create a)
  | setDefault (c : UClass) (a : World.DefaultArg K) (hd : DimOK w a.dim) : Starts w (.setDefault c a)

/-- Thread `i` has finished its computation with the result `r`. -/
def Sys.Result (s : Sys K ρ) (i : Nat) (r : ρ) : Prop := s.threads[i]? = some (.reader (.ret r))

/-- Thread `i` has finished creating a unit, with the exception `e` if any. -/
def Sys.Created (s : Sys K ρ) (i : Nat) (e : Option PyErr) : Prop :=
  ∃ a, s.threads[i]? = some (.creator (.done a e))

/-- A program made of conversions, additions, subtractions and comparisons of quantities whose units
exist, in any order; later operations may depend on the results of earlier ones. -/
inductive Calculates (w : World K) : Prog K ρ → Prop
  | ret (r : ρ) : Calculates w (.ret r)
  | rescale {q : Quantity K} {d : Dim} {k : Py (Quantity K) → Prog K ρ} (hq : DimOK w q.dim)
      (hd : DimOK w d) (hk : Calculates w (k (q.rescale w d))) : Calculates w ((rescaleP q d).bind k)
  | add {q : Quantity K} {o : Operand K} {k : Py (Quantity K) → Prog K ρ} (hq : DimOK w q.dim)
      (ho : DimOK w o.dim) (hk : Calculates w (k (q.add w o))) :
      Calculates w ((addLikeP (· + ·) q o).bind k)
  | sub {q : Quantity K} {o : Operand K} {k : Py (Quantity K) → Prog K ρ} (hq : DimOK w q.dim)
      (ho : DimOK w o.dim) (hk : Calculates w (k (q.sub w o))) :
      Calculates w ((addLikeP (· - ·) q o).bind k)
  | compare {r : K → K → Bool} {q : Quantity K} {o : Operand K} {k : Py (NDArr Bool) → Prog K ρ}
      (hq : DimOK w q.dim) (ho : DimOK w o.dim) (hk : Calculates w (k (q.compare r w o))) :
      Calculates w ((compareP r q o).bind k)

end

section
variable [One K] [Mul K] [Div K] [RPow K] [DecidableEq K]

/-- The unit a thread is creating. -/
def Creator.arg : Creator K → World.NewUnit K
  | .defining a _ | .numbering a _ | .counting a | .counted a _ | .labelling a _ | .binding a _ _
  | .defaulting a | .setting a | .done a _ => a

/-- The thread does not create a unit with the same name and class as `a`, nor registers a label that
`a` registers. -/
def Thread.Avoids (a : World.NewUnit K) : Thread K ρ → Prop
  | .creator c => (c.arg.cls, c.arg.name) ≠ (a.cls, a.name) ∧
      ∀ l ∈ World.labelsOf c.arg.cls c.arg.name c.arg.symbol c.arg.aliases,
        l ∉ World.labelsOf a.cls a.name a.symbol a.aliases
  | _ => True

end
end PQ
