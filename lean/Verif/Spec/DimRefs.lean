import Verif.Model.DimRefs

/-!
# Specification: dimensionalities as values

The program of `Model/DimRefs.lean` run by a machine in which a `Dimensionality` variable holds a
value and a quantity holds its units as a value: nothing is ever shared.
-/

namespace PQ.Refs

variable {K : Type _}

/-- The values of the program's variables. -/
structure VState (K : Type _) where
  dims : List Dim
  qs : List (Quantity K)

/-- What a program can observe: the contents of its variables and the values of its quantities. -/
def State.observe (s : State K) : VState K :=
  ⟨s.vars.map (deref s.store), s.qs.map (fun q => ⟨q.mag, deref s.store q.dptr⟩)⟩

/-- A `dict` literal has no key twice. -/
def UArg.Valid : UArg → Prop
  | .lit d => Dict.Nodup d
  | _ => True

/-- Literals are dicts. -/
def Cmd.Valid : Cmd K → Prop
  | .newDim d => Dict.Nodup d
  | .newQ _ u | .newUncertain _ u | .rescaleQ _ u | .setUnitsQ _ u => u.Valid
  | _ => True

/-- The `Dimensionality` variable whose object the command changes. -/
def Cmd.edits : Cmd K → Option Nat
  | .ibinDim _ j _ | .ipowDim j _ | .setKey j _ _ | .delKey j _ | .clear j | .update j _ => some j
  | _ => none

/-- The quantity the command changes. -/
def Cmd.assigns : Cmd K → Option Nat
  | .setUnitsQ i _ | .iarithQ _ i _ | .fillQ i _ | .outQ _ _ i => some i
  | _ => none

/-- Two variables refer to the same object: `d is e`. -/
def State.SameObject (s : State K) (j k : Nat) : Prop := ∃ p, s.vars[j]? = some p ∧ s.vars[k]? = some p

/-- No two variables refer to the same object. -/
def State.NoAlias (s : State K) : Prop := ∀ j k, s.SameObject j k → j = k

section ops
variable [Zero K] [One K] [Add K] [Sub K] [Mul K] [Div K] [RPow K] [PyFloor K] [DecidableEq K]

/-- The states a program can reach. -/
inductive Reached (np2 : Bool) (w : World K) (fuel : Nat) : State K → Prop
  | start : Reached np2 w fuel State.empty
  | step {s : State K} (c : Cmd K) (hc : c.Valid) (hs : Reached np2 w fuel s) :
      Reached np2 w fuel (Refs.step np2 w fuel s c).2

/-- The command asks an empty `Dimensionality` for `simplified`. -/
def Cmd.SimplifiesEmpty (s : State K) : Cmd K → Prop
  | .simplifiedDim j => ∃ p, s.vars[j]? = some p ∧ deref s.store p = []
  | _ => False

/-- A single value, which is 1 (a quantity that may be used as units). -/
def IsOne (m : NDArr K) : Prop := (m.shape = [] ∨ m.shape = [1]) ∧ ∀ x ∈ m.toList, x = 1

instance [DecidableEq K] (m : NDArr K) : Decidable (IsOne m) := inferInstanceAs (Decidable (_ ∧ _))

/-- The units denoted by a `units` argument. -/
def VState.units (v : VState K) : UArg → Py Dim
  | .lit d => .ok d
  | .var j => match v.dims[j]? with
    | some d => .ok d
    | none => .error .exception
  | .qty i => match v.qs[i]? with
    | some q => if IsOne q.mag then .ok q.dim else .error .valueError
    | none => .error .exception

/-- A new `Dimensionality` value. -/
def VState.addDim (v : VState K) : Py Dim → Option PyErr × VState K
  | .ok d => (none, ⟨v.dims ++ [d], v.qs⟩)
  | .error e => (some e, v)

/-- A new quantity. -/
def VState.addQ (v : VState K) : Py (Quantity K) → Option PyErr × VState K
  | .ok q => (none, ⟨v.dims, v.qs ++ [q]⟩)
  | .error e => (some e, v)

/-- Variable `j` gets the value `d`. -/
def VState.setDim (v : VState K) (j : Nat) (d : Dim) : VState K := ⟨v.dims.set j d, v.qs⟩

/-- Quantity `i` gets the value `q`. -/
def VState.setQ (v : VState K) (i : Nat) : Py (Quantity K) → Option PyErr × VState K
  | .ok q => (none, ⟨v.dims, v.qs.set i q⟩)
  | .error e => (some e, v)

/-- The value of variable `j`, or `NameError` (here `exception`). -/
def VState.dim (v : VState K) (j : Nat) : Py Dim :=
  match v.dims[j]? with
  | some d => .ok d
  | none => .error .exception

/-- The value of quantity `i`. -/
def VState.qty (v : VState K) (i : Nat) : Py (Quantity K) :=
  match v.qs[i]? with
  | some q => .ok q
  | none => .error .exception

/-- One command on values. -/
def VState.step (np2 : Bool) (w : World K) (fuel : Nat) (v : VState K) : Cmd K → Option PyErr × VState K
  | .newDim d => v.addDim (.ok d)
  | .dimOf i => v.addDim ((v.qty i).map Quantity.dim)
  | .copyDim j => v.addDim (v.dim j)
  | .binDim op j k => v.addDim (do
      let a ← v.dim j
      let b ← v.dim k
      match op with
      | .mul => .ok (Dim.mul a b)
      | .div => .ok (Dim.div a b)
      | .add => Dim.add w.hasher w.order a (.dim b)
      | .sub => Dim.sub w.hasher w.order a (.dim b))
  | .powDim j p => v.addDim ((v.dim j).map (Dim.pow · p))
  | .simplifiedDim j => v.addDim ((v.dim j).bind (Dim.simplified w fuel))
  | .ibinDim op j k =>
    match v.dim j, v.dim k with
    | .ok a, .ok b =>
      match op with
      | .mul => if j = k then ((Dim.imulSelf a).1, v.setDim j (Dim.imulSelf a).2)
                else (none, v.setDim j (Dim.imul a b))
      | .div => if j = k then ((Dim.itruedivSelf a).1, v.setDim j (Dim.itruedivSelf a).2)
                else (none, v.setDim j (Dim.itruediv a b))
      | .add | .sub => (if w.deq a b then none else some .valueError, v)
    | _, _ => (some .exception, v)
  | .ipowDim j p =>
    match v.dim j with
    | .ok a => (none, v.setDim j (Dim.ipow a p))
    | .error e => (some e, v)
  | .setKey j u p =>
    match v.dim j with
    | .ok a => (none, v.setDim j (Dict.set a u p))
    | .error e => (some e, v)
  | .delKey j u =>
    match v.dim j with
    | .ok a => if (Dict.get? a u).isSome then (none, v.setDim j (Dict.pop a u)) else (some .keyError, v)
    | .error e => (some e, v)
  | .clear j =>
    match v.dim j with
    | .ok _ => (none, v.setDim j [])
    | .error e => (some e, v)
  | .update j k =>
    match v.dim j, v.dim k with
    | .ok a, .ok b => (none, v.setDim j (updateDict a b))
    | _, _ => (some .exception, v)
  | .newQ a u => v.addQ ((v.units u).map (fun d => ⟨a, d⟩))
  | .newUncertain a u =>
    match v.units u with
    | .ok d => (none, ⟨v.dims, v.qs ++ [⟨a, d⟩, ⟨⟨a.shape, fun _ => 0⟩, d⟩]⟩)
    | .error e => (some e, v)
  | .viewQ i f => v.addQ ((v.qty i).map (fun q => ⟨f q.mag, q.dim⟩))
  | .itemQ i f => v.addQ ((v.qty i).bind (fun q => (f q.mag).map (fun x => ⟨NDArr.scalar x, q.dim⟩)))
  | .unitsQ i => v.addQ ((v.qty i).map Quantity.units)
  | .rescaleQ i u => v.addQ ((v.qty i).bind (fun q => (v.units u).bind (fun d => q.rescale w d)))
  | .simplifiedQ i => v.addQ ((v.qty i).bind (fun q => q.simplified w fuel))
  | .arithQ op i k => v.addQ ((v.qty i).bind (fun a => (v.qty k).bind (fun b => arithValue w op a b)))
  | .powQ i e => v.addQ ((v.qty i).bind (fun q => q.pow e))
  | .setUnitsQ i u =>
    match v.qty i with
    | .error e => (some e, v)
    | .ok q =>
      match v.units u with
      | .error e => (some e, v)
      | .ok d => ((q.setUnits w d).1, ⟨v.dims, v.qs.set i (q.setUnits w d).2⟩)
  | .iarithQ op i k => v.setQ i (do
      let a ← v.qty i
      let b ← v.qty k
      let r ← arithValue w op a b
      if r.mag.shape ≠ a.mag.shape then .error .valueError
      else .ok (if np2 then ⟨r.mag, a.dim⟩ else r))
  | .fillQ i k => v.setQ i (do
      let a ← v.qty i
      let b ← v.qty k
      match b.mag.toList with
      | [c] => .ok ⟨⟨a.mag.shape, fun _ => c⟩, b.dim⟩
      | _ => .error .valueError)
  | .outQ f i out => v.setQ out (do
      let a ← v.qty i
      let o ← v.qty out
      let m ← f a.mag
      if m.shape ≠ o.mag.shape then .error .valueError else .ok ⟨m, a.dim⟩)

/-- A program on values. -/
def VState.run (np2 : Bool) (w : World K) (fuel : Nat) (v : VState K) : List (Cmd K) → VState K
  | [] => v
  | c :: cs => VState.run np2 w fuel (v.step np2 w fuel c).2 cs

end ops
end PQ.Refs
