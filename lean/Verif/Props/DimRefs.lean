import Verif.Lemmas.DimRefs
import Verif.Lemmas.Example

/-!
# C91: a dimensionality handed out is a snapshot

`Dimensionality` objects are mutable and quantities hold references to them.  The theorems compare
the machine with references (`Model/DimRefs.lean`) with the machine on values (`Spec/DimRefs.lean`).
-/

set_option linter.unusedSectionVars false

namespace PQ.Refs

section general
variable {K : Type _} [Zero K] [One K] [Add K] [Sub K] [Mul K] [Div K] [RPow K] [PyFloor K]
  [DecidableEq K] {np2 : Bool} {w : World K} {fuel : Nat} {s : State K}

/-- Whatever a program does, a command other than one that assigns to quantity `i` itself leaves its
magnitude and its units alone: no edit of a `Dimensionality` obtained from it, passed to it or
computed from it reaches it, and neither does a change of another quantity's units. -/
theorem C91_quantity_isolated (hs : Reached np2 w fuel s) (c : Cmd K) (hc : c.Valid) (i : Nat)
    (q : Quantity K) (hq : s.observe.qs[i]? = some q) (hi : c.assigns ≠ some i) :
    (step np2 w fuel s c).2.observe.qs[i]? = some q := by
  have hg := hs.good
  have he := (step_agrees hg np2 w fuel c hc).1
  generalize (step np2 w fuel s c).2 = s' at he ⊢
  have hlt : i < s.observe.qs.length := (List.getElem?_eq_some_iff.1 hq).1
  cases he with
  | keep => exact hq
  | addDim h => rw [observe_addDim hg h]; exact hq
  | shared h _ => exact hq
  | write d h hd _ =>
    simp only [State.observe, List.getElem?_map] at hq ⊢
    cases hq' : s.qs[i]? with
    | none => rw [hq'] at hq; exact hq
    | some o =>
      rw [hq'] at hq
      have := hg.apart _ (List.mem_of_getElem? h) _ (List.mem_of_getElem? hq')
      simpa [deref_set_ne (Ne.symm this)] using hq
  | addQs h ms => rw [observe_addQs hg h]; simpa [List.getElem?_append_left hlt] using hq
  | @setQ k _ _ he _ _ h m =>
    rw [observe_setQ hg h]
    have : k ≠ i := fun e => hi (e ▸ he)
    simpa [List.getElem?_set_ne this] using hq
  | @setMag k _ _ he m =>
    rw [observe_setMag]
    have : k ≠ i := fun e => hi (e ▸ he)
    simpa [List.getElem?_set_ne this] using hq

/-- Whatever a program does, the contents of a `Dimensionality` variable change only by an edit of
that very object: converting, assigning to or computing with quantities never changes them. -/
theorem C91_snapshot_kept (hs : Reached np2 w fuel s) (c : Cmd K) (hc : c.Valid) (j : Nat) (d : Dim)
    (hd : s.observe.dims[j]? = some d) (hj : ∀ k, c.edits = some k → ¬ s.SameObject k j) :
    (step np2 w fuel s c).2.observe.dims[j]? = some d := by
  have hg := hs.good
  have he := (step_agrees hg np2 w fuel c hc).1
  generalize (step np2 w fuel s c).2 = s' at he ⊢
  have hlt : j < s.observe.dims.length := (List.getElem?_eq_some_iff.1 hd).1
  cases he with
  | keep => exact hd
  | addDim h => rw [observe_addDim hg h]; simpa [List.getElem?_append_left hlt] using hd
  | shared h _ =>
    have hlt' : j < s.vars.length := by simpa [State.observe] using hlt
    simp only [State.observe, List.getElem?_map] at hd ⊢
    simpa [List.getElem?_append_left hlt'] using hd
  | @write k p e h _ he =>
    have hne := hj k he
    simp only [State.observe, List.getElem?_map] at hd ⊢
    cases hv : s.vars[j]? with
    | none => rw [hv] at hd; exact hd
    | some r =>
      rw [hv] at hd
      have : r ≠ p := by rintro rfl; exact hne ⟨_, h, hv⟩
      simpa [deref_set_ne this] using hd
  | addQs h ms => rw [observe_addQs hg h]; exact hd
  | setQ _ _ h m => rw [observe_setQ hg h]; exact hd
  | setMag _ _ m => rw [observe_setMag]; exact hd

/-- Every `Dimensionality` a program gets (`q.dimensionality`, `d.copy()`, `d * e`, `d ** p`,
`d.simplified` of a non-empty one, ...) is an object of its own. -/
theorem C91_new_object (hs : Reached np2 w fuel s) (c : Cmd K) (hc : c.Valid) (hn : ¬ c.SimplifiesEmpty s)
    (j k : Nat) (hjk : (step np2 w fuel s c).2.SameObject j k) : j = k ∨ s.SameObject j k := by
  have hg := hs.good
  have he := (step_agrees hg np2 w fuel c hc).1
  generalize (step np2 w fuel s c).2 = s' at he hjk
  cases he with
  | keep => exact Or.inr hjk
  | shared _ h => exact absurd h hn
  | write => exact Or.inr hjk
  | addQs => exact Or.inr hjk
  | setQ => exact Or.inr hjk
  | setMag => exact Or.inr hjk
  | @addDim r d h =>
    obtain ⟨p, h1, h2⟩ := hjk
    simp only [List.getElem?_append] at h1 h2
    have hm : ∀ n, n < s.vars.length → s.vars[n]? = some p → p < s.store.length :=
      fun n _ e => hg.vars _ (List.mem_of_getElem? e)
    have ge := h.ge
    split at h1
    · next a1 =>
      split at h2
      · exact Or.inr ⟨p, h1, h2⟩
      · next a2 =>
        have : p = r.1 := by
          have := List.mem_of_getElem? h2
          simpa using this
        have := hm _ a1 h1
        omega
    · next a1 =>
      have e1 : j - s.vars.length = 0 := by
        have := (List.getElem?_eq_some_iff.1 h1).1; simp at this; omega
      have hp : p = r.1 := by
        have := List.mem_of_getElem? h1
        simpa using this
      split at h2
      · next a2 => have := hm _ a2 h2; omega
      · next a2 =>
        have e2 : k - s.vars.length = 0 := by
          have := (List.getElem?_eq_some_iff.1 h2).1; simp at this; omega
        left; omega

/-- The program never asks an empty `Dimensionality` for `simplified`. -/
def NeverSimplifiesEmpty (np2 : Bool) (w : World K) (fuel : Nat) : State K → List (Cmd K) → Prop
  | _, [] => True
  | s, c :: cs => ¬ c.SimplifiesEmpty s ∧ NeverSimplifiesEmpty np2 w fuel (step np2 w fuel s c).2 cs

/-- A step of a program in which no two variables are the same object raises what the machine on
values raises and shows what it shows. -/
theorem C91_step_as_values (hs : Reached np2 w fuel s) (hna : s.NoAlias) (c : Cmd K) (hc : c.Valid) :
    (step np2 w fuel s c).1 = (s.observe.step np2 w fuel c).1 ∧
      (step np2 w fuel s c).2.observe = (s.observe.step np2 w fuel c).2 :=
  (step_agrees hs.good np2 w fuel c hc).2 hna

/-- **Value semantics.** A program that never asks an empty `Dimensionality` for `simplified` behaves
as if every dimensionality were a value: references are invisible. -/
theorem C91_programs_as_values_partial (cs : List (Cmd K)) (hcs : ∀ c ∈ cs, c.Valid)
    (hn : NeverSimplifiesEmpty np2 w fuel State.empty cs) :
    (run np2 w fuel State.empty cs).observe = VState.run np2 w fuel ⟨[], []⟩ cs := by
  have key : ∀ (cs : List (Cmd K)) (s : State K), Reached np2 w fuel s → s.NoAlias →
      (∀ c ∈ cs, c.Valid) → NeverSimplifiesEmpty np2 w fuel s cs →
      (run np2 w fuel s cs).observe = VState.run np2 w fuel s.observe cs := by
    intro cs
    induction cs with
    | nil => intro s _ _ _ _; rfl
    | cons c cs ih =>
      intro s hs hna hv hn
      have hc := hv c (by simp)
      have h1 := (C91_step_as_values hs hna c hc).2
      simp only [run, VState.run]
      rw [ih _ (.step c hc hs) ?_ (fun c h => hv c (by simp [h])) hn.2, h1]
      intro j k hjk
      rcases C91_new_object hs c hc hn.1 j k hjk with h | h
      · exact h
      · exact hna j k h
  exact key cs _ .start (by rintro j k ⟨p, h, -⟩; simp [State.empty] at h) hcs hn

end general

/-! ## A case for every hypothesis -/

/-- `q = [1, 2] km; d = q.dimensionality; d *= d; q.units = m; e = q.dimensionality` -/
def exProgram : List (Cmd ℝ) :=
  [.newQ ⟨[2], fun i => i.headD 0 + 1⟩ (.lit dKm), .dimOf 0, .newDim dS, .ibinDim .mul 0 1,
   .setUnitsQ 0 (.lit dM), .dimOf 0]

theorem exProgram_ok : (∀ c ∈ exProgram, c.Valid) ∧
    NeverSimplifiesEmpty false exWorld 10 State.empty exProgram := by
  constructor
  · intro c hc
    simp only [exProgram, List.mem_cons, List.not_mem_nil, or_false] at hc
    rcases hc with rfl | rfl | rfl | rfl | rfl | rfl <;>
      simp [Cmd.Valid, UArg.Valid, Dict.Nodup, dKm, dM, dS]
  · simp only [exProgram, NeverSimplifiesEmpty, Cmd.SimplifiesEmpty, not_false_eq_true, and_self]

example : (run false exWorld 10 State.empty exProgram).observe =
    VState.run false exWorld 10 ⟨[], []⟩ exProgram :=
  C91_programs_as_values_partial _ exProgram_ok.1 exProgram_ok.2

/-- After `q = [1, 2] km; d = q.dimensionality`. -/
noncomputable def exState : State ℝ := run false exWorld 10 State.empty (exProgram.take 2)

theorem exState_reached : Reached false exWorld 10 exState :=
  .step _ (by trivial) (.step _ (by simp [Cmd.Valid, UArg.Valid, Dict.Nodup, dKm]) .start)

/-- `d.clear()` leaves `q` in kilometres although it empties `d`. -/
example : (step false exWorld 10 exState (.clear 0)).2.observe.qs[0]? =
      some ⟨⟨[2], fun i => i.headD 0 + 1⟩, dKm⟩ ∧
    (step false exWorld 10 exState (.clear 0)).2.observe.dims = [[]] :=
  ⟨C91_quantity_isolated exState_reached (.clear 0) trivial 0 _ rfl (by simp [Cmd.assigns]), rfl⟩

/-- `q.units = 'm'` leaves `d` at kilometres. -/
example : (step false exWorld 10 exState (.setUnitsQ 0 (.lit dM))).2.observe.dims[0]? = some dKm :=
  C91_snapshot_kept exState_reached _ (by simp [Cmd.Valid, UArg.Valid, Dict.Nodup, dM]) 0 _ rfl
    (by simp [Cmd.edits])

/-- A second `q.dimensionality` is another object. -/
example : ¬ (step false exWorld 10 exState (.dimOf 0)).2.SameObject 0 1 := by
  intro h
  rcases C91_new_object exState_reached (.dimOf 0) trivial (by simp [Cmd.SimplifiesEmpty]) 0 1 h with h | ⟨p, -, h⟩
  · cases h
  · revert h; decide +revert

/-- **Not so for `d.simplified` of an empty dimensionality**, which is `d` itself: after
`e = d.simplified; e[m] = 1` the dimensionality `d` has become metres.  On values it stays empty. -/
theorem C91_simplified_empty_false :
    let cs : List (Cmd ℝ) := [.newDim [], .simplifiedDim 0, .setKey 1 uM 1]
    (run false exWorld 10 State.empty cs).observe.dims = [dM, dM] ∧
      (VState.run false exWorld 10 ⟨[], []⟩ cs).dims = [[], dM] := by
  constructor <;> rfl

end PQ.Refs
