import Verif.Lemmas.UnitObjects3
import Verif.Lemmas.Arith
import Verif.Lemmas.Example
import Mathlib.Logic.Relation

/-!
# Unit objects: copies and redefinitions (C102, C103, C104)
-/

set_option linter.unusedSectionVars false

namespace PQ.Obj

open OWorld

section
variable {K : Type _} [Zero K] [One K] [Mul K] [Div K] [RPow K] [LT K] [DecidableEq K]
variable {h : Hasher} {w : OWorld K}

theorem outAlike_iff (a b : Py (OQ K)) : OutAlike w a b ↔ a.map w.absQ = b.map w.absQ := by
  rcases a with e | a <;> rcases b with e' | b
  · exact ⟨fun q => by rw [show e = e' from q], fun q => by cases q; rfl⟩
  · exact ⟨fun q => q.elim, fun q => by cases q⟩
  · exact ⟨fun q => q.elim, fun q => by cases q⟩
  · show (a.mag = b.mag ∧ w.Alike a.dim b.dim) ↔ (Except.ok (w.absQ a) : Py _) = .ok (w.absQ b)
    rw [alike_iff]
    unfold absQ
    constructor
    · rintro ⟨h1, h2⟩; rw [h1, h2]
    · intro q
      injection q with q
      injection q with q1 q2
      exact ⟨q1, q2⟩

theorem absOp_of_alike {o o' : OOperand K} (ho : OpAlike w o o') : w.absOp o = w.absOp o' := by
  cases o <;> cases o'
  · obtain ⟨h1, h2⟩ := ho
    rw [alike_iff] at h2
    simp only [absOp, absQ, h1, h2]
  · exact ho.elim
  · exact ho.elim
  · rw [show _ = _ from ho]

theorem absQ_of_alike {a b : OQ K} (hm : a.mag = b.mag) (hd : w.Alike a.dim b.dim) : w.absQ a = w.absQ b := by
  rw [alike_iff] at hd
  unfold absQ
  rw [hm, hd]

/-- **C102.** In every history in which no class and name gets a second meaning: replacing units in the operands of
`rescale`, `+`, `-`, `*`, `/`, `**`, the comparisons and `simplified` by copies of them (or by other objects of the
same class and name) changes nothing: the same exception, or the same numbers with units of the same class and
name. -/
theorem C102_interchangeable [Add K] [Sub K] (hw : Created h w) (x x' : OQ K) (o o' : OOperand K) (d d' : ODim)
    (hx : w.Scoped x.dim) (hx' : w.Scoped x'.dim) (ho : w.OpScoped o) (ho' : w.OpScoped o') (hd : w.Scoped d)
    (hd' : w.Scoped d') (hm : x.mag = x'.mag) (hxx : w.Alike x.dim x'.dim) (hoo : OpAlike w o o')
    (hdd : w.Alike d d') :
    OutAlike w (x.rescale w d) (x'.rescale w d') ∧
    OutAlike w (x.add w o) (x'.add w o') ∧ OutAlike w (x.sub w o) (x'.sub w o') ∧
    OutAlike w (x.mul w o) (x'.mul w o') ∧ OutAlike w (x.truediv w o) (x'.truediv w o') ∧
    (∀ p, OutAlike w (x.pow p) (x'.pow p)) ∧
    (∀ fuel, OutAlike w (x.simplified w fuel) (x'.simplified w fuel)) ∧
    ∀ y y' : OQ K, o = .quantity y → o' = .quantity y' →
      (∀ r, x.compare r w y = x'.compare r w y') ∧ x.eq w y = x'.eq w y' := by
  obtain ⟨hs, -⟩ := hw.sound
  have hc := hs.coherent
  have e1 := absQ_of_alike hm hxx
  have e2 := absOp_of_alike hoo
  have e3 := (alike_iff w d d').1 hdd
  have hr : SimpReady w := ⟨hc, hs.refs, hs.defaulted⟩
  refine ⟨(outAlike_iff _ _).2 ?_, (outAlike_iff _ _).2 ?_, (outAlike_iff _ _).2 ?_, (outAlike_iff _ _).2 ?_,
    (outAlike_iff _ _).2 ?_, fun p => (outAlike_iff _ _).2 ?_, fun fuel => (outAlike_iff _ _).2 ?_, ?_⟩
  · rw [OQ.rescale_abs hc hx hd, OQ.rescale_abs hc hx' hd', e1, e3]
  · rw [OQ.add_abs hc hx ho, OQ.add_abs hc hx' ho', e1, e2]
  · rw [OQ.sub_abs hc hx ho, OQ.sub_abs hc hx' ho', e1, e2]
  · rw [OQ.mul_abs, OQ.mul_abs, e1, e2]
  · rw [OQ.truediv_abs, OQ.truediv_abs, e1, e2]
  · rw [OQ.pow_abs, OQ.pow_abs, e1]
  · rw [OQ.simplified_abs hr fuel hx, OQ.simplified_abs hr fuel hx', e1]
  · rintro y y' rfl rfl
    have e4 : w.absQ y = w.absQ y' := absQ_of_alike hoo.1 hoo.2
    refine ⟨fun r => ?_, ?_⟩
    · rw [OQ.compare_abs r hc hx ho, OQ.compare_abs r hc hx' ho', e1, e4]
    · rw [OQ.eq_abs hc hx ho, OQ.eq_abs hc hx' ho', e1, e4]

/-- **C102.** Such a history is a history of the states in which a unit is its class and name, and the operations
have the outcomes they have there: what is proved about those states (C01 - C20 and the rest) holds whatever copies
of the units there are. -/
theorem C102_refinement [Add K] [Sub K] (hw : Created h w) : Reachable h w.abs ∧
    ∀ (x : OQ K) (o : OOperand K) (d : ODim), w.Scoped x.dim → w.OpScoped o → w.Scoped d →
      (x.rescale w d).map w.absQ = (w.absQ x).rescale w.abs (w.absD d) ∧
      (x.add w o).map w.absQ = (w.absQ x).add w.abs (w.absOp o) ∧
      (x.sub w o).map w.absQ = (w.absQ x).sub w.abs (w.absOp o) ∧
      (x.mul w o).map w.absQ = (w.absQ x).mul w.abs (w.absOp o) ∧
      (x.truediv w o).map w.absQ = (w.absQ x).truediv w.abs (w.absOp o) ∧
      (∀ p, (x.pow p).map w.absQ = (w.absQ x).pow ⟨p, none⟩) ∧
      ∀ fuel, (x.simplified w fuel).map w.absQ = (w.absQ x).simplified w.abs fuel := by
  obtain ⟨hs, hr⟩ := hw.sound
  have hc := hs.coherent
  exact ⟨hr, fun x o d hx ho hd => ⟨OQ.rescale_abs hc hx hd, OQ.add_abs hc hx ho, OQ.sub_abs hc hx ho,
    OQ.mul_abs w x o, OQ.truediv_abs w x o, fun p => OQ.pow_abs w x p,
    fun fuel => OQ.simplified_abs ⟨hc, hs.refs, hs.defaulted⟩ fuel hx⟩⟩

theorem unitEq_same (w : OWorld K) {i j : Nat} (hk : w.key i = w.key j) : w.unitEq i j = true := by
  have hd : w.absD (w.unitDim i) = w.absD (w.unitDim j) := by rw [absD_unitDim, absD_unitDim, hk]
  have hq : w.deq (w.unitDim j) (w.unitDim i) = true := by
    rw [deq_abs, hd]
    unfold World.deq
    exact beq_self_eq_true _
  unfold unitEq eqS rescaleS
  simp only [hq, if_true, decide_true]

/-- Registering labels that are all bound to equal units changes nothing. -/
theorem registryAll_bound_eq (w : OWorld K) (u : Nat) (ls : List String)
    (hl : ∀ l ∈ ls, ∃ j, Dict.get? w.registry l = some j ∧ w.unitEq u j = true) : w.registryAll u ls = (none, w) := by
  induction ls with
  | nil => rfl
  | cons l ls ih =>
    obtain ⟨j, h1, h2⟩ := hl l List.mem_cons_self
    unfold registryAll registrySet
    rw [h1]
    simp only [h2, if_true]
    exact ih (fun l hm => hl l (List.mem_cons_of_mem _ hm))

/-- Objects of the same class and name compare alike with every object. -/
theorem unitEq_key {w : OWorld K} (hw : w.Coherent) {i i' j : Nat} (hi : i < w.objs.length) (hi' : i' < w.objs.length)
    (hj : j < w.objs.length) (hk : w.key i = w.key i') : w.unitEq i j = w.unitEq i' j := by
  rw [unitEq_abs hw hi hj, unitEq_abs hw hi' hj, hk]

/-- **C102.** `unit.copy()`, for a unit other than `dimensionless` whose labels are bound to units equal to it: no
exception; a new object with the same class, name and definition, which compares equal to the original and has the
same hash; it is printed after all units of its class created before; every lookup in the registry gives the object it
gave before, and the default units are the same (a class without default gets the copy). -/
theorem C102_copy (hw : Created h w) {i : Nat} (hi : i < w.objs.length) (hc : (w.key i).cls ≠ .dimensionless)
    (hl : Labelled w i) :
    (w.copy i).1 = none ∧ (w.copy i).2.objs.length = w.objs.length + 1 ∧
    (w.copy i).2.key w.objs.length = w.key i ∧ (w.copy i).2.convRef w.objs.length = w.convRef i ∧
    (w.copy i).2.unitEq w.objs.length i = true ∧
    (w.copy i).2.unitHash w.objs.length = w.unitHash i ∧
    (w.copy i).2.order w.objs.length = ((w.key i).cls.primaryOrder, w.counter (w.key i).cls) ∧
    (∀ j, j < w.objs.length → (w.copy i).2.objs[j]? = w.objs[j]?) ∧
    (w.copy i).2.registry = w.registry ∧
    (∀ c d, w.defaults c = some d → (w.copy i).2.defaults c = some d) := by
  obtain ⟨hs, -⟩ := hw.sound
  obtain ⟨o, ho⟩ : ∃ o, w.objs[i]? = some o := ⟨_, List.getElem?_eq_getElem hi⟩
  have hk : w.key i = o.key := by unfold key; rw [ho]
  have hcr : w.convRef i = o.convRef := by unfold convRef; rw [ho]; rfl
  obtain ⟨hv, hag⟩ := copyArgs_valid hs ho
  have hcs := construct_sound hs (copyArgs o) hv hag
  have hkp := construct_keeps w (copyArgs o)
  have hlen : (w.construct (copyArgs o)).objs.length = w.objs.length + 1 := by simp [construct]
  have hknew : (w.construct (copyArgs o)).key w.objs.length = w.key i := by rw [key_new, hk]; rfl
  have hall : (w.construct (copyArgs o)).registryAll w.objs.length
      (World.labelsOf o.key.cls o.key.name o.symbol o.aliases) = (none, w.construct (copyArgs o)) := by
    refine registryAll_bound_eq _ _ _ (fun l hm => ?_)
    obtain ⟨j, h1, h2⟩ := hl o ho l hm
    have hj := hs.registered _ (get?_mem h1)
    refine ⟨j, h1, ?_⟩
    rw [unitEq_key hcs.coherent (i' := i) (by omega) (by omega) (by omega)
      (by rw [hknew, hkp.ext.key hi]), unitEq_keeps hs.refs hkp hi hj]
    exact h2
  have hcopy : w.copy i = w.newUnit (copyArgs o) := by
    unfold OWorld.copy
    rw [ho]
    simp only
    rw [if_neg (by rw [← hk]; exact hc)]
    rfl
  have key : ∀ w' : OWorld K, w'.objs = (w.construct (copyArgs o)).objs → w'.hasher = w.hasher →
      w'.objs.length = w.objs.length + 1 ∧ w'.key w.objs.length = w.key i ∧
      w'.convRef w.objs.length = w.convRef i ∧ w'.unitEq w.objs.length i = true ∧
      w'.unitHash w.objs.length = w.unitHash i ∧
      w'.order w.objs.length = ((w.key i).cls.primaryOrder, w.counter (w.key i).cls) ∧
      ∀ j, j < w.objs.length → w'.objs[j]? = w.objs[j]? := by
    intro w' e1 e2
    have a1 : w'.key w.objs.length = w.key i := by
      rw [← hknew]; unfold OWorld.key; rw [e1]
    have a2 : w'.key i = w.key i := by
      rw [← hkp.ext.key hi]; unfold OWorld.key; rw [e1]
    refine ⟨by rw [e1, hlen], a1, ?_, unitEq_same w' (a1.trans a2.symm), ?_, ?_, fun j hj => ?_⟩
    · rw [show w'.convRef w.objs.length = (w.construct (copyArgs o)).convRef w.objs.length by
        unfold OWorld.convRef; rw [e1], convRef_new, hcr]
      exact (hs.defined i o ho).2.1.symm
    · unfold unitHash; rw [a1, e2]
    · have hnd : ¬ (copyArgs o).cls = .dimensionless := fun q => hc (by rw [hk]; exact q)
      unfold OWorld.order
      rw [e1]
      simp only [construct, List.getElem?_append_right (le_refl _), Nat.sub_self, List.getElem?_cons_zero]
      rw [hk]
      simp only [hnd, decide_false, Bool.false_eq_true, if_false]
      rfl
    · rw [e1]; exact hkp.ext.get hj
  rw [hcopy]
  unfold newUnit
  simp only [show (copyArgs o).cls = o.key.cls from rfl, show (copyArgs o).name = o.key.name from rfl,
    show (copyArgs o).symbol = o.symbol from rfl, show (copyArgs o).aliases = o.aliases from rfl]
  rw [hall]
  simp only
  by_cases hcond : (o.key.cls.irreducible && ((w.construct (copyArgs o)).defaults o.key.cls).isNone) = true
  · rw [if_pos hcond]
    obtain ⟨k1, k2, k3, k4, k5, k6, k7⟩ := key ⟨(w.construct (copyArgs o)).hasher, (w.construct (copyArgs o)).objs,
      (w.construct (copyArgs o)).registry, fun c => if c = o.key.cls then
        some ((w.construct (copyArgs o)).unitDim w.objs.length) else (w.construct (copyArgs o)).defaults c,
      (w.construct (copyArgs o)).counters⟩ rfl rfl
    refine ⟨rfl, k1, k2, k3, k4, k5, k6, k7, rfl, fun c d hd => ?_⟩
    simp only
    rw [if_neg]
    · exact hd
    · rintro rfl
      have : w.defaults o.key.cls = none := by
        have := (Bool.and_eq_true _ _).mp hcond |>.2
        exact Option.isNone_iff_eq_none.1 this
      rw [this] at hd
      cases hd
  · rw [if_neg hcond]
    obtain ⟨k1, k2, k3, k4, k5, k6, k7⟩ := key (w.construct (copyArgs o)) rfl rfl
    exact ⟨rfl, k1, k2, k3, k4, k5, k6, k7, rfl, fun c d hd => hd⟩

/-- Registrations that all succeed. -/
theorem registryAll_labelled {w : OWorld K} (hw : Sound w) {u : Nat} (hu : u < w.objs.length) (ls : List String)
    (hn : (w.registryAll u ls).1 = none) :
    ∀ l ∈ ls, ∃ j, Dict.get? (w.registryAll u ls).2.registry l = some j ∧ (w.registryAll u ls).2.unitEq u j = true := by
  induction ls generalizing w with
  | nil => exact fun l hl => absurd hl List.not_mem_nil
  | cons l ls ih =>
    obtain ⟨-, -, h3, h4, -⟩ := registrySet_abs hw l hu
    have hset : (w.registrySet l u).1 = none → ∃ j, Dict.get? (w.registrySet l u).2.registry l = some j ∧
        (w.registrySet l u).2.unitEq u j = true := by
      unfold registrySet
      cases hg : Dict.get? w.registry l with
      | some v =>
        simp only
        split
        · next hq => exact fun _ => ⟨v, hg, hq⟩
        · intro hq; cases hq
      | none => exact fun _ => ⟨u, by simp only [Dict.get?_set, if_true], unitEq_same _ rfl⟩
    unfold registryAll at hn ⊢
    rcases hr : w.registrySet l u with ⟨e, w'⟩
    rw [hr] at hn h3 h4 hset
    cases e with
    | some e => cases hn
    | none =>
      simp only at hn h3 h4 hset ⊢
      have hu' : u < w'.objs.length := by rw [h4]; exact hu
      intro l' hl'
      rcases List.mem_cons.1 hl' with rfl | hl'
      · obtain ⟨j, h1, h2⟩ := hset trivial
        obtain ⟨k1, -, -⟩ := registryAll_keeps w' u ls
        exact ⟨j, k1.labels _ _ h1, by rw [unitEq_keeps h3.refs k1 hu' (h3.registered _ (get?_mem h1))]; exact h2⟩
      · exact ih h3 hu' hn l' hl'

/-- **C102.** A constructor call that returns leaves the labels of the new object bound to units equal to it, and
they stay so whatever happens afterwards; hence every unit whose constructor returned can be copied at any later
time (`C102_copy`). -/
theorem C102_labelled (hw : Created h w) :
    (∀ a : NewArgs K, NewValid w a → Agrees w a → (w.newUnit a).1 = none →
      w.objs.length < (w.newUnit a).2.objs.length ∧ Labelled (w.newUnit a).2 w.objs.length) ∧
    (∀ (w' : OWorld K), Relation.ReflTransGen Step w w' → ∀ i, i < w.objs.length → Labelled w i →
      i < w'.objs.length ∧ w'.key i = w.key i ∧ Labelled w' i) := by
  obtain ⟨hs, -⟩ := hw.sound
  refine ⟨fun a hv hag hn => ?_, fun w' hr => ?_⟩
  · have hcs := construct_sound hs a hv hag
    have hlen : (w.construct a).objs.length = w.objs.length + 1 := by simp [construct]
    have hu : w.objs.length < (w.construct a).objs.length := by omega
    have hlab := registryAll_labelled hcs hu (World.labelsOf a.cls a.name a.symbol a.aliases)
    obtain ⟨-, -, h3, h4, -⟩ := registryAll_abs hcs (World.labelsOf a.cls a.name a.symbol a.aliases) hu
    have hnew : (w.construct a).objs[w.objs.length]? = some ⟨⟨a.cls, a.name⟩, a.definition,
        a.definition.map w.reference, a.symbol, a.uSymbol, a.aliases, (a.cls.primaryOrder,
          if decide (a.cls = .dimensionless) then w.counter a.cls + 1 else w.counter a.cls)⟩ := by
      simp [construct]
    unfold newUnit at hn ⊢
    rcases hr : (w.construct a).registryAll w.objs.length (World.labelsOf a.cls a.name a.symbol a.aliases) with
      ⟨e, w2⟩
    rw [hr] at hlab h3 h4
    simp only at hn hlab h3 h4 ⊢
    rw [hr] at hn ⊢
    cases e with
    | some e =>
      simp only at hn
      split at hn <;> cases hn
    | none =>
      have hl2 : Labelled w2 w.objs.length := by
        intro o ho l hm
        rw [h4, hnew] at ho
        cases ho
        exact hlab rfl l hm
      have hlt : w.objs.length < w2.objs.length := by rw [h4]; exact hu
      simp only
      split
      · refine ⟨hlt, Labelled.keeps (w' := ⟨w2.hasher, w2.objs, w2.registry, fun c => if c = a.cls then
          some (w2.unitDim w.objs.length) else w2.defaults c, w2.counters⟩) h3
          ⟨⟨[], by simp⟩, rfl, fun _ _ q => q, fun c d hd => ?_⟩ hlt hl2⟩
        simp only
        split
        · rfl
        · rw [hd]; rfl
      · exact ⟨hlt, hl2⟩
  · suffices Created h w' ∧ ∀ i, i < w.objs.length → Labelled w i →
        i < w'.objs.length ∧ w'.key i = w.key i ∧ Labelled w' i from this.2
    induction hr with
    | refl => exact ⟨hw, fun i hi hl => ⟨hi, rfl, hl⟩⟩
    | tail _ hstep ih =>
      refine ⟨ih.1.step hstep, fun i hi hl => ?_⟩
      obtain ⟨i1, i2, i3⟩ := ih.2 i hi hl
      have hk := hstep.keeps
      exact ⟨lt_of_lt_of_le i1 hk.ext.le, (hk.ext.key i1).trans i2, i3.keeps ih.1.sound.1 hk i1⟩

/-- **C104 fails for `dimensionless`**: `dimensionless.copy()` raises `TypeError`, in every state. -/
theorem C104_dimensionless_false (w : OWorld K) {i : Nat} (hi : i < w.objs.length)
    (hc : (w.key i).cls = .dimensionless) : (w.copy i).1 = some .typeError := by
  have ho : w.objs[i]? = some w.objs[i] := List.getElem?_eq_getElem hi
  unfold key at hc
  rw [ho] at hc
  unfold OWorld.copy
  rw [ho]
  simp only at hc ⊢
  rw [if_pos hc]

end

/-! ## C103 -/

section
variable {K : Type _} [Field K] [LinearOrder K] [RPow K]
variable {h : Hasher} {w : OWorld K}

/-- **C103.** In every history in which no class and name gets a second meaning: unit objects that compare equal
have the same conversion factor to every unit, and from every unit (or neither can be converted). -/
theorem C103_equal_convert_partial (hw : Created h w) {u v : Nat} (hu : u < w.objs.length) (hv : v < w.objs.length)
    (hs : HashSafe w.abs (w.absD (w.unitDim v)) (w.absD (w.unitDim u))) (he : w.unitEq u v = true) (d : ODim)
    (hd : w.Scoped d) : w.convFactor (w.unitDim u) d = w.convFactor (w.unitDim v) d ∧
      w.convFactor d (w.unitDim u) = w.convFactor d (w.unitDim v) := by
  obtain ⟨hsd, hr⟩ := hw.sound
  have hc := hsd.coherent
  by_cases hq : w.deq (w.unitDim v) (w.unitDim u) = true
  · have hsame : SameContent (w.absD (w.unitDim v)) (w.absD (w.unitDim u)) :=
      hs.direct (by rw [← deq_abs]; exact hq)
    have hD : w.absD (w.unitDim u) = w.absD (w.unitDim v) := by
      rw [absD_unitDim, absD_unitDim] at hsame ⊢
      unfold PQ.unitDim at hsame ⊢
      by_cases h1 : (w.key u).cls = .dimensionless <;> by_cases h2 : (w.key v).cls = .dimensionless
      · rw [if_pos h1, if_pos h2]
      · rw [if_pos h1, if_neg h2] at hsame
        have := hsame (w.key v)
        simp [Dict.get?] at this
      · rw [if_neg h1, if_pos h2] at hsame
        have := hsame (w.key u)
        simp [Dict.get?] at this
      · rw [if_neg h1, if_neg h2] at hsame ⊢
        have := hsame (w.key v)
        simp only [Dict.get?, if_true] at this
        split at this
        · next hk => rw [hk]
        · cases this
    rw [convFactor_abs hc (unitDim_scoped hu) hd, convFactor_abs hc (unitDim_scoped hv) hd,
      convFactor_abs hc hd (unitDim_scoped hu), convFactor_abs hc hd (unitDim_scoped hv), hD]
    exact ⟨rfl, rfl⟩
  · unfold unitEq eqS rescaleS at he
    simp only [hq] at he
    unfold convFactor at he ⊢
    simp only at he ⊢
    by_cases hx : w.deq (w.reference ⟨1, w.unitDim v⟩).dim (w.reference ⟨1, w.unitDim u⟩).dim = true
    · simp only [hx, if_true] at he
      have hm : (w.reference ⟨1, w.unitDim v⟩).mag = (w.reference ⟨1, w.unitDim u⟩).mag := by
        simp only [Bool.false_eq_true, if_false, mul_one, decide_eq_true_eq] at he
        by_cases h0 : (w.reference ⟨1, w.unitDim u⟩).mag = 0
        · rw [h0, div_zero] at he
          exact absurd he one_ne_zero
        · exact (div_eq_one_iff_eq h0).1 he.symm
      have hh : w.hash (w.reference ⟨1, w.unitDim v⟩).dim = w.hash (w.reference ⟨1, w.unitDim u⟩).dim := by
        unfold deq at hx
        exact eq_of_beq hx
      unfold deq
      rw [hm, hh]
      exact ⟨rfl, rfl⟩
    · simp only [hx] at he
      cases he

end
/-! ## A history -/

/-- `m = UnitLength('meter', symbol='m')`. -/
def argsM : NewArgs ℝ := ⟨.length, "meter", none, some "m", none, []⟩

/-- `km = UnitLength('kilometer', 1000*m, symbol='km')`. -/
noncomputable def argsKm : NewArgs ℝ := ⟨.length, "kilometer", some ⟨1000, [(0, 1)]⟩, some "km", none, []⟩

/-- `foo = UnitQuantity('foo', x*m)`. -/
noncomputable def argsFoo (x : ℝ) : NewArgs ℝ := ⟨.unitQuantity, "foo", some ⟨x, [(0, 1)]⟩, none, none, []⟩

/-- metre; kilometre; a copy of the metre -/
noncomputable def ob1 : OWorld ℝ := ((OWorld.init exH).newUnit argsM).2
noncomputable def ob2 : OWorld ℝ := (ob1.newUnit argsKm).2
noncomputable def ob3 : OWorld ℝ := (ob2.copy 0).2

theorem ob1_returns : ((OWorld.init exH).newUnit argsM).1 = none := rfl
theorem ob2_returns : (ob1.newUnit argsKm).1 = none := rfl
example : ob2.objs.map OUnit.key = [uM, uKm] := rfl

theorem ob1_valid : NewValid (OWorld.init exH) argsM ∧ Agrees (OWorld.init exH) argsM := by
  refine ⟨⟨fun _ q => ?_, fun _ q => ?_, fun q => ?_⟩, fun _ q => absurd q (Nat.not_lt_zero _)⟩
  · cases q
  · cases q
  · cases q

theorem ob1_created : Created exH ob1 := .step .init (.new argsM ob1_valid.1 ob1_valid.2)

theorem ob_dimOK {w : OWorld ℝ} (hk : w.key 0 = uM) (hu : uM ∈ w.abs.units.map Prod.fst) :
    DimOK w.abs (w.absD [(0, 1)]) := by
  have e : w.absD [(0, 1)] = [(uM, 1)] := by simp [absD, hk]
  rw [e]
  exact ⟨⟨by decide, by simp⟩, by simpa using hu, by simp [uM]⟩

theorem ob_scoped {w : OWorld ℝ} (hl : 0 < w.objs.length) : w.Scoped [(0, 1)] := by
  intro kv hkv
  simp only [List.mem_singleton] at hkv
  subst hkv
  exact hl

theorem ob2_step : Step ob1 ob2 := by
  refine .new argsKm ⟨fun q hq => ?_, fun q hq => ?_, fun q => ?_⟩ (fun i hi hk => ?_)
  · cases hq
    exact ob_scoped Nat.one_pos
  · cases hq
    exact ⟨by norm_num, ob_dimOK rfl (show uM ∈ [uM] from List.mem_singleton.2 rfl)⟩
  · cases q
  · have : i = 0 := by
      have : i < 1 := hi
      omega
    subst this
    exact absurd hk (by decide)

theorem ob2_created : Created exH ob2 := ob1_created.step ob2_step

/-- The hypotheses of `C102_copy` are met by the metre in that history. -/
theorem ob2_labelled : Labelled ob2 0 :=
  ((C102_labelled ob1_created).2 ob2 (.single ob2_step) 0 Nat.one_pos
    ((C102_labelled (Created.init (h := exH))).1 argsM ob1_valid.1 ob1_valid.2 ob1_returns).2).2.2

theorem ob3_created : Created exH ob3 := ob2_created.step (.copy 0 (by decide))

theorem ob3_keys : ob3.key 0 = uM ∧ ob3.key 1 = uKm ∧ ob3.key 2 = uM := by
  obtain ⟨-, -, h3, -, -, -, -, h8, -⟩ :=
    C102_copy ob2_created (i := 0) (by decide : 0 < 2) (by decide) ob2_labelled
  refine ⟨?_, ?_, h3⟩
  · unfold OWorld.key
    rw [show ob3.objs[0]? = ob2.objs[0]? from h8 0 (by decide : 0 < 2)]
    rfl
  · unfold OWorld.key
    rw [show ob3.objs[1]? = ob2.objs[1]? from h8 1 (by decide : 1 < 2)]
    rfl

/-- The copy of the metre compares equal to the metre, and `C102_interchangeable` applies to quantities in the two. -/
example : ob3.unitEq 2 0 = true ∧ ob3.Alike [(2, 1), (1, -1)] [(0, 1), (1, -1)] := by
  refine ⟨(C102_copy ob2_created (i := 0) (by decide : 0 < 2) (by decide) ob2_labelled).2.2.2.2.1, ?_⟩
  obtain ⟨k0, k1, k2⟩ := ob3_keys
  refine List.Forall₂.cons ⟨?_, rfl⟩ (List.Forall₂.cons ⟨rfl, rfl⟩ List.Forall₂.nil)
  show ob3.key 2 = ob3.key 0
  rw [k0, k2]

/-- **C104 fails for printing**: the units of a product are printed in the order in which the unit objects were
created, so `m.copy()*km` is printed as `km*m` and `m*km` as `m*km`, although the two are equal. -/
theorem C104_print_false : Created exH ob3 ∧ ob3.Alike [(2, 1), (1, 1)] [(0, 1), (1, 1)] ∧
    (ob3.sortedItems [(0, 1), (1, 1)]).map (fun kv => ob3.key kv.1) = [uM, uKm] ∧
    (ob3.sortedItems [(2, 1), (1, 1)]).map (fun kv => ob3.key kv.1) = [uKm, uM] := by
  obtain ⟨k0, k1, k2⟩ := ob3_keys
  obtain ⟨-, -, -, -, -, -, h7, h8, -⟩ :=
    C102_copy ob2_created (i := 0) (by decide : 0 < 2) (by decide) ob2_labelled
  have o0 : ob3.order 0 = (2, 0) := by
    unfold OWorld.order
    rw [show ob3.objs[0]? = ob2.objs[0]? from h8 0 (by decide : 0 < 2)]
    rfl
  have o1 : ob3.order 1 = (2, 1) := by
    unfold OWorld.order
    rw [show ob3.objs[1]? = ob2.objs[1]? from h8 1 (by decide : 1 < 2)]
    rfl
  have o2 : ob3.order 2 = (2, 2) := h7
  refine ⟨ob3_created, ?_, ?_, ?_⟩
  · refine List.Forall₂.cons ⟨?_, rfl⟩ (List.Forall₂.cons ⟨rfl, rfl⟩ List.Forall₂.nil)
    show ob3.key 2 = ob3.key 0
    rw [k0, k2]
  · have : ob3.sortedItems [(0, 1), (1, 1)] = [(0, 1), (1, 1)] := by
      unfold sortedItems
      exact List.mergeSort_of_pairwise (by simp [o0, o1, orderLE])
    rw [this]
    simp [k0, k1]
  · have : ob3.sortedItems [(2, 1), (1, 1)] = [(1, 1), (2, 1)] := by
      unfold sortedItems
      simp [List.mergeSort, List.MergeSort.Internal.splitInTwo, o1, o2, orderLE]
    rw [this]
    simp [k1, k2]

/-! ### A second definition -/

noncomputable def rd1 : OWorld ℝ := (ob1.newUnit (argsFoo 2)).2
noncomputable def rd2 : OWorld ℝ := (rd1.newUnit (argsFoo 3)).2

theorem rd1_returns : (ob1.newUnit (argsFoo 2)).1 = none := rfl

/-- The second definition of `foo` finds the label bound to an object that compares equal. -/
theorem rd2_eq : rd1.newUnit (argsFoo 3) = (none, rd1.construct (argsFoo 3)) := by
  have hk : (rd1.construct (argsFoo 3)).key 2 = (rd1.construct (argsFoo 3)).key 1 := rfl
  have hr := registryAll_bound_eq (rd1.construct (argsFoo 3)) 2 ["foo"]
    (fun l hl => ⟨1, by rw [List.mem_singleton.1 hl]; rfl, unitEq_same _ hk⟩)
  unfold newUnit
  simp only
  rw [show (rd1.construct (argsFoo 3)).registryAll rd1.objs.length (World.labelsOf (argsFoo 3).cls (argsFoo 3).name
    (argsFoo 3).symbol (argsFoo 3).aliases) = (none, rd1.construct (argsFoo 3)) from hr]
  rfl

theorem osq_ext {a b : OSQ ℝ} (h1 : a.mag = b.mag) (h2 : a.dim = b.dim) : a = b := by
  cases a; cases b; simp_all

theorem rd_ref0 : (rd1.construct (argsFoo 3)).reference ⟨1, [(0, 1)]⟩ = ⟨1 * rpow 1 1 * 1, [(0, 1)]⟩ :=
  osq_ext rfl (by decide +kernel)
theorem rd_ref1 : (rd1.construct (argsFoo 3)).reference ⟨1, [(1, 1)]⟩ =
    ⟨1 * rpow (1 * rpow 1 1 * 2) 1 * 1, [(0, 1)]⟩ := osq_ext rfl (by decide +kernel)
theorem rd_ref2 : (rd1.construct (argsFoo 3)).reference ⟨1, [(2, 1)]⟩ =
    ⟨1 * rpow (1 * rpow 1 1 * 3) 1 * 1, [(0, 1)]⟩ := osq_ext rfl (by decide +kernel)
theorem rd_deq (w : OWorld ℝ) (d : ODim) : w.deq d d = true := beq_self_eq_true _

/-- **C103 fails after a second definition**: `UnitQuantity('foo', 2*m)` and then `UnitQuantity('foo', 3*m)` both
return; the two units compare equal and have the same hash, converting between them leaves the numbers alone, but
the first converts to metres with the factor 2 and the second with the factor 3. -/
theorem C103_redefinition_false : Created exH rd1 ∧ (rd1.newUnit (argsFoo 3)).1 = none ∧ NewValid rd1 (argsFoo 3) ∧
    rd2.unitEq 1 2 = true ∧ rd2.unitHash 1 = rd2.unitHash 2 ∧
    (∀ m : NDArr ℝ, (OQ.mk m (rd2.unitDim 1)).rescale rd2 (rd2.unitDim 2) = .ok ⟨m, rd2.unitDim 1⟩) ∧
    rd2.convFactor (rd2.unitDim 1) [(0, 1)] = .ok 2 ∧ rd2.convFactor (rd2.unitDim 2) [(0, 1)] = .ok 3 := by
  have e2 : rd2 = rd1.construct (argsFoo 3) := by unfold rd2; rw [rd2_eq]
  have hk : rd2.key 1 = rd2.key 2 := by rw [e2]; rfl
  have hd : rd2.absD (rd2.unitDim 1) = rd2.absD (rd2.unitDim 2) := by rw [absD_unitDim, absD_unitDim, hk]
  refine ⟨?_, by rw [rd2_eq], ⟨fun q hq => ?_, fun q hq => ?_, fun q => ?_⟩, unitEq_same _ hk, ?_, fun m => ?_, ?_, ?_⟩
  · refine ob1_created.step (.new (argsFoo 2) ⟨fun q hq => ?_, fun q hq => ?_, fun q => ?_⟩ (fun i hi hk => ?_))
    · cases hq; exact ob_scoped Nat.one_pos
    · cases hq; exact ⟨by norm_num, ob_dimOK rfl (show uM ∈ [uM] from List.mem_singleton.2 rfl)⟩
    · cases q
    · have : i = 0 := by
        have : i < 1 := hi
        omega
      subst this
      exact absurd hk (by decide)
  · cases hq; exact ob_scoped Nat.two_pos
  · cases hq
    exact ⟨by norm_num, ob_dimOK rfl (show uM ∈ [uM, _] from List.mem_cons_self)⟩
  · cases q
  · unfold unitHash; rw [hk]
  · unfold OQ.rescale
    rw [if_pos]
    rw [deq_abs, hd]
    exact beq_self_eq_true _
  · rw [e2]
    unfold convFactor
    rw [show (rd1.construct (argsFoo 3)).unitDim 1 = [(1, 1)] from rfl, rd_ref1, rd_ref0]
    simp only [rd_deq, if_true]
    norm_num [LawfulRPow.rpow_one]
  · rw [e2]
    unfold convFactor
    rw [show (rd1.construct (argsFoo 3)).unitDim 2 = [(2, 1)] from rfl, rd_ref2, rd_ref0]
    simp only [rd_deq, if_true]
    norm_num [LawfulRPow.rpow_one]

/-- The second definition is not in agreement with the first: `C103_equal_convert_partial` does not apply. -/
example : ¬ Agrees rd1 (argsFoo 3) := by
  intro q
  have := q 1 (by decide : 1 < 2) rfl
  have e : some (1 * rpow (1 : ℝ) 1 * 2) = some (1 * rpow (1 : ℝ) 1 * 3) := congrArg (Option.map SQ.mag) this
  injection e with e
  norm_num [LawfulRPow.rpow_one] at e

end PQ.Obj
