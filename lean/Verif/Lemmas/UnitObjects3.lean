import Verif.Lemmas.UnitObjects2

/-!
# Creating and copying unit objects, seen through their classes and names
-/

set_option linter.unusedSectionVars false

namespace PQ.Obj

variable {K : Type _}

namespace OWorld
section inv
variable [Zero K] [One K] [Mul K] [Div K] [RPow K] [LT K] [DecidableEq K]

/-- Every label bound by `registryAll` is bound to that object. -/
theorem registryAll_bound (w : OWorld K) (u : Nat) (ls : List String) :
    ∀ kv ∈ (w.registryAll u ls).2.registry, kv ∈ w.registry ∨ kv.2 = u := by
  induction ls generalizing w with
  | nil => exact fun kv h => .inl h
  | cons l ls ih =>
    have hs : ∀ kv ∈ (w.registrySet l u).2.registry, kv ∈ w.registry ∨ kv.2 = u := by
      unfold registrySet
      cases Dict.get? w.registry l with
      | some v =>
        intro kv h
        simp only at h
        split at h <;> exact .inl h
      | none => exact fun kv h => mem_set h
    intro kv h
    unfold registryAll at h
    rcases hr : w.registrySet l u with ⟨e, w'⟩
    rw [hr] at h hs
    cases e with
    | some e => exact hs kv h
    | none =>
      rcases ih w' kv h with h | h
      · exact hs kv h
      · exact .inr h

/-- A class and name in use is in the table. -/
theorem info_of_key {w : OWorld K} {i : Nat} (hi : i < w.objs.length) : ∃ x, w.abs.info (w.key i) = some x := by
  obtain ⟨j, o, -, -, -, hf⟩ := find_key w hi
  exact ⟨_, by rw [info_abs, hf]; rfl⟩

theorem newUnit_abs {w : OWorld K} (hw : Sound w) (a : NewArgs K) (hv : NewValid w a) (hag : Agrees w a) :
    (w.newUnit a).1 = (w.abs.newUnit (w.absArgs a)).1 ∧
    (w.newUnit a).2.abs = (w.abs.newUnit (w.absArgs a)).2 ∧ Sound (w.newUnit a).2 := by
  have he := construct_ext w a
  have hl : (w.construct a).objs.length = w.objs.length + 1 := by simp [construct]
  have hi : w.objs.length < (w.construct a).objs.length := by omega
  have hc := construct_sound hw a hv hag
  have habs := construct_abs hw a hv.exist
  have hk := key_new w a
  obtain ⟨h1, h2, h3, h4, h5⟩ := registryAll_abs hc (World.labelsOf a.cls a.name a.symbol a.aliases) hi
  have hb := registryAll_bound (w.construct a) w.objs.length (World.labelsOf a.cls a.name a.symbol a.aliases)
  rw [habs, hk] at h1 h2
  unfold newUnit World.newUnit
  rcases hr : (w.construct a).registryAll w.objs.length (World.labelsOf a.cls a.name a.symbol a.aliases) with ⟨e, w2⟩
  rcases hR : (w.abs.construct (w.absArgs a)).registryAll ⟨a.cls, a.name⟩
    (World.labelsOf a.cls a.name a.symbol a.aliases) with ⟨E, W2⟩
  rw [hr] at h1 h2 h3 h4 h5 hb
  rw [hR] at h1 h2
  simp only at h1 h2 h3 h4 h5 hb
  subst h1
  subst h2
  simp only [show (w.absArgs a).cls = a.cls from rfl, show (w.absArgs a).name = a.name from rfl,
    show (w.absArgs a).symbol = a.symbol from rfl, show (w.absArgs a).aliases = a.aliases from rfl]
  rw [hr, hR]
  have hreg : w2.abs.registry = w2.registry.map (fun kv => (kv.1, w2.key kv.2)) := rfl
  have hkey2 : w2.key w.objs.length = ⟨a.cls, a.name⟩ := by unfold key at hk ⊢; rw [h4]; exact hk
  cases e with
  | none =>
    simp only
    have hdef : (w2.abs.defaults a.cls).isNone = (w2.defaults a.cls).isNone := by
      show ((w2.defaults a.cls).map w2.absD).isNone = _
      cases w2.defaults a.cls <;> rfl
    rw [hdef]
    by_cases hcond : (a.cls.irreducible && (w2.defaults a.cls).isNone) = true
    · rw [if_pos hcond, if_pos hcond]
      refine ⟨rfl, ?_, ?_⟩
      · refine (abs_same (w := w2) (w' := ⟨w2.hasher, w2.objs, w2.registry,
          fun c => if c = a.cls then some (w2.unitDim w.objs.length) else w2.defaults c, w2.counters⟩) rfl).trans ?_
        show (⟨_, _, _, _, _⟩ : World K) = ⟨_, _, _, _, _⟩
        congr 1
        funext c
        by_cases hca : c = a.cls
        · simp only [if_pos hca, Option.map_some]
          rw [absD_unitDim, hkey2]
        · simp only [if_neg hca]
          rfl
      · refine h3.of_objs rfl h3.registered (fun c d hd => ?_)
        simp only at hd
        split at hd
        · cases hd
          exact unitDim_scoped (by rw [h4]; exact hi)
        · exact h3.defaulted c d hd
    · rw [if_neg hcond, if_neg hcond]
      exact ⟨rfl, rfl, h3⟩
  | some e =>
    simp only
    by_cases hany : w2.registry.any (fun kv => decide (kv.2 = w.objs.length)) = true
    · have : w2.abs.registry.any (fun kv => decide (kv.2 = (⟨a.cls, a.name⟩ : UKey))) = true := by
        obtain ⟨kv, hkv, hd⟩ := List.any_eq_true.1 hany
        refine List.any_eq_true.2 ⟨(kv.1, w2.key kv.2), by rw [hreg]; exact List.mem_map.2 ⟨kv, hkv, rfl⟩, ?_⟩
        simp only [decide_eq_true_eq] at hd ⊢
        rw [hd]; exact hkey2
      rw [if_pos hany, if_pos this]
      exact ⟨rfl, rfl, h3⟩
    · have hold : ∀ kv ∈ w2.registry, kv.2 < w.objs.length := by
        intro kv hkv
        rcases hb kv hkv with h | h
        · exact hw.registered kv h
        · exact absurd (List.any_eq_true.2 ⟨kv, hkv, by simpa using h⟩) hany
      rw [if_neg hany]
      have hd2 : ∀ c d, w2.defaults c = some d → w.Scoped d := fun c d hd => by
        rw [h5] at hd; exact hw.defaulted c d hd
      have hkeys : ∀ i, i < w.objs.length → w2.key i = w.key i := fun i hi => by
        rw [← he.key hi]; unfold key; rw [h4]
      have hob : (⟨w2.hasher, w.objs, w2.registry, w2.defaults, w2.counters⟩ : OWorld K).abs =
          ⟨w2.hasher, w.abs.units, w2.abs.registry, w2.abs.defaults, w2.counters⟩ := by
        refine (abs_same (w := w) (w' := ⟨w2.hasher, w.objs, w2.registry, w2.defaults, w2.counters⟩) rfl).trans ?_
        simp only
        congr 1
        · exact List.map_congr_left (fun kv hkv => by rw [hkeys _ (hold kv hkv)])
        · funext c
          show _ = (w2.defaults c).map w2.absD
          cases hdc : w2.defaults c with
          | none => rfl
          | some d =>
            simp only [Option.map_some]
            unfold absD
            exact congrArg some (List.map_congr_left (fun kv hkv => by rw [hkeys _ (hd2 c d hdc kv hkv)]))
      have hs : Sound (⟨w2.hasher, w.objs, w2.registry, w2.defaults, w2.counters⟩ : OWorld K) :=
        hw.of_objs rfl hold hd2
      by_cases hA : w2.abs.registry.any (fun kv => decide (kv.2 = (⟨a.cls, a.name⟩ : UKey))) = true
      · rw [if_pos hA]
        refine ⟨rfl, hob.trans ?_, hs⟩
        have hunits : w2.abs.units = w.abs.units := by
          obtain ⟨kv, hkv, hd⟩ := List.any_eq_true.1 hA
          rw [hreg] at hkv
          obtain ⟨x, hx, rfl⟩ := List.mem_map.1 hkv
          simp only [decide_eq_true_eq] at hd
          rw [hkeys _ (hold x hx)] at hd
          obtain ⟨inf, hinf⟩ := info_of_key (hold x hx)
          rw [hd] at hinf
          have h6 := congrArg World.units (abs_same h4)
          rw [h6]
          show (w.construct a).abs.units = _
          rw [habs]
          unfold World.construct
          simp only [show (w.absArgs a).cls = a.cls from rfl, show (w.absArgs a).name = a.name from rfl, hinf]
        rw [← hunits]
        rfl
      · rw [if_neg hA]
        exact ⟨rfl, hob, hs⟩

/-- `set_default_unit`. -/
theorem setDefault_abs {w : OWorld K} (hw : Sound w) (c : UClass) (a : Option (OSQ K))
    (ha : ∀ x, a = some x → w.Scoped x.dim) :
    (w.setDefault c a).1 = (w.abs.setDefault c (a.map (fun x => ⟨x.mag, w.absD x.dim⟩))).1 ∧
    (w.setDefault c a).2.abs = (w.abs.setDefault c (a.map (fun x => ⟨x.mag, w.absD x.dim⟩))).2 ∧
    Sound (w.setDefault c a).2 := by
  unfold setDefault World.setDefault
  cases a with
  | none => exact ⟨rfl, rfl, hw⟩
  | some x =>
    simp only [Option.map_some]
    have hx := ha x rfl
    have hd : w.abs.defaults c = (w.defaults c).map w.absD := rfl
    rw [hd]
    cases hcur : w.defaults c with
    | none => exact ⟨rfl, rfl, hw⟩
    | some cur =>
      simp only [Option.map_some]
      rw [← convFactor_abs hw.coherent (hw.defaulted c cur hcur) hx]
      by_cases hm : x.mag = 1
      · rw [if_pos hm, if_pos hm]
        cases w.convFactor cur x.dim with
        | error e => exact ⟨rfl, rfl, hw⟩
        | ok k =>
          refine ⟨rfl, ?_, ?_⟩
          · refine (abs_same (w := w) (w' := ⟨w.hasher, w.objs, w.registry,
              fun c' => if c' = c then some x.dim else w.defaults c', w.counters⟩) rfl).trans ?_
            show (⟨_, _, _, _, _⟩ : World K) = ⟨_, _, _, _, _⟩
            congr 1
            funext c'
            by_cases hca : c' = c
            · simp only [if_pos hca, Option.map_some]
            · simp only [if_neg hca]
              rfl
          · refine hw.of_objs rfl hw.registered (fun c' d hd' => ?_)
            simp only at hd'
            split at hd'
            · cases hd'; exact hx
            · exact hw.defaulted c' d hd'
      · rw [if_neg hm, if_neg hm]
        exact ⟨rfl, rfl, hw⟩

/-- The arguments with which `copy` calls the class. -/
def copyArgs (o : OUnit K) : NewArgs K := ⟨o.key.cls, o.key.name, o.definition, o.symbol, o.uSymbol, o.aliases⟩

theorem copyArgs_valid {w : OWorld K} (hw : Sound w) {i : Nat} {o : OUnit K} (ho : w.objs[i]? = some o) :
    NewValid w (copyArgs o) ∧ Agrees w (copyArgs o) := by
  obtain ⟨h1, h2, h3⟩ := hw.defined i o ho
  refine ⟨⟨fun q hq => (h3 q hq).1, fun q hq => (h3 q hq).2, h1⟩, fun j hj hk => ?_⟩
  have hi := (List.getElem?_eq_some_iff.1 ho).1
  have hki : w.key i = o.key := by unfold key; rw [ho]
  have hci : w.convRef i = o.convRef := by unfold convRef; rw [ho]; rfl
  rw [hw.coherent j i hj hi (by rw [hk, hki]; rfl), hci, h2]
  show _ = o.definition.map _
  cases o.definition <;> rfl

theorem init_sound (h : Hasher) : Sound (OWorld.init h : OWorld K) := by
  refine ⟨fun _ _ hi => absurd hi (Nat.not_lt_zero _), fun _ hkv => absurd hkv List.not_mem_nil, fun _ _ hd => ?_,
    fun _ _ hq => ?_, fun _ _ ho => ?_⟩
  · cases hd
  · cases hq
  · cases ho

end inv
end OWorld

section created
variable [Zero K] [One K] [Mul K] [Div K] [RPow K] [LT K] [DecidableEq K]

/-- A history of unit objects is a history of classes and names. -/
theorem Created.sound {h : Hasher} {w : OWorld K} (hw : Created h w) : OWorld.Sound w ∧ Reachable h w.abs := by
  have hnew : ∀ (w : OWorld K) (a : OWorld.NewArgs K), OWorld.Sound w → Reachable h w.abs → NewValid w a →
      Agrees w a → OWorld.Sound (w.newUnit a).2 ∧ Reachable h (w.newUnit a).2.abs := by
    intro w a h1 h2 hv hag
    obtain ⟨-, e2, e3⟩ := OWorld.newUnit_abs h1 a hv hag
    refine ⟨e3, ?_⟩
    rw [e2]
    refine Reachable.step (.newUnit (w.absArgs a)) h2 ⟨fun q hq => ?_, fun hc => ?_⟩
    · rw [OWorld.absArgs_toDef] at hq
      cases hd : a.definition with
      | none => rw [hd] at hq; cases hq
      | some x =>
        rw [hd] at hq
        simp only [Option.map_some, Option.some.injEq] at hq
        subst hq
        exact hv.defined x hd
    · rw [OWorld.absArgs_toDef, hv.dimless hc]
      rfl
  induction hw with
  | init => exact ⟨OWorld.init_sound h, Reachable.init⟩
  | @step w _ _ hs ih =>
    cases hs with
    | new a hv hag => exact hnew _ a ih.1 ih.2 hv hag
    | copy i hc =>
      unfold OWorld.copy
      cases ho : w.objs[i]? with
      | none => exact ih
      | some o =>
        have hk : w.key i = o.key := by unfold OWorld.key; rw [ho]
        simp only
        rw [if_neg (by rw [← hk]; exact hc)]
        obtain ⟨hv, hag⟩ := OWorld.copyArgs_valid ih.1 ho
        exact hnew _ _ ih.1 ih.2 hv hag
    | setDefault c a ha =>
      obtain ⟨-, e2, e3⟩ := OWorld.setDefault_abs ih.1 c a (fun x hx => (ha x hx).1)
      refine ⟨e3, ?_⟩
      rw [e2]
      refine Reachable.step (.setDefault c _) ih.2 (fun x hx => ?_)
      cases a with
      | none => cases hx
      | some y =>
        simp only [Option.map_some, Option.some.injEq] at hx
        subst hx
        exact (ha y rfl).2

end created

/-! ## What a step keeps -/

section keeps
variable [Zero K] [One K] [Mul K] [Div K] [RPow K] [LT K] [DecidableEq K]
open OWorld

/-- Objects and labels stay. -/
structure Keeps (w w' : OWorld K) : Prop where
  ext : Ext w w'
  hasher : w'.hasher = w.hasher
  labels : ∀ l j, Dict.get? w.registry l = some j → Dict.get? w'.registry l = some j
  defaults : ∀ c d, w.defaults c = some d → (w'.defaults c).isSome

theorem Keeps.refl (w : OWorld K) : Keeps w w :=
  ⟨⟨[], by simp⟩, rfl, fun _ _ h => h, fun c d h => by rw [h]; rfl⟩

theorem Keeps.trans {w w' w'' : OWorld K} (h1 : Keeps w w') (h2 : Keeps w' w'') : Keeps w w'' := by
  refine ⟨?_, h2.hasher.trans h1.hasher, fun l j h => h2.labels l j (h1.labels l j h), fun c d h => ?_⟩
  · obtain ⟨t, ht⟩ := h1.ext
    obtain ⟨t', ht'⟩ := h2.ext
    exact ⟨t ++ t', by rw [ht', ht, List.append_assoc]⟩
  · obtain ⟨d', hd'⟩ := Option.isSome_iff_exists.1 (h1.defaults c d h)
    exact h2.defaults c d' hd'

theorem registrySet_keeps (w : OWorld K) (l : String) (u : Nat) :
    Keeps w (w.registrySet l u).2 ∧ (w.registrySet l u).2.objs = w.objs ∧
      (w.registrySet l u).2.defaults = w.defaults := by
  unfold OWorld.registrySet
  cases h : Dict.get? w.registry l with
  | some v =>
    simp only
    split <;> exact ⟨Keeps.refl w, rfl, rfl⟩
  | none =>
    refine ⟨⟨⟨[], by simp⟩, rfl, fun l' j h' => ?_, fun c d hd => by rw [hd]; rfl⟩, rfl, rfl⟩
    simp only [Dict.get?_set]
    rw [if_neg]
    · exact h'
    · intro e
      subst e
      rw [h] at h'
      cases h'

theorem registryAll_keeps (w : OWorld K) (u : Nat) (ls : List String) :
    Keeps w (w.registryAll u ls).2 ∧ (w.registryAll u ls).2.objs = w.objs ∧
      (w.registryAll u ls).2.defaults = w.defaults := by
  induction ls generalizing w with
  | nil => exact ⟨Keeps.refl w, rfl, rfl⟩
  | cons l ls ih =>
    obtain ⟨k1, k2, k3⟩ := registrySet_keeps w l u
    unfold OWorld.registryAll
    rcases hr : w.registrySet l u with ⟨e, w'⟩
    rw [hr] at k1 k2 k3
    cases e with
    | some e => exact ⟨k1, k2, k3⟩
    | none =>
      obtain ⟨i1, i2, i3⟩ := ih w'
      exact ⟨k1.trans i1, i2.trans k2, i3.trans k3⟩

theorem construct_keeps (w : OWorld K) (a : NewArgs K) : Keeps w (w.construct a) :=
  ⟨construct_ext w a, rfl, fun _ _ h => h, fun c d h => by
    show (w.defaults c).isSome = true
    rw [h]; rfl⟩

theorem newUnit_keeps (w : OWorld K) (a : NewArgs K) : Keeps w (w.newUnit a).2 := by
  obtain ⟨k1, k2, k3⟩ := registryAll_keeps (w.construct a) w.objs.length
    (World.labelsOf a.cls a.name a.symbol a.aliases)
  have k := (construct_keeps w a).trans k1
  unfold OWorld.newUnit
  rcases hr : (w.construct a).registryAll w.objs.length (World.labelsOf a.cls a.name a.symbol a.aliases) with ⟨e, w2⟩
  rw [hr] at k k2 k3
  simp only
  rw [hr]
  cases e with
  | some e =>
    simp only
    split
    · exact k
    · exact ⟨⟨[], by simp⟩, k.hasher, k.labels, k.defaults⟩
  | none =>
    simp only
    split
    · refine ⟨k.ext, k.hasher, k.labels, fun c d h => ?_⟩
      simp only
      split
      · rfl
      · exact k.defaults c d h
    · exact k

theorem Step.keeps {w w' : OWorld K} (hs : Step w w') : Keeps w w' := by
  cases hs with
  | new a _ _ => exact newUnit_keeps w a
  | copy i _ =>
    unfold OWorld.copy
    cases w.objs[i]? with
    | none => exact Keeps.refl w
    | some o =>
      simp only
      split
      · exact ⟨⟨[], by simp⟩, rfl, fun _ _ h => h, fun c d h => by rw [h]; rfl⟩
      · exact newUnit_keeps w _
  | setDefault c a _ =>
    unfold OWorld.setDefault
    cases a with
    | none => exact Keeps.refl w
    | some x =>
      simp only
      cases w.defaults c with
      | none => exact Keeps.refl w
      | some cur =>
        simp only
        split
        · cases w.convFactor cur x.dim with
          | error e => exact Keeps.refl w
          | ok k =>
            refine ⟨⟨[], by simp⟩, rfl, fun _ _ h => h, fun c' d h => ?_⟩
            simp only
            split
            · rfl
            · rw [h]; rfl
        · exact Keeps.refl w

/-- The comparison of two objects never changes. -/
theorem unitEq_keeps {w w' : OWorld K} (hw : w.RefScoped) (hk : Keeps w w') {i j : Nat} (hi : i < w.objs.length)
    (hj : j < w.objs.length) : w'.unitEq i j = w.unitEq i j := by
  have hud : ∀ i, i < w.objs.length → w'.unitDim i = w.unitDim i := fun i hi => by
    unfold OWorld.unitDim; rw [hk.ext.key hi]
  have hhash : ∀ d : ODim, w.Scoped d → w'.hash d = w.hash d := fun d hd => by
    rw [hash_abs w' (fun _ => (0, 0)), hash_abs w (fun _ => (0, 0)), hk.ext.absD hd, hk.hasher]
  have hdeq : ∀ a b : ODim, w.Scoped a → w.Scoped b → w'.deq a b = w.deq a b := fun a b ha hb => by
    unfold OWorld.deq; rw [hhash a ha, hhash b hb]
  have hcf : ∀ a b : ODim, w.Scoped a → w.Scoped b → w'.convFactor a b = w.convFactor a b := fun a b ha hb => by
    unfold OWorld.convFactor
    obtain ⟨a1, a2⟩ := reference_ext hk.ext hw (q := ⟨1, a⟩) ha
    obtain ⟨b1, b2⟩ := reference_ext hk.ext hw (q := ⟨1, b⟩) hb
    simp only [a2, b2, hdeq _ _ a1 b1]
  unfold OWorld.unitEq OWorld.eqS OWorld.rescaleS
  simp only [hud i hi, hud j hj, hdeq _ _ (unitDim_scoped hj) (unitDim_scoped hi),
    hcf _ _ (unitDim_scoped hj) (unitDim_scoped hi)]

/-- Labels of an object stay bound to units equal to it. -/
theorem Labelled.keeps {w w' : OWorld K} (hw : Sound w) (hk : Keeps w w') {i : Nat} (hi : i < w.objs.length)
    (hl : Labelled w i) : Labelled w' i := by
  intro o ho l hm
  rw [hk.ext.get hi] at ho
  obtain ⟨j, h1, h2⟩ := hl o ho l hm
  exact ⟨j, hk.labels l j h1, by rw [unitEq_keeps hw.refs hk hi (hw.registered _ (get?_mem h1))]; exact h2⟩

end keeps

/-! ## Powers and `simplified` -/

section
variable [One K] [Mul K] [Div K] [RPow K]
open OWorld

theorem OQ.pow_abs (w : OWorld K) (q : OQ K) (p : NDArr ℚ) :
    (q.pow p).map w.absQ = (w.absQ q).pow ⟨p, none⟩ := by
  unfold OQ.pow Quantity.pow dPower
  simp only [hasDims, Bool.false_eq_true, if_false]
  rcases uniformExp p with e | r
  · rfl
  · simp only [absQ]
    rcases NDArr.bin (fun x p => rpow x p) q.mag p with e | m
    · rfl
    · simp only [Except.map, absQ, absD_dpow]

/-- What the simulation of `simplified` needs. -/
structure SimpReady (w : OWorld K) : Prop where
  coherent : w.Coherent
  refs : w.RefScoped
  defaulted : ∀ c d, w.defaults c = some d → w.Scoped d

theorem simplified_abs {w : OWorld K} (hw : SimpReady w) (fuel : Nat) :
    (∀ u, u < w.objs.length → (unitSimplified w fuel u).map w.absSQ = PQ.unitSimplified w.abs fuel (w.key u) ∧
      ∀ s, unitSimplified w fuel u = .ok s → w.Scoped s.dim) ∧
    (∀ q : OSQ K, w.Scoped q.dim → (scalarSimplified w fuel q).map w.absSQ =
        PQ.scalarSimplified w.abs fuel (w.absSQ q) ∧
      ∀ s, scalarSimplified w fuel q = .ok s → w.Scoped s.dim) ∧
    (∀ (d : ODim) (rq : OSQ K), w.Scoped d → w.Scoped rq.dim →
      (simplifiedLoop w fuel rq d).map w.absSQ = PQ.simplifiedLoop w.abs fuel (w.absSQ rq) (w.absD d) ∧
      ∀ s, simplifiedLoop w fuel rq d = .ok s → w.Scoped s.dim) := by
  have loop : ∀ fuel, (∀ u, u < w.objs.length → (unitSimplified w fuel u).map w.absSQ =
        PQ.unitSimplified w.abs fuel (w.key u) ∧ ∀ s, unitSimplified w fuel u = .ok s → w.Scoped s.dim) →
      (∀ (d : ODim) (rq : OSQ K), w.Scoped d → w.Scoped rq.dim →
        (simplifiedLoop w fuel rq d).map w.absSQ = PQ.simplifiedLoop w.abs fuel (w.absSQ rq) (w.absD d) ∧
        ∀ s, simplifiedLoop w fuel rq d = .ok s → w.Scoped s.dim) := by
    intro fuel hu d
    induction d with
    | nil =>
      intro rq _ hr
      rw [simplifiedLoop.eq_def]
      refine ⟨?_, fun s hs => ?_⟩
      · show _ = PQ.simplifiedLoop w.abs fuel (w.absSQ rq) []
        rw [PQ.simplifiedLoop.eq_def]; rfl
      · cases hs; exact hr
    | cons kv d ih =>
      intro rq hd hr
      obtain ⟨u, p⟩ := kv
      have hk := hd (u, p) List.mem_cons_self
      have hd' : w.Scoped d := fun x hx => hd x (List.mem_cons_of_mem _ hx)
      obtain ⟨h1, h2⟩ := hu u hk
      rw [simplifiedLoop.eq_def]
      show _ = PQ.simplifiedLoop w.abs fuel (w.absSQ rq) ((w.key u, p) :: w.absD d) ∧ _
      rw [PQ.simplifiedLoop.eq_def w.abs fuel (w.absSQ rq) ((w.key u, p) :: w.absD d)]
      simp only
      rw [← h1]
      rcases hs : unitSimplified w fuel u with e | s
      · exact ⟨rfl, fun s h => by cases h⟩
      · simp only [Except.map]
        have hss := h2 s hs
        have := ih ⟨rq.mag * rpow s.mag p, w.dmul rq.dim (OWorld.dpow s.dim p)⟩ hd' (hr.dmul (hss.dpow p))
        refine ⟨?_, this.2⟩
        have e := this.1
        simp only [absSQ, absD_dmul, absD_dpow] at e ⊢
        exact e
  induction fuel with
  | zero =>
    have hu : ∀ u, u < w.objs.length → (unitSimplified w 0 u).map w.absSQ =
        PQ.unitSimplified w.abs 0 (w.key u) ∧ ∀ s, unitSimplified w 0 u = .ok s → w.Scoped s.dim := by
      intro u _
      rw [unitSimplified.eq_def, PQ.unitSimplified.eq_def]
      exact ⟨rfl, fun s h => by cases h⟩
    refine ⟨hu, fun q _ => ?_, loop 0 hu⟩
    rw [scalarSimplified.eq_def, PQ.scalarSimplified.eq_def]
    exact ⟨rfl, fun s h => by cases h⟩
  | succ fuel ih =>
    obtain ⟨i1, i2, i3⟩ := ih
    have hu : ∀ u, u < w.objs.length → (unitSimplified w (fuel + 1) u).map w.absSQ =
        PQ.unitSimplified w.abs (fuel + 1) (w.key u) ∧
        ∀ s, unitSimplified w (fuel + 1) u = .ok s → w.Scoped s.dim := by
      intro u hu
      rw [unitSimplified.eq_def, PQ.unitSimplified.eq_def]
      simp only
      by_cases hirr : (w.key u).cls.irreducible = true
      · rw [if_pos hirr, if_pos hirr]
        rw [show w.abs.defaults (w.key u).cls = (w.defaults (w.key u).cls).map w.absD from rfl]
        cases hdf : w.defaults (w.key u).cls with
        | none => exact ⟨rfl, fun s h => by cases h⟩
        | some dflt =>
          have hds := hw.defaulted _ _ hdf
          simp only [Option.map_some]
          refine ⟨?_, fun s h => ?_⟩
          · rw [rescaleS_abs hw.coherent (q := ⟨1, w.unitDim u⟩) (unitDim_scoped hu) hds]
            simp only [absSQ, absD_unitDim]
          · unfold rescaleS at h
            simp only at h
            split at h
            · cases h; exact unitDim_scoped hu
            · rcases hcf : w.convFactor (w.unitDim u) dflt with e | cf
              · rw [hcf] at h
                cases e <;> cases h
              · rw [hcf] at h
                cases h; exact hds
      · rw [if_neg hirr, if_neg hirr, convRef_abs hw.coherent hu]
        cases hr : w.convRef u with
        | none => exact i1 u hu
        | some r => exact i2 r (hw.refs u r hr)
    refine ⟨hu, fun q hq => ?_, loop _ hu⟩
    rw [scalarSimplified.eq_def, PQ.scalarSimplified.eq_def]
    simp only
    obtain ⟨h1, h2⟩ := i3 q.dim ⟨1, []⟩ hq (scoped_nil w)
    rw [show (w.absSQ q).dim = w.absD q.dim from rfl,
      show (⟨1, []⟩ : SQ K) = w.absSQ ⟨1, []⟩ from rfl, ← h1]
    rcases hs : simplifiedLoop w fuel ⟨1, []⟩ q.dim with e | s
    · exact ⟨rfl, fun s h => by cases h⟩
    · exact ⟨rfl, fun x h => by cases h; exact h2 s hs⟩

theorem OQ.simplified_abs {w : OWorld K} (hw : SimpReady w) (fuel : Nat) {q : OQ K} (hq : w.Scoped q.dim) :
    (q.simplified w fuel).map w.absQ = (w.absQ q).simplified w.abs fuel := by
  obtain ⟨h1, -⟩ := (PQ.Obj.simplified_abs hw fuel).2.2 q.dim ⟨1, []⟩ hq (scoped_nil w)
  unfold OQ.simplified Quantity.simplified
  rw [show (w.absQ q).dim = w.absD q.dim from rfl, show (⟨1, []⟩ : SQ K) = w.absSQ ⟨1, []⟩ from rfl, ← h1]
  rcases simplifiedLoop w fuel ⟨1, []⟩ q.dim with e | s <;> rfl

end
end PQ.Obj
