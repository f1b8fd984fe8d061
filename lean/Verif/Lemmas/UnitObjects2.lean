import Verif.Lemmas.UnitObjects
import Verif.Lemmas.Quantity

/-!
# Histories of unit objects

Creating, copying and registering unit objects, seen through their classes and names.
-/

set_option linter.unusedSectionVars false

namespace PQ.Obj

variable {K : Type _}

namespace OWorld

/-! ## More objects -/

/-- `w'` has the objects of `w` and possibly more. -/
def Ext (w w' : OWorld K) : Prop := ∃ t, w'.objs = w.objs ++ t

theorem Ext.get {w w' : OWorld K} (he : Ext w w') {i : Nat} (hi : i < w.objs.length) :
    w'.objs[i]? = w.objs[i]? := by
  obtain ⟨t, ht⟩ := he
  rw [ht, List.getElem?_append_left hi]

theorem Ext.le {w w' : OWorld K} (he : Ext w w') : w.objs.length ≤ w'.objs.length := by
  obtain ⟨t, ht⟩ := he
  rw [ht, List.length_append]; omega

theorem Ext.key {w w' : OWorld K} (he : Ext w w') {i : Nat} (hi : i < w.objs.length) : w'.key i = w.key i := by
  unfold OWorld.key; rw [he.get hi]

theorem Ext.convRef {w w' : OWorld K} (he : Ext w w') {i : Nat} (hi : i < w.objs.length) :
    w'.convRef i = w.convRef i := by
  unfold OWorld.convRef; rw [he.get hi]

theorem Ext.absD {w w' : OWorld K} (he : Ext w w') {d : ODim} (hd : w.Scoped d) : w'.absD d = w.absD d := by
  unfold OWorld.absD
  exact List.map_congr_left (fun kv hkv => by rw [he.key (hd kv hkv)])

theorem Ext.absSQ {w w' : OWorld K} (he : Ext w w') {q : OSQ K} (hd : w.Scoped q.dim) : w'.absSQ q = w.absSQ q := by
  unfold OWorld.absSQ; rw [he.absD hd]

theorem Scoped.ext {w w' : OWorld K} (he : Ext w w') {d : ODim} (hd : w.Scoped d) : w'.Scoped d :=
  fun kv hkv => lt_of_lt_of_le (hd kv hkv) he.le

theorem scoped_nil (w : OWorld K) : w.Scoped [] := fun _ h => by cases h

theorem Scoped.set {w : OWorld K} {d : ODim} (hd : w.Scoped d) {k : Nat} (hk : k < w.objs.length) (v : ℚ) :
    w.Scoped (w.set d k v) := by
  induction d with
  | nil =>
    intro kv h
    simp only [OWorld.set, List.mem_singleton] at h
    subst h
    exact hk
  | cons x d ih =>
    intro kv h
    simp only [OWorld.set] at h
    split at h
    · rcases List.mem_cons.1 h with h | h
      · subst h; exact hd x List.mem_cons_self
      · exact hd kv (List.mem_cons_of_mem _ h)
    · rcases List.mem_cons.1 h with h | h
      · subst h; exact hd x List.mem_cons_self
      · exact ih (fun kv hkv => hd kv (List.mem_cons_of_mem _ hkv)) kv h

theorem Scoped.pop {w : OWorld K} {d : ODim} (hd : w.Scoped d) (k : Nat) : w.Scoped (w.pop d k) := by
  induction d with
  | nil => exact hd
  | cons x d ih =>
    intro kv h
    simp only [OWorld.pop] at h
    split at h
    · exact hd kv (List.mem_cons_of_mem _ h)
    · rcases List.mem_cons.1 h with h | h
      · subst h; exact hd x List.mem_cons_self
      · exact ih (fun kv hkv => hd kv (List.mem_cons_of_mem _ hkv)) kv h

theorem Scoped.mulStep {w : OWorld K} {d : ODim} (hd : w.Scoped d) {kv : Nat × ℚ} (hk : kv.1 < w.objs.length) :
    w.Scoped (w.mulStep d kv) := by
  unfold OWorld.mulStep
  cases w.get? d kv.1 with
  | none => exact hd.set hk _
  | some e =>
    simp only
    split
    · exact (hd.set hk _).pop _
    · exact hd.set hk _

theorem Scoped.dmul {w : OWorld K} {a b : ODim} (ha : w.Scoped a) (hb : w.Scoped b) : w.Scoped (w.dmul a b) := by
  unfold OWorld.dmul
  induction b generalizing a with
  | nil => exact ha
  | cons kv b ih =>
    exact ih (ha.mulStep (hb kv List.mem_cons_self)) (fun x hx => hb x (List.mem_cons_of_mem _ hx))

theorem Scoped.divStep {w : OWorld K} {d : ODim} (hd : w.Scoped d) {kv : Nat × ℚ} (hk : kv.1 < w.objs.length) :
    w.Scoped (w.divStep d kv) := by
  unfold OWorld.divStep
  cases w.get? d kv.1 with
  | none => exact hd.set hk _
  | some e =>
    simp only
    split
    · exact (hd.set hk _).pop _
    · exact hd.set hk _

theorem Scoped.ddiv {w : OWorld K} {a b : ODim} (ha : w.Scoped a) (hb : w.Scoped b) : w.Scoped (w.ddiv a b) := by
  unfold OWorld.ddiv
  induction b generalizing a with
  | nil => exact ha
  | cons kv b ih =>
    exact ih (ha.divStep (hb kv List.mem_cons_self)) (fun x hx => hb x (List.mem_cons_of_mem _ hx))

theorem Scoped.dpow {w : OWorld K} {a : ODim} (ha : w.Scoped a) (p : ℚ) : w.Scoped (dpow a p) := by
  unfold OWorld.dpow
  split
  · exact scoped_nil w
  · intro kv h
    obtain ⟨x, hx, rfl⟩ := List.mem_map.1 h
    exact ha x hx

/-! ### The operations look at the objects of their arguments only -/

theorem Ext.get? {w w' : OWorld K} (he : Ext w w') {d : ODim} (hd : w.Scoped d) {k : Nat} (hk : k < w.objs.length) :
    w'.get? d k = w.get? d k := by
  rw [get?_abs, get?_abs, he.absD hd, he.key hk]

theorem Ext.set {w w' : OWorld K} (he : Ext w w') {d : ODim} (hd : w.Scoped d) {k : Nat} (hk : k < w.objs.length)
    (v : ℚ) : w'.set d k v = w.set d k v := by
  induction d with
  | nil => rfl
  | cons x d ih =>
    simp only [OWorld.set, he.key (hd x List.mem_cons_self), he.key hk]
    rw [ih (fun kv hkv => hd kv (List.mem_cons_of_mem _ hkv))]

theorem Ext.pop {w w' : OWorld K} (he : Ext w w') {d : ODim} (hd : w.Scoped d) {k : Nat} (hk : k < w.objs.length) :
    w'.pop d k = w.pop d k := by
  induction d with
  | nil => rfl
  | cons x d ih =>
    simp only [OWorld.pop, he.key (hd x List.mem_cons_self), he.key hk]
    rw [ih (fun kv hkv => hd kv (List.mem_cons_of_mem _ hkv))]

theorem Ext.mulStep {w w' : OWorld K} (he : Ext w w') {d : ODim} (hd : w.Scoped d) {kv : Nat × ℚ}
    (hk : kv.1 < w.objs.length) : w'.mulStep d kv = w.mulStep d kv := by
  unfold OWorld.mulStep
  rw [he.get? hd hk]
  cases w.get? d kv.1 with
  | none => exact he.set hd hk _
  | some e => simp only [he.set hd hk, he.pop (hd.set hk _) hk]

theorem Ext.dmul {w w' : OWorld K} (he : Ext w w') {a b : ODim} (ha : w.Scoped a) (hb : w.Scoped b) :
    w'.dmul a b = w.dmul a b := by
  unfold OWorld.dmul
  induction b generalizing a with
  | nil => rfl
  | cons kv b ih =>
    simp only [List.foldl_cons]
    rw [he.mulStep ha (hb kv List.mem_cons_self)]
    exact ih (ha.mulStep (hb kv List.mem_cons_self)) (fun x hx => hb x (List.mem_cons_of_mem _ hx))

/-- The references of the objects are over existing objects. -/
def RefScoped (w : OWorld K) : Prop := ∀ i q, w.convRef i = some q → w.Scoped q.dim

section ref
variable [One K] [Mul K] [RPow K]

theorem unitRef_scoped {w : OWorld K} (hw : w.RefScoped) {i : Nat} (hi : i < w.objs.length) :
    w.Scoped (w.unitRef i).dim := by
  unfold unitRef
  cases h : w.convRef i with
  | none => exact unitDim_scoped hi
  | some r => exact hw i r h

theorem refUnits_ext {w w' : OWorld K} (he : Ext w w') (hw : w.RefScoped) {d : ODim} (hd : w.Scoped d) :
    w.Scoped (w.refUnits d).dim ∧ w'.refUnits d = w.refUnits d := by
  unfold refUnits
  suffices ∀ (q : OSQ K), w.Scoped q.dim → w.Scoped (d.foldl w.refStep q).dim ∧
      d.foldl w'.refStep q = d.foldl w.refStep q from this ⟨1, []⟩ (scoped_nil w)
  induction d with
  | nil => exact fun q hq => ⟨hq, rfl⟩
  | cons kv d ih =>
    intro q hq
    have hk := hd kv List.mem_cons_self
    have hr := unitRef_scoped hw hk
    have e : w'.refStep q kv = w.refStep q kv := by
      unfold refStep
      have : w'.unitRef kv.1 = w.unitRef kv.1 := by
        unfold unitRef OWorld.unitDim
        rw [he.convRef hk, he.key hk]
      simp only [this, he.dmul hq (hr.dpow _)]
    simp only [List.foldl_cons]
    rw [e]
    exact ih (fun x hx => hd x (List.mem_cons_of_mem _ hx)) _ (hq.dmul (hr.dpow _))

theorem reference_ext {w w' : OWorld K} (he : Ext w w') (hw : w.RefScoped) {q : OSQ K} (hd : w.Scoped q.dim) :
    w.Scoped (w.reference q).dim ∧ w'.reference q = w.reference q := by
  have := refUnits_ext he hw hd
  unfold reference
  exact ⟨this.1, by rw [this.2]⟩

end ref

/-! ## The invariant -/

section inv
variable [Zero K] [One K] [Mul K] [Div K] [RPow K] [LT K] [DecidableEq K]

/-- What holds in every history. -/
structure Sound (w : OWorld K) : Prop where
  coherent : w.Coherent
  registered : ∀ kv ∈ w.registry, kv.2 < w.objs.length
  defaulted : ∀ c d, w.defaults c = some d → w.Scoped d
  refs : w.RefScoped
  defined : ∀ (i : Nat) (o : OUnit K), w.objs[i]? = some o → (o.key.cls = .dimensionless → o.definition = none) ∧
    o.convRef = o.definition.map w.reference ∧
    ∀ q, o.definition = some q → w.Scoped q.dim ∧ 0 < q.mag ∧ DimOK w.abs (w.absD q.dim)

/-- The arguments of a constructor, the units by class and name. -/
def absArgs (w : OWorld K) (a : NewArgs K) : World.NewUnit K :=
  ⟨a.cls, a.name, match a.definition with
    | none => .none
    | some q => .quantity (w.absSQ q), a.symbol, a.uSymbol, a.aliases⟩

theorem absArgs_toDef (w : OWorld K) (a : NewArgs K) :
    (w.absArgs a).definition.toDef = a.definition.map w.absSQ := by
  unfold absArgs
  cases a.definition <;> rfl

theorem construct_ext (w : OWorld K) (a : NewArgs K) : Ext w (w.construct a) := ⟨_, rfl⟩

theorem construct_get (w : OWorld K) (a : NewArgs K) {i : Nat} {o : OUnit K}
    (h : (w.construct a).objs[i]? = some o) : (i < w.objs.length ∧ w.objs[i]? = some o) ∨
      (i = w.objs.length ∧ o.key = ⟨a.cls, a.name⟩ ∧ o.definition = a.definition ∧
        o.convRef = a.definition.map w.reference) := by
  by_cases hi : i < w.objs.length
  · exact .inl ⟨hi, by rw [← (construct_ext w a).get hi]; exact h⟩
  · refine .inr ?_
    have hl : (w.construct a).objs.length = w.objs.length + 1 := by simp [construct]
    have hlt := (List.getElem?_eq_some_iff.1 h).1
    have hie : i = w.objs.length := by omega
    subst hie
    simp only [construct, List.getElem?_append_right (le_refl _), Nat.sub_self, List.getElem?_cons_zero,
      Option.some.injEq] at h
    subst h
    exact ⟨rfl, rfl, rfl, rfl⟩

theorem key_new (w : OWorld K) (a : NewArgs K) : (w.construct a).key w.objs.length = ⟨a.cls, a.name⟩ := by
  unfold key
  simp [construct]

theorem convRef_new (w : OWorld K) (a : NewArgs K) :
    (w.construct a).convRef w.objs.length = a.definition.map w.reference := by
  unfold convRef
  simp [construct]

theorem firsts_congr {w w' : OWorld K} (os : List (OUnit K)) (D : Dict UKey (UnitInfo K))
    (h : ∀ o ∈ os, w'.absInfo o = w.absInfo o) : w'.firsts os D = w.firsts os D := by
  induction os generalizing D with
  | nil => rfl
  | cons o os ih =>
    simp only [firsts]
    rw [h o List.mem_cons_self, ih _ (fun x hx => h x (List.mem_cons_of_mem _ hx)),
      ih _ (fun x hx => h x (List.mem_cons_of_mem _ hx))]

theorem firsts_append (w : OWorld K) (os os' : List (OUnit K)) (D : Dict UKey (UnitInfo K)) :
    w.firsts (os ++ os') D = w.firsts os' (w.firsts os D) := by
  induction os generalizing D with
  | nil => rfl
  | cons o os ih =>
    simp only [List.cons_append, firsts]
    cases Dict.get? D o.key <;> simp only [ih]

theorem absInfo_ext {w w' : OWorld K} (hw : Sound w) (he : Ext w w') {o : OUnit K} (ho : o ∈ w.objs) :
    w'.absInfo o = w.absInfo o := by
  obtain ⟨i, hi, rfl⟩ := List.getElem_of_mem ho
  have hg : w.objs[i]? = some w.objs[i] := List.getElem?_eq_getElem hi
  obtain ⟨-, -, h3⟩ := hw.defined i _ hg
  have h4 := hw.refs i
  unfold convRef at h4
  rw [hg] at h4
  unfold absInfo
  congr 1
  · cases hd : w.objs[i].definition with
    | none => rfl
    | some q => exact congrArg some (he.absSQ (h3 q hd).1)
  · cases hd : w.objs[i].convRef with
    | none => rfl
    | some q => exact congrArg some (he.absSQ (h4 q hd))

/-- The registry and the default units do not change when objects are added. -/
theorem registry_ext {w w' : OWorld K} (hw : Sound w) (he : Ext w w') :
    w.registry.map (fun kv => (kv.1, w'.key kv.2)) = w.registry.map (fun kv => (kv.1, w.key kv.2)) :=
  List.map_congr_left (fun kv hkv => by rw [he.key (hw.registered kv hkv)])

theorem construct_abs {w : OWorld K} (hw : Sound w) (a : NewArgs K)
    (ha : ∀ q, a.definition = some q → w.Scoped q.dim) : (w.construct a).abs = w.abs.construct (w.absArgs a) := by
  have he := construct_ext w a
  have hu : (w.construct a).firsts w.objs [] = w.firsts w.objs [] :=
    firsts_congr _ _ (fun o ho => absInfo_ext hw he ho)
  have hd : (fun c => ((w.construct a).defaults c).map (w.construct a).absD) = fun c => (w.defaults c).map w.absD := by
    funext c
    show (w.defaults c).map _ = _
    cases hc : w.defaults c with
    | none => rfl
    | some d => exact congrArg some (he.absD (hw.defaulted c d hc))
  have hcnt : w.abs.counter a.cls = w.counter a.cls := rfl
  unfold World.construct
  rw [show (w.construct a).abs = ⟨w.hasher, (w.construct a).firsts (w.construct a).objs [],
    w.registry.map (fun kv => (kv.1, (w.construct a).key kv.2)),
    fun c => ((w.construct a).defaults c).map (w.construct a).absD, (w.construct a).counters⟩ from rfl]
  rw [registry_ext hw he, hd]
  have hun : (w.construct a).firsts (w.construct a).objs [] =
      (match w.abs.info ⟨a.cls, a.name⟩ with
      | some _ => w.abs.units
      | none => Dict.set w.abs.units ⟨a.cls, a.name⟩
        { definition := (w.absArgs a).definition.toDef, convRef := (w.absArgs a).definition.toDef.map w.abs.reference,
          symbol := a.symbol, uSymbol := a.uSymbol, aliases := a.aliases,
          order := (a.cls.primaryOrder, if decide (a.cls = .dimensionless) then w.counter a.cls + 1
            else w.counter a.cls) }) := by
    rw [show (w.construct a).objs = w.objs ++ [_] from rfl, firsts_append, hu]
    simp only [firsts]
    show (match Dict.get? (w.firsts w.objs []) ⟨a.cls, a.name⟩ with | some _ => _ | none => _) = _
    rw [show w.abs.info ⟨a.cls, a.name⟩ = Dict.get? (w.firsts w.objs []) ⟨a.cls, a.name⟩ from rfl]
    cases Dict.get? (w.firsts w.objs []) ⟨a.cls, a.name⟩ with
    | some _ => rfl
    | none =>
      simp only
      refine congrArg (fun x => Dict.set (w.firsts w.objs []) (⟨a.cls, a.name⟩ : UKey) x) ?_
      unfold absInfo
      rw [absArgs_toDef]
      congr 1
      · cases hq : a.definition with
        | none => rfl
        | some q => exact congrArg some (he.absSQ (ha q hq))
      · cases hq : a.definition with
        | none => rfl
        | some q =>
          simp only [Option.map_some]
          rw [he.absSQ (reference_ext he hw.refs (ha q hq)).1, reference_abs hw.coherent (ha q hq)]
  rw [hun]
  rfl

theorem construct_known (w : World K) (a : World.NewUnit K) (u : UKey) (hu : u ∈ w.units.map Prod.fst) :
    u ∈ (w.construct a).units.map Prod.fst := by
  unfold World.construct
  simp only
  cases w.info ⟨a.cls, a.name⟩ with
  | some _ => exact hu
  | none => exact (Dict.mem_keys_set _ _ _ _).2 (Or.inr hu)

theorem construct_sound {w : OWorld K} (hw : Sound w) (a : NewArgs K) (hv : NewValid w a) (hag : Agrees w a) :
    Sound (w.construct a) := by
  have he := construct_ext w a
  have hl : (w.construct a).objs.length = w.objs.length + 1 := by simp [construct]
  have habs := construct_abs hw a hv.exist
  have split : ∀ i, i < (w.construct a).objs.length → i < w.objs.length ∨ i = w.objs.length := fun i hi => by omega
  have hnew : ((w.construct a).convRef w.objs.length).map (w.construct a).absSQ =
      a.definition.map (fun q => w.absSQ (w.reference q)) := by
    rw [convRef_new]
    cases hq : a.definition with
    | none => rfl
    | some q => exact congrArg some (he.absSQ (reference_ext he hw.refs (hv.exist q hq)).1)
  have hold : ∀ i, i < w.objs.length → ((w.construct a).convRef i).map (w.construct a).absSQ =
      (w.convRef i).map w.absSQ := fun i hi => by
    rw [he.convRef hi]
    cases hq : w.convRef i with
    | none => rfl
    | some q => exact congrArg some (he.absSQ (hw.refs i q hq))
  have hmix : ∀ i, i < w.objs.length → (w.construct a).key i = (w.construct a).key w.objs.length →
      ((w.construct a).convRef i).map (w.construct a).absSQ =
      ((w.construct a).convRef w.objs.length).map (w.construct a).absSQ := fun i hi hk => by
    rw [he.key hi, key_new] at hk
    rw [hold i hi, hnew]
    exact hag i hi hk
  refine ⟨fun i j hi hj hk => ?_, fun kv hkv => lt_of_lt_of_le (hw.registered kv hkv) he.le,
    fun c d hd => (hw.defaulted c d hd).ext he, fun i q hq => ?_, fun i o ho => ?_⟩
  · rcases split i hi with hi | rfl <;> rcases split j hj with hj | rfl
    · rw [hold i hi, hold j hj]
      exact hw.coherent i j hi hj (by rw [← he.key hi, ← he.key hj]; exact hk)
    · exact hmix i hi hk
    · exact (hmix j hj hk.symm).symm
    · rfl
  · by_cases hi : i < w.objs.length
    · rw [he.convRef hi] at hq
      exact (hw.refs i q hq).ext he
    · have hlt : i < (w.construct a).objs.length := by
        unfold convRef at hq
        by_contra hcon
        rw [List.getElem?_eq_none (by omega)] at hq
        cases hq
      rcases split i hlt with h | rfl
      · exact absurd h hi
      · rw [convRef_new] at hq
        cases hd : a.definition with
        | none => rw [hd] at hq; cases hq
        | some x =>
          rw [hd] at hq
          simp only [Option.map_some, Option.some.injEq] at hq
          subst hq
          exact (reference_ext he hw.refs (hv.exist x hd)).1.ext he
  · have key : ∀ q : OSQ K, w.Scoped q.dim → 0 < q.mag ∧ DimOK w.abs (w.absD q.dim) →
        (w.construct a).Scoped q.dim ∧ 0 < q.mag ∧ DimOK (w.construct a).abs ((w.construct a).absD q.dim) :=
      fun q h1 h2 => ⟨h1.ext he, h2.1, by
        rw [he.absD h1, habs]
        exact h2.2.mono (construct_known _ _)⟩
    rcases construct_get w a ho with ⟨hi, ho⟩ | ⟨-, h1, h2, h3⟩
    · obtain ⟨k1, k2, k3⟩ := hw.defined i o ho
      refine ⟨k1, ?_, fun q hq => key q (k3 q hq).1 (k3 q hq).2⟩
      rw [k2]
      cases hq : o.definition with
      | none => rfl
      | some q => exact congrArg some (reference_ext he hw.refs (k3 q hq).1).2.symm
    · refine ⟨fun hc => ?_, ?_, fun q hq => ?_⟩
      · rw [h2]; rw [h1] at hc; exact hv.dimless hc
      · rw [h2, h3]
        cases hq : a.definition with
        | none => rfl
        | some q => exact congrArg some (reference_ext he hw.refs (hv.exist q hq)).2.symm
      · rw [h2] at hq
        exact key q (hv.exist q hq) (hv.defined q hq)

/-! ## Registering -/

theorem get?_map_key {β γ : Type _} (f : β → γ) (D : Dict String β) (l : String) :
    Dict.get? (D.map (fun kv => (kv.1, f kv.2))) l = (Dict.get? D l).map f := by
  induction D with
  | nil => rfl
  | cons kv D ih =>
    simp only [List.map_cons, Dict.get?]
    split
    · rfl
    · exact ih

theorem set_map_key {β γ : Type _} (f : β → γ) (D : Dict String β) (l : String) (v : β) :
    (Dict.set D l v).map (fun kv => (kv.1, f kv.2)) = Dict.set (D.map (fun kv => (kv.1, f kv.2))) l (f v) := by
  induction D with
  | nil => rfl
  | cons kv D ih =>
    simp only [List.map_cons, Dict.set]
    split
    · rfl
    · simp only [List.map_cons, ih]

theorem get?_mem {β : Type _} {D : Dict String β} {l : String} {v : β} (h : Dict.get? D l = some v) :
    (l, v) ∈ D := by
  induction D with
  | nil => cases h
  | cons kv D ih =>
    simp only [Dict.get?] at h
    split at h
    · next hk => cases h; rw [← hk]; exact List.mem_cons_self
    · exact List.mem_cons_of_mem _ (ih h)

theorem mem_set {β : Type _} {D : Dict String β} {l : String} {v : β} {kv : String × β} (h : kv ∈ Dict.set D l v) :
    kv ∈ D ∨ kv.2 = v := by
  induction D with
  | nil => simp only [Dict.set, List.mem_singleton] at h; subst h; exact .inr rfl
  | cons x D ih =>
    simp only [Dict.set] at h
    split at h
    · rcases List.mem_cons.1 h with h | h
      · subst h; exact .inr rfl
      · exact .inl (List.mem_cons_of_mem _ h)
    · rcases List.mem_cons.1 h with h | h
      · subst h; exact .inl List.mem_cons_self
      · rcases ih h with h | h
        · exact .inl (List.mem_cons_of_mem _ h)
        · exact .inr h

theorem units_same {w w' : OWorld K} (hw : Sound w) (ho : w'.objs = w.objs) : w'.abs.units = w.abs.units := by
  show w'.firsts w'.objs [] = w.firsts w.objs []
  rw [ho]
  exact firsts_congr _ _ (fun o h => absInfo_ext hw ⟨[], by simp [ho]⟩ h)

/-- The invariant is about the objects, the labels bound and the default units. -/
theorem Sound.of_objs {w w' : OWorld K} (hw : Sound w) (ho : w'.objs = w.objs)
    (hr : ∀ kv ∈ w'.registry, kv.2 < w.objs.length) (hd : ∀ c d, w'.defaults c = some d → w.Scoped d) : Sound w' := by
  have he : Ext w w' := ⟨[], by simp [ho]⟩
  have hkey : ∀ i, w'.key i = w.key i := fun i => by unfold key; rw [ho]
  have hcr : ∀ i, w'.convRef i = w.convRef i := fun i => by unfold convRef; rw [ho]
  have hab : ∀ d, w'.absD d = w.absD d := fun d => by unfold absD; simp only [hkey]
  have hsc : ∀ d, w.Scoped d → w'.Scoped d := fun d h => h.ext he
  refine ⟨fun i j hi hj hk => ?_, fun kv h => by rw [ho]; exact hr kv h, fun c d h => hsc d (hd c d h),
    fun i q hq => hsc _ (hw.refs i q (by rw [← hcr]; exact hq)), fun i o h => ?_⟩
  · have := hw.coherent i j (by rw [← ho]; exact hi) (by rw [← ho]; exact hj) (by rw [← hkey, ← hkey]; exact hk)
    have hf : w'.absSQ = w.absSQ := by funext q; unfold absSQ; rw [hab]
    rw [hcr, hcr, hf]
    exact this
  · rw [ho] at h
    obtain ⟨h1, h2, h3⟩ := hw.defined i o h
    refine ⟨h1, ?_, fun q hq => ⟨hsc _ (h3 q hq).1, (h3 q hq).2.1, ?_⟩⟩
    · rw [h2]
      cases hq : o.definition with
      | none => rfl
      | some q => exact congrArg some (reference_ext he hw.refs (h3 q hq).1).2.symm
    · rw [hab]
      exact (h3 q hq).2.2.mono (fun u hu => by rw [units_same hw ho]; exact hu)

/-- The state seen by class and name, for another state with the same objects. -/
theorem abs_same {w w' : OWorld K} (ho : w'.objs = w.objs) :
    w'.abs = ⟨w'.hasher, w.abs.units, w'.registry.map (fun kv => (kv.1, w.key kv.2)),
      fun c => (w'.defaults c).map w.absD, w'.counters⟩ := by
  have hkey : w'.key = w.key := by funext i; unfold key; rw [ho]
  have hab : w'.absD = w.absD := by funext d; unfold absD; simp only [hkey]
  have hf : w'.absSQ = w.absSQ := by funext q; unfold absSQ; rw [hab]
  have hu : w'.firsts w'.objs [] = w.firsts w.objs [] := by
    rw [ho]
    exact firsts_congr _ _ (fun o _ => by unfold absInfo; rw [hf])
  show (⟨w'.hasher, w'.firsts w'.objs [], w'.registry.map (fun kv => (kv.1, w'.key kv.2)),
      fun c => (w'.defaults c).map w'.absD, w'.counters⟩ : World K) = _
  rw [hu, hab, hkey]
  rfl

/-- Binding a label. -/
theorem registrySet_abs {w : OWorld K} (hw : Sound w) (l : String) {u : Nat} (hu : u < w.objs.length) :
    (w.registrySet l u).1 = (w.abs.registrySet l (w.key u)).1 ∧
    (w.registrySet l u).2.abs = (w.abs.registrySet l (w.key u)).2 ∧
    Sound (w.registrySet l u).2 ∧ (w.registrySet l u).2.objs = w.objs ∧
    (w.registrySet l u).2.defaults = w.defaults := by
  have hg : Dict.get? w.abs.registry l = (Dict.get? w.registry l).map w.key := get?_map_key _ _ _
  unfold registrySet World.registrySet
  rw [hg]
  cases h : Dict.get? w.registry l with
  | some v =>
    have hv := hw.registered _ (get?_mem h)
    simp only [Option.map_some]
    rw [unitEq_abs hw.coherent hu hv]
    by_cases hc : w.abs.unitEq (w.key u) (w.key v) = true
    · rw [if_pos hc, if_pos hc]; exact ⟨rfl, rfl, hw, rfl, rfl⟩
    · rw [if_neg hc, if_neg hc]; exact ⟨rfl, rfl, hw, rfl, rfl⟩
  | none =>
    simp only [Option.map_none]
    refine ⟨trivial, ?_, hw.of_objs rfl (fun kv hkv => ?_) hw.defaulted, trivial, trivial⟩
    · refine (abs_same (w := w) (w' := ⟨w.hasher, w.objs, Dict.set w.registry l u, w.defaults, w.counters⟩)
        rfl).trans ?_
      exact congrArg (fun r => (⟨w.hasher, w.firsts w.objs [], r, fun c => (w.defaults c).map w.absD,
        w.counters⟩ : World K)) (set_map_key w.key w.registry l u)
    · rcases mem_set hkv with h | h
      · exact hw.registered kv h
      · rw [h]; exact hu

theorem registryAll_abs {w : OWorld K} (hw : Sound w) (ls : List String) {u : Nat} (hu : u < w.objs.length) :
    (w.registryAll u ls).1 = (w.abs.registryAll (w.key u) ls).1 ∧
    (w.registryAll u ls).2.abs = (w.abs.registryAll (w.key u) ls).2 ∧
    Sound (w.registryAll u ls).2 ∧ (w.registryAll u ls).2.objs = w.objs ∧
    (w.registryAll u ls).2.defaults = w.defaults := by
  induction ls generalizing w with
  | nil => exact ⟨rfl, rfl, hw, rfl, rfl⟩
  | cons l ls ih =>
    obtain ⟨h1, h2, h3, h4, h5⟩ := registrySet_abs hw l hu
    unfold registryAll World.registryAll
    rcases hr : w.registrySet l u with ⟨e, w'⟩
    rcases hR : w.abs.registrySet l (w.key u) with ⟨E, W'⟩
    rw [hr, hR] at h1 h2
    rw [hr] at h3 h4 h5
    simp only at h1 h2 h3 h4 h5
    subst h1
    subst h2
    cases e with
    | some e => exact ⟨rfl, rfl, h3, h4, h5⟩
    | none =>
      have hk : w'.key u = w.key u := by unfold key; rw [h4]
      have := ih h3 (by rw [h4]; exact hu)
      rw [hk] at this
      obtain ⟨a1, a2, a3, a4, a5⟩ := this
      exact ⟨a1, a2, a3, a4.trans h4, a5.trans h5⟩

end inv
end OWorld
end PQ.Obj
