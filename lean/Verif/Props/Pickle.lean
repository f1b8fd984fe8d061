import Verif.Model.Pickle
import Verif.Props.History

/-!
# C40: pickling round-trips
-/

namespace PQ

open Dict World

section
variable {K : Type _} [Field K] [LinearOrder K] [IsStrictOrderedRing K] [RPow K] [LawfulRPow K]
  {h : Hasher} {w w' : World K} {P : List Char → Py PyAST} {F : PyOps K}

/-- `v` occurs in the dimensionality `d`, in the definition of a unit of `d`, and so on. -/
inductive Uses (w : World K) : Dim → UKey → Prop
  | direct {d u} : u ∈ d.map Prod.fst → Uses w d u
  | via {d u v i q} : u ∈ d.map Prod.fst → u.cls ≠ .compound → w.info u = some i →
      i.definition = some q → Uses w q.dim v → Uses w d v

/-- The process `w` has the unit `u` with attributes `i`: the labels of the unit are bound to it (or
to a unit equal to it), and its class has a default unit.  For the two classes that are pickled by
name, the name still means the same. -/
structure KnownIn (P : List Char → Py PyAST) (F : PyOps K) (w : World K) (u : UKey) (i : UnitInfo K) :
    Prop where
  same : w.info u = some i
  labels : ∀ l, IsLabel (⟨u.cls, u.name, .none, i.symbol, i.uSymbol, i.aliases⟩ : NewUnit K) l →
    ∃ v, get? w.registry l = some v ∧ w.unitEq u v = true
  default : u.cls.irreducible = true → w.defaults u.cls ≠ none
  compound : u.cls = .compound → (∃ q, i.definition = some q ∧ compoundDef P F w u.name = .ok q) ∧
    i.symbol = none ∧ i.uSymbol = none ∧ i.aliases = []
  dimless : u.cls = .dimensionless → i.definition = none ∧ i.symbol = none ∧ i.uSymbol = none ∧
    i.aliases = []

omit [Field K] [LinearOrder K] [IsStrictOrderedRing K] [RPow K] [LawfulRPow K] in
/-- Evaluating a tree only reads the registry, and binding further labels does not change a result. -/
theorem evalTree_mono (O : PyOps K) (hr : ∀ id v, w.context id = .ok v → w'.context id = .ok v) :
    ∀ (t : PyAST) (v : RVal K), evalTree O w t = .ok v → evalTree O w' t = .ok v
  | .constant c, v, h => by rw [evalTree] at h ⊢; exact h
  | .name id, v, h => by
      rw [evalTree] at h ⊢
      exact hr _ _ h
  | .binOp op l r, v, h => by
      rw [evalTree] at h ⊢
      rcases hl : evalTree O w l with e | a
      · rw [hl] at h; cases h
      · rw [hl] at h
        rw [evalTree_mono O hr l a hl]
        simp only at h ⊢
        rcases hr' : evalTree O w r with e | b
        · rw [hr'] at h; cases h
        · rw [hr'] at h
          rw [evalTree_mono O hr r b hr']
          exact h
  | .unaryOp op e, v, h => by
      rw [evalTree] at h ⊢
      rcases hl : evalTree O w e with e' | a
      · rw [hl] at h; cases h
      · rw [hl] at h
        rw [evalTree_mono O hr e a hl]
        exact h
  | .node _ _, v, h => by rw [evalTree] at h; cases h

omit [LinearOrder K] [IsStrictOrderedRing K] [LawfulRPow K] in
theorem compoundDef_mono (hr : ∀ id v, w.context id = .ok v → w'.context id = .ok v)
    (name : String) (q : SQ K) (h : compoundDef P F w name = .ok q) : compoundDef P F w' name = .ok q := by
  have key : ∀ v, w.lookup P F name.toList = .ok v → w'.lookup P F name.toList = .ok v := by
    intro v hv
    unfold World.lookup lookup registryGet at hv ⊢
    split at hv
    · cases hv
    · split at hv
      · rename_i hval
        rw [if_pos hval]
        exact evalTree_mono _ hr _ _ hv
      · cases hv
  unfold compoundDef at h ⊢
  rcases hl : w.lookup P F name.toList with e | v
  · rw [hl] at h; cases h
  · rw [hl] at h
    rw [key v hl]
    exact h

omit [LinearOrder K] [IsStrictOrderedRing K] [LawfulRPow K] in
theorem compoundDef_counters (c : UClass → Option Nat) {name : String} {q : SQ K}
    (h : compoundDef P F w name = .ok q) :
    compoundDef P F ({ w with counters := c } : World K) name = .ok q := by
  refine compoundDef_mono (w := w) ?_ name q h
  intro id v hv
  unfold World.context at hv ⊢
  exact hv

omit [LinearOrder K] [IsStrictOrderedRing K] [LawfulRPow K] in
theorem registryAll_known [DecidableEq K] (u : UKey) : ∀ (ls : List String) (w : World K),
    (∀ l ∈ ls, ∃ v, get? w.registry l = some v ∧ w.unitEq u v = true) → w.registryAll u ls = (none, w)
  | [], _, _ => rfl
  | l :: ls, w, hl => by
      obtain ⟨v, h1, h2⟩ := hl l List.mem_cons_self
      rw [registryAll]
      unfold registrySet
      rw [h1]
      simp only [h2, if_true]
      exact registryAll_known u ls w (fun l hm => hl l (List.mem_cons_of_mem _ hm))

omit [IsStrictOrderedRing K] [LawfulRPow K] in
theorem instantiate_known {u : UKey} {i : UnitInfo K} (hk : KnownIn P F w' u i) (c : UClass → Option Nat)
    (j : UnitInfo K) (hj : { j with order := i.order } = i) :
    ∃ c', ({ w' with counters := c } : World K).instantiate u j i.order =
      (.ok ⟨u, i⟩, { w' with counters := c' }) := by
  have hs : j.symbol = i.symbol := by rw [← hj]
  have ha : j.aliases = i.aliases := by rw [← hj]
  unfold instantiate
  have hi : ({ w' with counters := c } : World K).info u = some i := hk.same
  simp only [hi, Option.isNone_some, Bool.false_eq_true, if_false]
  rw [registryAll_known]
  · simp only
    have hd : (u.cls.irreducible && (w'.defaults u.cls).isNone) = false := by
      rw [Bool.and_eq_false_iff]
      by_cases hr : u.cls.irreducible = true
      · right
        have := hk.default hr
        cases hdd : w'.defaults u.cls with
        | none => exact absurd hdd this
        | some d => rfl
      · left; exact Bool.eq_false_iff.2 hr
    rw [hd]
    simp only [Bool.false_eq_true, if_false]
    rw [hj]
    exact ⟨_, rfl⟩
  · intro l hl
    refine hk.labels l ((isLabel_iff _ l).2 ?_)
    rw [hs, ha] at hl
    exact hl

omit [LinearOrder K] [IsStrictOrderedRing K] [LawfulRPow K] in
/-- The reference computed from the loaded objects is the one the process computes. -/
theorem objsReference_eq (m : K) (os : List (UnitObj K × ℚ))
    (ho : ∀ x ∈ os, w'.info x.1.key = some x.1.info) :
    objsReference m os = w'.reference ⟨m, objsDim os⟩ := by
  unfold objsReference World.reference World.refUnits objsDim
  have : ∀ (a : SQ K), os.foldl (fun rq ud => (⟨rq.mag * rpow ud.1.ref.mag ud.2,
      Dim.mul rq.dim (Dim.pow ud.1.ref.dim ud.2)⟩ : SQ K)) a =
      (os.map (fun ud => (ud.1.key, ud.2))).foldl w'.refStep a := by
    induction os with
    | nil => intro a; rfl
    | cons x os ih =>
      intro a
      simp only [List.foldl_cons, List.map_cons]
      rw [ih (fun y hy => ho y (List.mem_cons_of_mem _ hy))]
      congr 1
      have hx := ho x List.mem_cons_self
      unfold refStep UnitObj.ref unitRef convRef
      rw [hx]
      rfl
  rw [this]

omit [Field K] [LinearOrder K] [IsStrictOrderedRing K] [RPow K] [LawfulRPow K] in
theorem info_ext {a b : UnitInfo K} (h1 : a.definition = b.definition) (h2 : a.convRef = b.convRef)
    (h3 : a.symbol = b.symbol) (h4 : a.uSymbol = b.uSymbol) (h5 : a.aliases = b.aliases)
    (h6 : a.order = b.order) : a = b := by
  cases a; cases b; simp_all

theorem load_dump (hw' : WF w') : ∀ fuel : Nat,
    (∀ (u : UKey) (t : PUnit K) (c : UClass → Option Nat), dumpUnit w fuel u = .ok t →
      (∀ v, Uses w [(u, 1)] v → ∃ i, w.info v = some i ∧ KnownIn P F w' v i) →
      ∃ i c', w.info u = some i ∧ loadUnit P F { w' with counters := c } t =
        (.ok ⟨u, i⟩, { w' with counters := c' })) ∧
    (∀ (d : Dim) (t : PDims K) (c : UClass → Option Nat), dumpDims w fuel d = .ok t →
      (∀ v, Uses w d v → ∃ i, w.info v = some i ∧ KnownIn P F w' v i) →
      ∃ os c', loadDims P F { w' with counters := c } t = (.ok os, { w' with counters := c' }) ∧
        objsDim os = d ∧ ∀ x ∈ os, w.info x.1.key = some x.1.info ∧ w'.info x.1.key = some x.1.info) := by
  intro fuel
  have step : ∀ fuel : Nat,
      (∀ (u : UKey) (t : PUnit K) (c : UClass → Option Nat), dumpUnit w fuel u = .ok t →
        (∀ v, Uses w [(u, 1)] v → ∃ i, w.info v = some i ∧ KnownIn P F w' v i) →
        ∃ i c', w.info u = some i ∧ loadUnit P F { w' with counters := c } t =
          (.ok ⟨u, i⟩, { w' with counters := c' })) →
      ∀ (d : Dim) (t : PDims K) (c : UClass → Option Nat), dumpDims w fuel d = .ok t →
        (∀ v, Uses w d v → ∃ i, w.info v = some i ∧ KnownIn P F w' v i) →
        ∃ os c', loadDims P F { w' with counters := c } t = (.ok os, { w' with counters := c' }) ∧
          objsDim os = d ∧
          ∀ x ∈ os, w.info x.1.key = some x.1.info ∧ w'.info x.1.key = some x.1.info := by
    intro fuel hu d
    induction d with
    | nil =>
      intro t c hd _
      rw [dumpDims] at hd
      cases hd
      exact ⟨[], c, by rw [loadDims], rfl, by simp⟩
    | cons kv d ih =>
      obtain ⟨u, e⟩ := kv
      intro t c hd hk
      rw [dumpDims] at hd
      rcases h1 : dumpUnit w fuel u with err | t1
      · rw [h1] at hd; cases hd
      rw [h1] at hd
      simp only at hd
      rcases h2 : dumpDims w fuel d with err | t2
      · rw [h2] at hd; cases hd
      rw [h2] at hd
      simp only [Except.ok.injEq] at hd
      subst hd
      obtain ⟨i, c1, hi, hl⟩ := hu u t1 c h1 (fun v hv => hk v (by
        cases hv with
        | direct hm =>
          refine .direct ?_
          simp only [List.map_cons, List.map_nil, List.mem_singleton] at hm
          simp [hm]
        | via hm hc hi hq hv =>
          simp only [List.map_cons, List.map_nil, List.mem_singleton] at hm
          refine .via (by simp [hm]) hc hi hq hv))
      obtain ⟨os, c2, hl2, ho, hx⟩ := ih t2 c1 h2 (fun v hv => hk v (by
        cases hv with
        | direct hm => exact .direct (by simp only [List.map_cons]; exact List.mem_cons_of_mem _ hm)
        | via hm hc hi hq hv =>
          exact .via (by simp only [List.map_cons]; exact List.mem_cons_of_mem _ hm) hc hi hq hv))
      refine ⟨(⟨u, i⟩, e) :: os, c2, ?_, ?_, ?_⟩
      · rw [loadDims, hl]
        simp only
        rw [hl2]
      · simp only [objsDim, List.map_cons] at ho ⊢
        rw [ho]
      · intro x hx'
        rcases List.mem_cons.1 hx' with rfl | hx'
        · obtain ⟨j, hj, hkn⟩ := hk u (.direct (by simp))
          rw [hi] at hj; cases hj
          exact ⟨hi, hkn.same⟩
        · exact hx x hx'
  induction fuel with
  | zero =>
    have h0 : ∀ (u : UKey) (t : PUnit K) (c : UClass → Option Nat), dumpUnit w 0 u = .ok t →
        (∀ v, Uses w [(u, 1)] v → ∃ i, w.info v = some i ∧ KnownIn P F w' v i) →
        ∃ i c', w.info u = some i ∧ loadUnit P F { w' with counters := c } t =
          (.ok ⟨u, i⟩, { w' with counters := c' }) := by
      intro u t c ht
      rw [dumpUnit] at ht
      cases ht
    exact ⟨h0, step 0 h0⟩
  | succ fuel ih =>
    have hs : ∀ (u : UKey) (t : PUnit K) (c : UClass → Option Nat), dumpUnit w (fuel + 1) u = .ok t →
        (∀ v, Uses w [(u, 1)] v → ∃ i, w.info v = some i ∧ KnownIn P F w' v i) →
        ∃ i c', w.info u = some i ∧ loadUnit P F { w' with counters := c } t =
          (.ok ⟨u, i⟩, { w' with counters := c' }) := by
      intro u t c ht hk
      obtain ⟨i, hi, hkn⟩ := hk u (.direct (by simp))
      rw [dumpUnit, hi] at ht
      simp only at ht
      have hconv : i.convRef = i.definition.map w'.reference := hw'.conv u i hkn.same
      split at ht
      · rename_i hcls
        cases ht
        rcases hcls with hcls | hcls
        · obtain ⟨⟨q, hq, hcd⟩, e1, e2, e3⟩ := hkn.compound hcls
          have hcd' : compoundDef P F ({ w' with counters := c } : World K) u.name = .ok q :=
            compoundDef_counters c hcd
          obtain ⟨c', hin⟩ := instantiate_known hkn c
            ⟨some q, some (w'.reference q), none, none, [],
              (u.cls.primaryOrder, ({ w' with counters := c } : World K).counter u.cls)⟩
            (info_ext hq.symm (by rw [hconv, hq]; rfl) e1.symm e2.symm e3.symm rfl)
          refine ⟨i, c', hi, ?_⟩
          rw [loadUnit, if_pos hcls, hcd']
          exact hin
        · obtain ⟨hq, e1, e2, e3⟩ := hkn.dimless hcls
          obtain ⟨c', hin⟩ := instantiate_known hkn c
            ⟨none, none, none, none, [],
              (u.cls.primaryOrder, ({ w' with counters := c } : World K).counter u.cls)⟩
            (info_ext hq.symm (by rw [hconv, hq]; rfl) e1.symm e2.symm e3.symm rfl)
          refine ⟨i, c', hi, ?_⟩
          rw [loadUnit, if_neg (by rw [hcls]; decide)]
          exact hin
      · rename_i hcls
        rcases hdf : i.definition with _ | q
        · rw [hdf] at ht
          cases ht
          obtain ⟨c', hin⟩ := instantiate_known hkn c
            ⟨none, none, i.symbol, i.uSymbol, i.aliases,
              (u.cls.primaryOrder, ({ w' with counters := c } : World K).counter u.cls)⟩
            (info_ext hdf.symm (by rw [hconv, hdf]; rfl) rfl rfl rfl rfl)
          refine ⟨i, c', hi, ?_⟩
          rw [loadUnit, loadDef]
          exact hin
        · rw [hdf] at ht
          simp only at ht
          rcases hdd : dumpDims w fuel q.dim with err | td
          · rw [hdd] at ht; cases ht
          rw [hdd] at ht
          simp only [Except.ok.injEq] at ht
          subst ht
          obtain ⟨os, c1, hl, ho, hx⟩ := ih.2 q.dim td c hdd (fun v hv =>
            hk v (.via (by simp) (fun hc => hcls (Or.inl hc)) hi hdf hv))
          have href := objsReference_eq (w' := w') q.mag os (fun x hxm => (hx x hxm).2)
          rw [ho] at href
          obtain ⟨c', hin⟩ := instantiate_known hkn c1
            ⟨some q, some (w'.reference q), i.symbol, i.uSymbol, i.aliases,
              (u.cls.primaryOrder, ({ w' with counters := c1 } : World K).counter u.cls)⟩
            (info_ext hdf.symm (by rw [hconv, hdf]; rfl) rfl rfl rfl rfl)
          refine ⟨i, c', hi, ?_⟩
          rw [loadUnit, loadDef, hl]
          simp only [ho, href, Option.map_some]
          exact hin
    exact ⟨hs, step _ hs⟩

/-! ## Units known to a process stay known -/

theorem unitEq_evolves (he : Evolves w w') {u v : UKey} (hu : u ∈ w.units.map Prod.fst)
    (hv : v ∈ w.units.map Prod.fst) : w'.unitEq u v = w.unitEq u v := by
  unfold World.unitEq World.eqS World.rescaleS
  rw [convFactor_evolves he (unitDim_ok hv) (unitDim_ok hu), deq_hasher (evolves_keeps he).1]

/-- No unit has taken one of the two labels under which the registry holds classes. -/
def ClassLabelsFree (w : World K) : Prop :=
  get? w.registry "UnitQuantity" = none ∧ get? w.registry "CompoundUnit" = none

omit [IsStrictOrderedRing K] [LawfulRPow K] in
theorem context_mono (hreg : ∀ l u, get? w.registry l = some u → get? w'.registry l = some u)
    (hf : ClassLabelsFree w') (id : List Char) (v : RVal K) (hv : w.context id = .ok v) :
    w'.context id = .ok v := by
  unfold World.context at hv ⊢
  rcases hg : get? w.registry (String.ofList id) with _ | u
  · rw [hg] at hv
    simp only at hv
    split at hv
    · rename_i hid
      have : get? w'.registry (String.ofList id) = none := by
        rcases hid with rfl | rfl
        · exact hf.1
        · exact hf.2
      rw [this]
      simp only
      rw [if_pos hid]
      exact hv
    · cases hv
  · rw [hg] at hv
    rw [hreg _ _ hg]
    exact hv

/-- A unit the process knows stays known, whatever is defined or attempted later. -/
theorem KnownIn.evolves (hw : Reachable h w) {u : UKey} {i : UnitInfo K} (hk : KnownIn P F w u i)
    (he : Evolves w w') (hf : ClassLabelsFree w') : KnownIn P F w' u i where
  same := (evolves_keeps he).2.1 u i hk.same
  labels := by
    intro l hl
    obtain ⟨v, h1, h2⟩ := hk.labels l hl
    refine ⟨v, (evolves_keeps he).2.2 l v h1, ?_⟩
    rw [unitEq_evolves he (known_of_info hk.same) (hw.wf.registered l v h1)]
    exact h2
  default := by
    intro hc
    rcases hd : w.defaults u.cls with _ | d
    · exact absurd hd (hk.default hc)
    · obtain ⟨d', h1, -⟩ := C21_default_convertible hw he _ d hd
      rw [h1]; simp
  compound := by
    intro hc
    obtain ⟨⟨q, h1, h2⟩, h3⟩ := hk.compound hc
    exact ⟨⟨q, h1, compoundDef_mono (context_mono (evolves_keeps he).2.2 hf) _ _ h2⟩, h3⟩
  dimless := hk.dimless

/-! ## A unit whose constructor succeeded is known -/

omit [IsStrictOrderedRing K] [LawfulRPow K] in
theorem registryAll_success (u : UKey) : ∀ (ls : List String) (w : World K),
    (w.registryAll u ls).1 = none → ∀ l ∈ ls,
      ∃ v, get? (w.registryAll u ls).2.registry l = some v ∧ w.unitEq u v = true
  | [], _, _, l, hl => absurd hl (by simp)
  | x :: ls, w, hok, l, hl => by
      rw [World.registryAll] at hok ⊢
      unfold World.registrySet at hok ⊢
      rcases hg : get? w.registry x with _ | v'
      · rw [hg] at hok
        simp only at hok ⊢
        rcases List.mem_cons.1 hl with rfl | hm
        · refine ⟨u, (registryAll_bound u ls _ hok).2.1 l u (by simp [get?_set]), unitEq_self _ _⟩
        · exact registryAll_success u ls _ hok l hm
      · rw [hg] at hok
        simp only at hok ⊢
        by_cases he : w.unitEq u v' = true
        · rw [if_pos he] at hok ⊢
          simp only at hok ⊢
          rcases List.mem_cons.1 hl with rfl | hm
          · exact ⟨v', (registryAll_bound u ls _ hok).2.1 l v' hg, he⟩
          · exact registryAll_success u ls _ hok l hm
        · rw [if_neg he] at hok
          cases hok

/-- Arguments the constructors accept: `CompoundUnit(name)` (`unitquantity.py` 375-376) takes only a
name, and what the registry makes of the name is the definition; `Dimensionless(name)` (413) takes no
symbol and no aliases. -/
def Constructible (P : List Char → Py PyAST) (F : PyOps K) (w : World K) (a : NewUnit K) : Prop :=
  (a.cls = .compound → (∃ q, a.definition.toDef = some q ∧ compoundDef P F w a.name = .ok q) ∧
    a.symbol = none ∧ a.uSymbol = none ∧ a.aliases = []) ∧
  (a.cls = .dimensionless → a.symbol = none ∧ a.uSymbol = none ∧ a.aliases = [])

theorem newUnit_known (a : NewUnit K) (hv : (Op.newUnit a).Valid w)
    (hfresh : w.info ⟨a.cls, a.name⟩ = none) (hok : (w.newUnit a).1 = none)
    (hc : Constructible P F w a) :
    ∃ i, KnownIn P F (w.newUnit a).2 ⟨a.cls, a.name⟩ i := by
  obtain ⟨n, hun⟩ := construct_units (a := a) hfresh
  rcases hr : (w.construct a).registryAll ⟨a.cls, a.name⟩
      (labelsOf a.cls a.name a.symbol a.aliases) with ⟨e, w2⟩
  have hnew : w.newUnit a = match (e, w2) with
      | (some e, w2) =>
        if w2.registry.any (fun kv => decide (kv.2 = (⟨a.cls, a.name⟩ : UKey))) then (some e, w2)
        else (some e, { w2 with units := w.units })
      | (none, w2) =>
        if a.cls.irreducible && (w2.defaults a.cls).isNone then
          (none, { w2 with defaults := fun c => if c = a.cls then some (unitDim ⟨a.cls, a.name⟩) else w2.defaults c })
        else (none, w2) := by
    unfold World.newUnit
    simp only [hr]
    rfl
  cases e with
  | some e =>
    exfalso
    rw [hnew] at hok
    simp only at hok
    split at hok <;> cases hok
  | none =>
    simp only at hnew
    obtain ⟨reg, hreg, -, hkeep⟩ := registryAll_spec (w.construct a) ⟨a.cls, a.name⟩
      (labelsOf a.cls a.name a.symbol a.aliases)
    rw [hr] at hreg
    simp only at hreg
    have hlab := registryAll_success ⟨a.cls, a.name⟩ (labelsOf a.cls a.name a.symbol a.aliases)
      (w.construct a) (by rw [hr])
    rw [hr] at hlab
    simp only at hlab
    have hunits : (w.newUnit a).2.units = (w.construct a).units := by
      have h1 : (w.newUnit a).2.units = w2.units := by rw [hnew]; split <;> rfl
      rw [h1, hreg]
    have hregi : (w.newUnit a).2.registry = w2.registry := by
      rw [hnew]; split <;> rfl
    have hhash : (w.newUnit a).2.hasher = (w.construct a).hasher := by
      have h1 : (w.newUnit a).2.hasher = w2.hasher := by rw [hnew]; split <;> rfl
      rw [h1, hreg]
    have hinfo := info_append (w := w) (w' := (w.newUnit a).2) (hunits.trans hun) hfresh ⟨a.cls, a.name⟩
    rw [if_pos rfl] at hinfo
    refine ⟨_, hinfo, ?_, ?_, ?_, ?_⟩
    · intro l hl
      obtain ⟨v, h1, h2⟩ := hlab l ((isLabel_iff _ l).1 hl)
      refine ⟨v, by rw [hregi]; exact h1, ?_⟩
      rw [← h2]
      have : ∀ (w₁ w₂ : World K), w₁.units = w₂.units → w₁.hasher = w₂.hasher →
          ∀ u v, w₁.unitEq u v = w₂.unitEq u v := by
        intro w₁ w₂ e1 e2 u v
        rcases w₁ with ⟨x1, x2, x3, x4, x5⟩
        rcases w₂ with ⟨y1, y2, y3, y4, y5⟩
        simp only at e1 e2
        subst e1 e2
        rfl
      exact this _ _ hunits hhash _ _
    · intro hir
      simp only at hir
      rw [hnew]
      rcases hd : w2.defaults a.cls with _ | d
      · simp [hir]
      · simp [hd]
    · intro hcm
      obtain ⟨⟨q, h1, h2⟩, h3⟩ := hc.1 hcm
      refine ⟨⟨q, h1, ?_⟩, h3⟩
      refine compoundDef_mono ?_ _ _ h2
      intro id v hv
      have : (w.newUnit a).2.registry = w.registry := by
        rw [hregi]
        have hl0 : labelsOf a.cls a.name a.symbol a.aliases = [] := by
          simp only at hcm
          rw [hcm]; rfl
        rw [hl0] at hr
        simp only [World.registryAll, Prod.mk.injEq, true_and] at hr
        rw [← hr]; rfl
      unfold World.context at hv ⊢
      rw [this]
      exact hv
    · intro hdl
      exact ⟨hv.2 hdl, hc.2 hdl⟩

/-- The unit `u` was created, in the history that leads to `w`, by a constructor call that returned.
Other operations of that history may have raised. -/
inductive Created (P : List Char → Py PyAST) (F : PyOps K) (h : Hasher) : World K → UKey → Prop
  | now {w : World K} (a : NewUnit K) : Reachable h w → (Op.newUnit a).Valid w →
      w.info ⟨a.cls, a.name⟩ = none → (w.newUnit a).1 = none → Constructible P F w a →
      Created P F h (w.newUnit a).2 ⟨a.cls, a.name⟩
  | later {w : World K} {u : UKey} (op : Op K) : Created P F h w u → op.Valid w →
      Created P F h (op.run w).2 u

omit [IsStrictOrderedRing K] [LawfulRPow K] in
theorem Created.reachable {u : UKey} (hc : Created P F h w u) : Reachable h w := by
  induction hc with
  | now a hr hv _ _ _ => exact Reachable.step (.newUnit a) hr hv
  | later op _ hv ih => exact Reachable.step op ih hv

theorem Created.known {u : UKey} (hc : Created P F h w u) (hf : ClassLabelsFree w) :
    ∃ i, KnownIn P F w u i := by
  induction hc with
  | now a hr hv hfr hok hcs => exact newUnit_known a hv hfr hok hcs
  | @later w₀ u op hc hv ih =>
    have e1 : Evolves w₀ (op.run w₀).2 := Evolves.step op Evolves.refl hv
    have hf0 : ClassLabelsFree w₀ := by
      constructor
      · by_contra hne
        obtain ⟨x, hx⟩ := Option.ne_none_iff_exists'.1 hne
        have := (evolves_keeps e1).2.2 _ _ hx
        rw [hf.1] at this; cases this
      · by_contra hne
        obtain ⟨x, hx⟩ := Option.ne_none_iff_exists'.1 hne
        have := (evolves_keeps e1).2.2 _ _ hx
        rw [hf.2] at this; cases this
    obtain ⟨i, hi⟩ := ih hf0
    exact ⟨i, hi.evolves hc.reachable e1 hf⟩

/-! ## Pickling terminates -/

omit [Field K] [LinearOrder K] [IsStrictOrderedRing K] [RPow K] [LawfulRPow K] in
theorem dump_mono (hk : ∀ u i, w.info u = some i → w'.info u = some i) : ∀ fuel : Nat,
    (∀ (u : UKey) (t : PUnit K) (fuel' : Nat), fuel ≤ fuel' → dumpUnit w fuel u = .ok t →
      dumpUnit w' fuel' u = .ok t) ∧
    (∀ (d : List (UKey × ℚ)) (t : PDims K) (fuel' : Nat), fuel ≤ fuel' → dumpDims w fuel d = .ok t →
      dumpDims w' fuel' d = .ok t) := by
  have step : ∀ fuel : Nat,
      (∀ (u : UKey) (t : PUnit K) (fuel' : Nat), fuel ≤ fuel' → dumpUnit w fuel u = .ok t →
        dumpUnit w' fuel' u = .ok t) →
      (∀ (d : List (UKey × ℚ)) (t : PDims K) (fuel' : Nat), fuel ≤ fuel' → dumpDims w fuel d = .ok t →
        dumpDims w' fuel' d = .ok t) := by
    intro fuel hu d
    induction d with
    | nil => intro t f hf ht; rw [dumpDims] at ht ⊢; exact ht
    | cons kv d ih =>
      obtain ⟨u, e⟩ := kv
      intro t f hf ht
      rw [dumpDims] at ht ⊢
      rcases h1 : dumpUnit w fuel u with err | t1
      · rw [h1] at ht; cases ht
      rw [h1] at ht
      rw [hu u t1 f hf h1]
      simp only at ht ⊢
      rcases h2 : dumpDims w fuel d with err | t2
      · rw [h2] at ht; cases ht
      rw [h2] at ht
      rw [ih t2 f hf h2]
      exact ht
  intro fuel
  induction fuel with
  | zero =>
    have h0 : ∀ (u : UKey) (t : PUnit K) (fuel' : Nat), 0 ≤ fuel' → dumpUnit w 0 u = .ok t →
        dumpUnit w' fuel' u = .ok t := by
      intro u t f _ ht; rw [dumpUnit] at ht; cases ht
    exact ⟨h0, step 0 h0⟩
  | succ fuel ih =>
    have hs : ∀ (u : UKey) (t : PUnit K) (fuel' : Nat), fuel + 1 ≤ fuel' →
        dumpUnit w (fuel + 1) u = .ok t → dumpUnit w' fuel' u = .ok t := by
      intro u t f hf ht
      obtain ⟨f, rfl⟩ : ∃ g, f = g + 1 := ⟨f - 1, by omega⟩
      rw [dumpUnit] at ht ⊢
      rcases hi : w.info u with _ | i
      · rw [hi] at ht; cases ht
      rw [hi] at ht
      rw [hk u i hi]
      simp only at ht ⊢
      split
      · rename_i hc; rw [if_pos hc] at ht; exact ht
      · rename_i hc
        rw [if_neg hc] at ht
        rcases hd : i.definition with _ | q
        · rw [hd] at ht; exact ht
        · rw [hd] at ht
          simp only at ht ⊢
          rcases h2 : dumpDims w fuel q.dim with err | t2
          · rw [h2] at ht; cases ht
          rw [h2] at ht
          rw [ih.2 q.dim t2 f (by omega) h2]
          exact ht
    exact ⟨hs, step _ hs⟩

omit [Field K] [LinearOrder K] [IsStrictOrderedRing K] [RPow K] [LawfulRPow K] in
theorem dumpDims_of_units (fuel : Nat) (d : List (UKey × ℚ))
    (hu : ∀ u ∈ d.map Prod.fst, ∃ t, dumpUnit w fuel u = .ok t) : ∃ t, dumpDims w fuel d = .ok t := by
  induction d with
  | nil => exact ⟨_, by rw [dumpDims]⟩
  | cons kv d ih =>
    obtain ⟨u, e⟩ := kv
    obtain ⟨t1, h1⟩ := hu u (by simp)
    obtain ⟨t2, h2⟩ := ih (fun v hv => hu v (by simp only [List.map_cons]; exact List.mem_cons_of_mem _ hv))
    refine ⟨.cons t1 e t2, ?_⟩
    rw [dumpDims, h1]
    simp only
    rw [h2]

/-- Every unit that exists in a reachable state can be pickled, given enough recursion depth:
definitions refer only to units created earlier. -/
theorem dumpUnit_returns (hw : Reachable h w) : ∃ n, ∀ fuel, n ≤ fuel → ∀ u ∈ w.units.map Prod.fst,
    ∃ t, dumpUnit w fuel u = .ok t := by
  induction hw with
  | init => exact ⟨0, fun _ _ u hu => absurd hu (by simp [World.init])⟩
  | @step w₀ op hr hv ih =>
    obtain ⟨n, ih⟩ := ih
    have hk := (run_keeps w₀ op).2.1
    have old : ∀ fuel, n ≤ fuel → ∀ u ∈ w₀.units.map Prod.fst,
        ∃ t, dumpUnit (op.run w₀).2 fuel u = .ok t := by
      intro fuel hf u hu
      obtain ⟨t, ht⟩ := ih n le_rfl u hu
      exact ⟨t, (dump_mono hk n).1 u t fuel hf ht⟩
    have same : (op.run w₀).2.units = w₀.units → ∃ n, ∀ fuel, n ≤ fuel →
        ∀ u ∈ (op.run w₀).2.units.map Prod.fst, ∃ t, dumpUnit (op.run w₀).2 fuel u = .ok t := by
      intro e
      exact ⟨n, fun fuel hf u hu => old fuel hf u (by rw [← e]; exact hu)⟩
    cases op with
    | newUnit a =>
      obtain ⟨-, h2, -⟩ := newUnit_spec w₀ a
      rcases h2 with h2 | ⟨h0, m, h2⟩
      · exact same h2
      · refine ⟨n + 1, fun fuel hf u hu => ?_⟩
        simp only [Op.run] at hu ⊢
        rw [h2, List.map_append, List.mem_append] at hu
        rcases hu with hu | hu
        · exact old fuel (by omega) u hu
        · simp only [List.map_cons, List.map_nil, List.mem_singleton] at hu
          subst hu
          have hi := info_append (w := w₀) (w' := (w₀.newUnit a).2) h2 h0 ⟨a.cls, a.name⟩
          rw [if_pos rfl] at hi
          obtain ⟨fuel, rfl⟩ : ∃ g, fuel = g + 1 := ⟨fuel - 1, by omega⟩
          rw [dumpUnit, hi]
          simp only
          split
          · exact ⟨_, rfl⟩
          · rcases hd : a.definition.toDef with _ | q
            · exact ⟨_, rfl⟩
            · simp only
              have hq := (hv.1 q hd).2
              obtain ⟨t, ht⟩ := dumpDims_of_units (w := (w₀.newUnit a).2) fuel q.dim (fun v hvm => by
                obtain ⟨kv, hkv, rfl⟩ := List.mem_map.1 hvm
                exact old fuel (by omega) _ (hq.known kv hkv))
              rw [ht]
              exact ⟨_, rfl⟩
    | setDefault c a =>
      refine same ?_
      rcases setDefault_spec w₀ c a with e | ⟨x, cur, cf, -, -, -, -, -, e⟩
      · simp only [Op.run]; rw [e]
      · simp only [Op.run]; rw [e]

/-! ## C40 -/

/-- The unit objects `os` are the units of `d`, in the same order and with the same exponents, each
with the class, name, definition, reference, symbols, aliases and sort position it has in `w`. -/
def SameUnits (w : World K) (d : Dim) (os : List (UnitObj K × ℚ)) : Prop :=
  os.map (fun x => (x.1.key, x.2)) = d ∧ ∀ x ∈ os, w.info x.1.key = some x.1.info

/-- The loaded object `y` is what `x` is in `w`: class, shape and magnitudes, units, uncertainty. -/
structure SameArray (w : World K) (x : ArrObj Dim K) (y : ArrObj (List (UnitObj K × ℚ)) K) : Prop where
  cls : y.cls = x.cls
  mag : y.mag = x.mag
  dims : SameUnits w x.dims y.dims
  unc : match x.unc, y.unc with
    | none, none => True
    | some (a, d), some (b, os) => b = a ∧ SameUnits w d os
    | _, _ => False

/-- The units of `d`, the units in their definitions, and so on, were created in the process `w'` by
constructor calls that returned, and have there the attributes they have in `w`. -/
def SameIn (P : List Char → Py PyAST) (F : PyOps K) (h' : Hasher) (w w' : World K) (d : Dim) : Prop :=
  ∀ v, Uses w d v → Created P F h' w' v ∧ w'.info v = w.info v

theorem SameIn.known {h' : Hasher} {d : Dim} (hs : SameIn P F h' w w' d) (hf : ClassLabelsFree w') :
    ∀ v, Uses w d v → ∃ i, w.info v = some i ∧ KnownIn P F w' v i := by
  intro v hv
  obtain ⟨hc, hi⟩ := hs v hv
  obtain ⟨i, hk⟩ := hc.known hf
  exact ⟨i, by rw [← hi]; exact hk.same, hk⟩

theorem dumpDims_returns (hw : Reachable h w) : ∃ n, ∀ fuel, n ≤ fuel → ∀ d, DimOK w d →
    ∃ t, dumpDims w fuel d = .ok t := by
  obtain ⟨n, hn⟩ := dumpUnit_returns hw
  refine ⟨n, fun fuel hf d hd => dumpDims_of_units fuel d fun u hu => ?_⟩
  obtain ⟨kv, hkv, rfl⟩ := List.mem_map.1 hu
  exact hn fuel hf _ (hd.known kv hkv)

/-- C40 for units: pickling a unit returns (given enough recursion depth), and unpickling in a process
that has the same units (the same process later, or another one, with its own hash function) gives a
unit of the same class and name with the same definition, reference, symbols, aliases and sort
position.  Unpickling changes nothing in the process but the counters that number new units. -/
theorem C40_unit {h' : Hasher} (hw : Reachable h w) (hw' : Reachable h' w') (hf : ClassLabelsFree w')
    (u : UKey) (hu : u ∈ w.units.map Prod.fst) (hs : SameIn P F h' w w' [(u, 1)]) :
    ∃ n, ∀ fuel, n ≤ fuel → ∃ t, dumpUnit w fuel u = .ok t ∧
      ∃ i c', w.info u = some i ∧ loadUnit P F w' t = (.ok ⟨u, i⟩, { w' with counters := c' }) := by
  obtain ⟨n, hn⟩ := dumpUnit_returns hw
  refine ⟨n, fun fuel hfu => ?_⟩
  obtain ⟨t, ht⟩ := hn fuel hfu u hu
  refine ⟨t, ht, ?_⟩
  exact (load_dump hw'.wf fuel).1 u t w'.counters ht (hs.known hf)

/-- C40 for quantities and uncertain quantities: pickling returns (given enough recursion depth), and
unpickling in a process that has the same units gives an object of the same class with the same
magnitudes, units and uncertainty.  Unpickling changes nothing in the process but the counters that
number new units. -/
theorem C40_quantity {h' : Hasher} (hw : Reachable h w) (hw' : Reachable h' w') (hf : ClassLabelsFree w')
    (x : ArrObj Dim K) (hx : x.cls = .uncertain ↔ x.unc ≠ none)
    (hd : DimOK w x.dims) (hs : SameIn P F h' w w' x.dims)
    (hu : ∀ a d, x.unc = some (a, d) → DimOK w d ∧ SameIn P F h' w w' d) :
    ∃ n, ∀ fuel, n ≤ fuel → ∃ p, dumpArray w fuel x = .ok p ∧
      ∃ y c', loadArray P F w' p = (.ok y, { w' with counters := c' }) ∧ SameArray w x y := by
  obtain ⟨n, hn⟩ := dumpDims_returns hw
  refine ⟨n, fun fuel hfu => ?_⟩
  obtain ⟨cls, mag, dims, unc⟩ := x
  obtain ⟨t, ht⟩ := hn fuel hfu dims hd
  obtain ⟨os, c1, hl, ho, hi⟩ := (load_dump hw'.wf fuel).2 dims t w'.counters ht (hs.known hf)
  have hl' : loadDims P F w' t = (.ok os, { w' with counters := c1 }) := hl
  cases unc with
  | none =>
    have hc : cls = .quantity := by
      cases cls with
      | quantity => rfl
      | uncertain => exact absurd rfl (hx.1 rfl)
    subst hc
    refine ⟨⟨.quantity, [.array mag, .dims t]⟩, ?_, ⟨.quantity, mag, os, none⟩, c1, ?_, rfl, rfl, ⟨ho, fun x hx => (hi x hx).1⟩, trivial⟩
    · unfold dumpArray ArrObj.reduce ArrObj.reduceQuantity
      simp [StateItem.mapM, ht, Except.map, bind, Except.bind, pure, Except.pure]
    · unfold loadArray
      simp [loadItems, loadItem, hl', ArrObj.setState, ArrObj.blank, ArrObj.setArray]
  | some ad =>
    obtain ⟨a, d⟩ := ad
    have hc : cls = .uncertain := hx.2 (by simp)
    subst hc
    obtain ⟨hd2, hs2⟩ := hu a d rfl
    obtain ⟨t2, ht2⟩ := hn fuel hfu d hd2
    obtain ⟨os2, c2, hl2, ho2, hi2⟩ := (load_dump hw'.wf fuel).2 d t2 c1 ht2 (hs2.known hf)
    refine ⟨⟨.uncertain, [.array mag, .dims t, .quantity a t2]⟩, ?_,
      ⟨.uncertain, mag, os, some (a, os2)⟩, c2, ?_, rfl, rfl, ⟨ho, fun x hx => (hi x hx).1⟩, rfl,
      ho2, fun x hx => (hi2 x hx).1⟩
    · unfold dumpArray ArrObj.reduce ArrObj.reduceQuantity
      simp [StateItem.mapM, ht, ht2, Except.map, bind, Except.bind, pure, Except.pure]
    · unfold loadArray
      simp [loadItems, loadItem, hl', hl2, ArrObj.setState, ArrObj.blank, ArrObj.setArray]

omit [IsStrictOrderedRing K] [LawfulRPow K] in
theorem Created.evolves {u : UKey} (hc : Created P F h w u) (he : Evolves w w') :
    Created P F h w' u := by
  induction he with
  | refl => exact hc
  | step op _ hv ih => exact Created.later op ih hv

/-- C40 in one process: a pickle made at some time loads to the same object at any later time, whatever
was defined or attempted in between, if the units involved were created by constructor calls that
returned. -/
theorem C40_same_process (he : Evolves w w') (hw : Reachable h w) (hf : ClassLabelsFree w')
    (x : ArrObj Dim K) (hx : x.cls = .uncertain ↔ x.unc ≠ none) (hd : DimOK w x.dims)
    (hu : ∀ a d, x.unc = some (a, d) → DimOK w d)
    (hc : ∀ v ∈ w.units.map Prod.fst, Created P F h w v) :
    ∃ n, ∀ fuel, n ≤ fuel → ∃ p, dumpArray w fuel x = .ok p ∧
      ∃ y c', loadArray P F w' p = (.ok y, { w' with counters := c' }) ∧ SameArray w x y := by
  have key : ∀ d, DimOK w d → SameIn P F h w w' d := by
    intro d hd v hv
    have hkn : v ∈ w.units.map Prod.fst := by
      induction hv with
      | direct hm =>
        obtain ⟨kv, hkv, rfl⟩ := List.mem_map.1 hm
        exact hd.known kv hkv
      | via _ _ hi hq _ ih => exact ih ((hw.wf.defOK _ _ _ hi hq).2)
    obtain ⟨i, hi⟩ := info_known hkn
    exact ⟨(hc v hkn).evolves he, by rw [hi, (evolves_keeps he).2.1 v i hi]⟩
  exact C40_quantity hw (hw.evolves he) hf x hx hd (key _ hd) (fun a d h => ⟨hu a d h, key d (hu a d h)⟩)

/-- C78: a unit object can be pickled and comes back as itself, at any later time of the process, if it
and the units its definition is built from were created by constructor calls that returned.  Missing:
units whose construction was interrupted (`C78_false_half_registered`). -/
theorem C78_created_partial (he : Evolves w w') (hw : Reachable h w) (hf : ClassLabelsFree w') (u : UKey)
    (hc : ∀ v, Uses w [(u, 1)] v → Created P F h w v) :
    ∃ n, ∀ fuel, n ≤ fuel → ∃ t, dumpUnit w fuel u = .ok t ∧
      ∃ i c', w.info u = some i ∧ loadUnit P F w' t = (.ok ⟨u, i⟩, { w' with counters := c' }) := by
  have ku : ∀ {w : World K} {v : UKey}, Created P F h w v → v ∈ w.units.map Prod.fst := by
    intro w v hc
    induction hc with
    | now a hr hv hfr hok hcs =>
      obtain ⟨i, hi⟩ := newUnit_known (P := P) (F := F) a hv hfr hok hcs
      exact known_of_info hi.same
    | @later w₀ u op hc hv ih =>
      have e1 : Evolves w₀ (op.run w₀).2 := Evolves.step op Evolves.refl hv
      obtain ⟨i, hi⟩ := info_known ih
      exact known_of_info ((evolves_keeps e1).2.1 _ _ hi)
  refine C40_unit hw (hw.evolves he) hf u (ku (hc u (.direct (by simp)))) fun v hv => ?_
  obtain ⟨i, hi⟩ := info_known (ku (hc v hv))
  exact ⟨(hc v hv).evolves he, by rw [hi, (evolves_keeps he).2.1 v i hi]⟩

end
/-! ## Examples -/

section
variable {P : List Char → Py PyAST} {F : PyOps ℝ}

theorem exCreated : ∀ v ∈ exWorld.units.map Prod.fst, Created P F exH exWorld v := by
  have c0 : Created P F exH (exWorldN 1) ⟨.dimensionless, "dimensionless"⟩ :=
    Created.now { cls := .dimensionless, name := "dimensionless", definition := .none } exReach0 exValid0
      rfl rfl ⟨by simp, fun _ => ⟨rfl, rfl, rfl⟩⟩
  have c1 : Created P F exH (exWorldN 2) uM :=
    Created.now { cls := .length, name := "meter", definition := .none, symbol := some "m" }
      exReach1 exValid1 rfl rfl ⟨by simp, by simp⟩
  have c2 : Created P F exH (exWorldN 3) uKm :=
    Created.now ⟨.length, "kilometer", .quantity ⟨1000, [(uM, 1)]⟩, some "km", none, []⟩ exReach2 exValid2 rfl rfl ⟨by simp, by simp⟩
  have c3 : Created P F exH (exWorldN 4) uS :=
    Created.now { cls := .time, name := "second", definition := .none, symbol := some "s" }
      exReach3 exValid3 rfl rfl ⟨by simp, by simp⟩
  have c4 : Created P F exH exWorld uHz :=
    Created.now ⟨.unitQuantity, "hertz", .quantity ⟨1, [(uS, -1)]⟩, some "Hz", none, []⟩ exReach4 exValid4 rfl rfl ⟨by simp, by simp⟩
  intro v hv
  rw [exKeys] at hv
  simp only [List.mem_cons, List.not_mem_nil, or_false] at hv
  rcases hv with rfl | rfl | rfl | rfl | rfl
  · exact .later _ (.later _ (.later _ (.later _ c0 exValid1) exValid2) exValid3) exValid4
  · exact .later _ (.later _ (.later _ c1 exValid2) exValid3) exValid4
  · exact .later _ (.later _ c2 exValid3) exValid4
  · exact .later _ c3 exValid4
  · exact c4

/-- The hypotheses of `C78_created_partial` are met by the kilometre. -/
example : ∀ v, Uses exWorld [(uKm, 1)] v → Created P F exH exWorld v := by
  have key : ∀ d v, Uses exWorld d v → DimOK exWorld d → v ∈ exWorld.units.map Prod.fst := by
    intro d v hv
    induction hv with
    | direct hm =>
      intro hd
      obtain ⟨kv, hkv, rfl⟩ := List.mem_map.1 hm
      exact hd.known kv hkv
    | via _ _ hi hq _ ih => exact fun _ => ih ((exWorld_wf.defOK _ _ _ hi hq).2)
  exact fun v hv => exCreated v (key _ v hv (ex_dimOK dKm (by simp)))

/-- A pickle of `[3, 4] km` loads to itself, now and after `UnitLength.set_default_unit('km')`. -/
example (a : NDArr ℝ) (he : Evolves exWorld (exSetKm.run exWorld).2) :
    ∃ n, ∀ fuel, n ≤ fuel → ∃ p, dumpArray exWorld fuel ⟨.quantity, a, dKm, none⟩ = .ok p ∧
      ∃ y c', loadArray P F (exSetKm.run exWorld).2 p =
        (.ok y, { (exSetKm.run exWorld).2 with counters := c' }) ∧
        SameArray exWorld ⟨.quantity, a, dKm, none⟩ y := by
  refine C40_same_process he exWorld_reachable ?_ _ (by simp) (ex_dimOK _ (by simp)) (by simp) exCreated
  have hr : (exSetKm.run exWorld).2.registry = exWorld.registry :=
    (C21_set_default_local exWorld .length (some ⟨1, dKm⟩)).2.2.2
  exact ⟨by rw [hr]; rfl, by rw [hr]; rfl⟩

/-- An uncertain quantity `3 km ± 2 m`. -/
example (a b : NDArr ℝ) : ∃ n, ∀ fuel, n ≤ fuel → ∃ p,
    dumpArray exWorld fuel ⟨.uncertain, a, dKm, some (b, dM)⟩ = .ok p ∧
      ∃ y c', loadArray P F exWorld p = (.ok y, { exWorld with counters := c' }) ∧
        SameArray exWorld ⟨.uncertain, a, dKm, some (b, dM)⟩ y :=
  C40_same_process Evolves.refl exWorld_reachable ⟨rfl, rfl⟩ _ (by simp) (ex_dimOK _ (by simp))
    (by intro a d h; simp only [Option.some.injEq, Prod.mk.injEq] at h; rw [← h.2]
        exact ex_dimOK _ (by simp)) exCreated

/-- The state after the failed attempt to create `foo`. -/
noncomputable def exWorldFoo : World ℝ := ((Op.newUnit exFoo).run exWorld).2

/-- C78 is false for a unit whose constructor raised half-way: `UnitLength('foo', 2*m, symbol='m')`
raises `KeyError` because the symbol is taken, but `foo` is registered by then, so the unit can be got
from the registry and pickled; unpickling it raises `KeyError`. -/
theorem C78_false_half_registered : get? exWorldFoo.registry "foo" = some ⟨.length, "foo"⟩ ∧
    ∃ t, dumpUnit exWorldFoo 3 ⟨.length, "foo"⟩ = .ok t ∧
      (loadUnit P F exWorldFoo t).1 = .error .keyError := by
  have hne : (exWorld.construct exFoo).unitEq ⟨.length, "foo"⟩ uM = false := by
    by_contra hc
    rw [Bool.not_eq_false] at hc
    refine exFoo_diff fun v => ?_
    have hw1 : WF (exWorld.construct exFoo) := exWorld_wf.construct exFoo exFoo_valid exFoo_fresh
    have hk : ∀ u ∈ [uM, ⟨.length, "foo"⟩], u ∈ (exWorld.construct exFoo).units.map Prod.fst := by
      rw [show (exWorld.construct exFoo).units.map Prod.fst =
        [⟨.dimensionless, "dimensionless"⟩, uM, uKm, uS, uHz, ⟨.length, "foo"⟩] from rfl]
      simp
    have := eqS_meaning hw1 (a := ⟨1, unitDim ⟨.length, "foo"⟩⟩) (b := ⟨1, unitDim uM⟩)
      (unitDim_ok (hk ⟨.length, "foo"⟩ (by simp))) (unitDim_ok (hk uM (by simp))) exFoo_safe hc v
    simpa [Valuation.scalar, exFoo] using this.symm
  have hall : (exWorld.construct exFoo).registryAll ⟨.length, "foo"⟩ ["foo", "m"] =
      (some .keyError, { exWorld.construct exFoo with
        registry := Dict.set exWorld.registry "foo" ⟨.length, "foo"⟩ }) := by
    rw [World.registryAll]
    unfold World.registrySet
    rw [show get? (exWorld.construct exFoo).registry "foo" = none from rfl]
    simp only
    rw [World.registryAll]
    unfold World.registrySet
    rw [show get? (Dict.set (exWorld.construct exFoo).registry "foo" (⟨.length, "foo"⟩ : UKey)) "m" = some uM from rfl]
    simp only
    rw [if_neg]
    · rfl
    · have : ({ exWorld.construct exFoo with registry := Dict.set (exWorld.construct exFoo).registry "foo" (⟨.length, "foo"⟩ : UKey) } : World ℝ).unitEq
          ⟨.length, "foo"⟩ uM = (exWorld.construct exFoo).unitEq ⟨.length, "foo"⟩ uM := rfl
      rw [this, hne]
      simp
  have hfoo : exWorldFoo = { exWorld.construct exFoo with
      registry := Dict.set exWorld.registry "foo" ⟨.length, "foo"⟩ } := by
    unfold exWorldFoo Op.run World.newUnit
    simp only
    rw [show labelsOf exFoo.cls exFoo.name exFoo.symbol exFoo.aliases = ["foo", "m"] from rfl,
      show (⟨exFoo.cls, exFoo.name⟩ : UKey) = ⟨.length, "foo"⟩ from rfl]
    simp only [hall]
    rw [if_pos]
    rfl
  have hcm : Created P F exH exWorldFoo uM :=
    Created.later (Op.newUnit exFoo) (exCreated uM (by rw [exKeys]; simp)) exFoo_valid
  obtain ⟨im, hkm⟩ := hcm.known ⟨by rw [hfoo]; rfl, by rw [hfoo]; rfl⟩
  have him : im = ⟨none, none, some "m", none, [], im.order⟩ := by
    have h1 := hkm.same
    rw [hfoo] at h1
    have h2 : some im = exWorld.info uM := h1.symm
    have h3 : exWorld.info uM = some ⟨none, none, some "m", none, [], (UClass.length.primaryOrder, 0)⟩ := rfl
    rw [h3, Option.some.injEq] at h2
    rw [h2]
  refine ⟨by rw [hfoo]; rfl, ?_⟩
  have hif : ∃ o, exWorldFoo.info ⟨.length, "foo"⟩ = some ⟨some ⟨2, dM⟩, some (exWorld.reference ⟨2, dM⟩), some "m", none, [], o⟩ := by
    rw [hfoo]; exact ⟨_, rfl⟩
  obtain ⟨o, hif⟩ := hif
  refine ⟨.full .length "foo" (.some 2 (.cons (.full .length "meter" .none (some "m") none [] im.order) 1 .nil))
    (some "m") none [] o, ?_, ?_⟩
  · rw [dumpUnit, hif]
    simp only [reduceCtorEq, or_self, if_false]
    rw [show dM = [(uM, 1)] from rfl, dumpDims, dumpUnit, hkm.same, him]
    simp only [uM, reduceCtorEq, or_self, if_false, dumpDims]
  · obtain ⟨c', hin⟩ := instantiate_known hkm exWorldFoo.counters
      ⟨none, none, some "m", none, [], (UClass.length.primaryOrder, exWorldFoo.counter .length)⟩
      (by rw [him])
    have hin' : exWorldFoo.instantiate ⟨.length, "meter"⟩
      ⟨none, none, some "m", none, [], (UClass.length.primaryOrder, exWorldFoo.counter .length)⟩ im.order =
      (.ok ⟨uM, im⟩, { exWorldFoo with counters := c' }) := hin
    rw [loadUnit, loadDef, loadDims, loadUnit, loadDef]
    simp only [Option.map_none]
    rw [hin']
    simp only
    rw [loadDims]
    simp only
    unfold World.instantiate
    have hb : ∀ (w2 : World ℝ), w2.registry = exWorldFoo.registry → w2.units = exWorldFoo.units →
        w2.hasher = exWorldFoo.hasher →
        (w2.registryAll ⟨.length, "foo"⟩ ["foo", "m"]).1 = some .keyError := by
      intro w2 e1 e2 e3
      refine registryAll_conflict w2 _ _ "m" uM (by simp) ?_ ?_
      · rw [e1, hfoo]; rfl
      · rw [← hne]
        rcases w2 with ⟨x1, x2, x3, x4, x5⟩
        simp only at e1 e2 e3
        subst e1 e2 e3
        rw [hfoo]
        rfl
    have hfr : (({ exWorldFoo with counters := c' } : World ℝ).info ⟨.length, "foo"⟩).isNone = false := by
      have : ({ exWorldFoo with counters := c' } : World ℝ).info ⟨.length, "foo"⟩ = exWorldFoo.info ⟨.length, "foo"⟩ := rfl
      rw [this, hif]; rfl
    simp only [hfr, Bool.false_eq_true, if_false]
    rw [show labelsOf .length "foo" (some "m") [] = ["foo", "m"] from rfl]
    generalize hg : World.registryAll (K := ℝ) _ (⟨.length, "foo"⟩ : UKey) ["foo", "m"] = r
    have hr1 : r.1 = some .keyError := by
      rw [← hg]
      exact hb _ rfl rfl rfl
    obtain ⟨e, w3⟩ := r
    simp only at hr1
    subst hr1
    rfl

end
end PQ
