import Verif.Lemmas.World

/-! # Every reachable world satisfies the invariant -/

namespace PQ

open Dict LawfulRPow World

variable {K : Type _}

theorem set_fresh {κ ν : Type _} [DecidableEq κ] {d : Dict κ ν} {k : κ} {v : ν}
    (h : get? d k = none) : Dict.set d k v = d ++ [(k, v)] := by
  induction d with
  | nil => rfl
  | cons a d ih =>
    obtain ⟨a, b⟩ := a
    by_cases h1 : a = k
    · simp [get?_cons, h1] at h
    · simp only [get?_cons, h1, if_false] at h
      simp [Dict.set, h1, ih h]

theorem info_known {w : World K} {u : UKey} (h : u ∈ w.units.map Prod.fst) :
    ∃ i, w.info u = some i := by
  rcases hg : w.info u with _ | i
  · exact absurd h ((get?_eq_none_iff _ _).1 hg)
  · exact ⟨i, rfl⟩

theorem known_of_info {w : World K} {u : UKey} {i : UnitInfo K} (h : w.info u = some i) :
    u ∈ w.units.map Prod.fst := by
  by_contra hc
  rw [← get?_eq_none_iff] at hc
  rw [World.info, hc] at h; exact absurd h (by simp)

theorem DimOK.mono {w w' : World K} (h : ∀ u, u ∈ w.units.map Prod.fst → u ∈ w'.units.map Prod.fst)
    {d : Dim} (hd : DimOK w d) : DimOK w' d :=
  ⟨hd.canon, fun kv hk => h _ (hd.known kv hk), hd.notDimless⟩

theorem refFold_congr [One K] [Mul K] [RPow K] {w w' : World K} {d : Dim}
    (h : ∀ kv ∈ d, w'.convRef kv.1 = w.convRef kv.1) (rq : SQ K) :
    d.foldl (refStep w') rq = d.foldl (refStep w) rq := by
  induction d generalizing rq with
  | nil => rfl
  | cons kv d ih =>
    have e : refStep w' rq kv = refStep w rq kv := by
      simp only [refStep, World.unitRef, h kv (by simp)]
    rw [List.foldl_cons, List.foldl_cons, e, ih (fun x hx => h x (by simp [hx]))]

/-- References of existing units do not depend on units defined later. -/
theorem refUnits_congr [One K] [Mul K] [RPow K] {w w' : World K} {d : Dim}
    (h : ∀ kv ∈ d, w'.convRef kv.1 = w.convRef kv.1) : w'.refUnits d = w.refUnits d :=
  refFold_congr h _

section
variable [Field K] [LinearOrder K] [RPow K]

/-- A valuation of a larger world is a valuation of the smaller one. -/
def Valuation.restrict {w w' : World K} (h : ∀ u i, w.info u = some i → w'.info u = some i)
    (v : Valuation w') : Valuation w :=
  ⟨v.val, v.pos, v.dimless, fun u i q hi hq => v.defined u i q (h u i hi) hq⟩

end

section
variable [Field K] [LinearOrder K] [IsStrictOrderedRing K] [RPow K] [LawfulRPow K]

theorem WF.extend {w w' : World K} (hw : WF w) (key : UKey)
    (hinfo : ∀ u i, w.info u = some i → w'.info u = some i)
    (hnew : ∀ u i, w'.info u = some i → w.info u = some i ∨ (u = key ∧
      i.convRef = i.definition.map w.reference ∧
      (∀ q, i.definition = some q → 0 < q.mag ∧ DimOK w q.dim) ∧
      (u.cls = .dimensionless → i.definition = none)))
    (hnodup : Dict.Nodup w'.units)
    (hdef : ∀ c d, w'.defaults c = some d → DimOK w' d)
    (hreg : ∀ l u, Dict.get? w'.registry l = some u → u ∈ w'.units.map Prod.fst) : WF w' := by
  have hkeys : ∀ u, u ∈ w.units.map Prod.fst → u ∈ w'.units.map Prod.fst := by
    intro u hu
    obtain ⟨i, hi⟩ := info_known hu
    exact known_of_info (hinfo u i hi)
  have hconv : ∀ u, u ∈ w.units.map Prod.fst → w'.convRef u = w.convRef u := by
    intro u hu
    obtain ⟨i, hi⟩ := info_known hu
    rw [convRef_of_info hi, convRef_of_info (hinfo u i hi)]
  have href : ∀ d, DimOK w d → w'.refUnits d = w.refUnits d := fun d hd =>
    refUnits_congr fun kv hk => hconv _ (hd.known kv hk)
  have hrefq : ∀ q : SQ K, DimOK w q.dim → w'.reference q = w.reference q := by
    intro q hq; simp only [World.reference, href _ hq]
  have hbase : ∀ d, BaseDim w d → BaseDim w' d := fun d hd =>
    ⟨hd.toDimOK.mono hkeys, fun kv hk => by rw [hconv _ (hd.known kv hk)]; exact hd.base kv hk⟩
  have hconvnew : ∀ u r, w'.convRef u = some r →
      w.convRef u = some r ∨ ∃ q, 0 < q.mag ∧ DimOK w q.dim ∧ r = w.reference q ∧
        u.cls ≠ .dimensionless ∧ ∃ i, w'.info u = some i ∧ i.definition = some q := by
    intro u r hr
    rcases hi : w'.info u with _ | i
    · simp [World.convRef, hi] at hr
    · rw [convRef_of_info hi] at hr
      rcases hnew u i hi with h | ⟨_, h2, h3, h4⟩
      · left; rw [convRef_of_info h, hr]
      · right
        rw [h2] at hr
        rcases hq : i.definition with _ | q
        · simp [hq] at hr
        · rw [hq] at hr
          simp only [Option.map_some, Option.some.injEq] at hr
          obtain ⟨p1, p2⟩ := h3 q hq
          refine ⟨q, p1, p2, hr.symm, ?_, i, rfl, hq⟩
          intro hc; rw [h4 hc] at hq; exact absurd hq (by simp)
  refine ⟨hnodup, ?_, ?_, ?_, ?_, ?_, hdef, hreg⟩
  · intro u i hi
    rcases hnew u i hi with h | ⟨_, h2, h3, _⟩
    · rw [hw.conv u i h]
      rcases hq : i.definition with _ | q
      · rfl
      · simp only [Option.map_some]; rw [hrefq q (hw.defOK u i q h hq).2]
    · rw [h2]
      rcases hq : i.definition with _ | q
      · rfl
      · simp only [Option.map_some]; rw [hrefq q (h3 q hq).2]
  · intro u i q hi hq
    rcases hnew u i hi with h | ⟨_, _, h3, _⟩
    · obtain ⟨p1, p2⟩ := hw.defOK u i q h hq
      exact ⟨p1, p2.mono hkeys⟩
    · obtain ⟨p1, p2⟩ := h3 q hq
      exact ⟨p1, p2.mono hkeys⟩
  · intro u r hr
    rcases hconvnew u r hr with h | ⟨q, p1, p2, rfl, _⟩
    · obtain ⟨p1, p2⟩ := hw.refBase u r h
      exact ⟨p1, hbase _ p2⟩
    · obtain ⟨r1, r2, _⟩ := refUnits_spec hw p2
      exact ⟨mul_pos r1 p1, hbase _ r2⟩
  · intro u r v hr
    let v0 : Valuation w := v.restrict hinfo
    rcases hconvnew u r hr with h | ⟨q, p1, p2, rfl, _, i, hi, hq⟩
    · exact hw.refSize u r v0 h
    · obtain ⟨r1, r2, r3⟩ := refUnits_spec hw p2
      have h1 := r3 v0
      have h2 := v.defined u i q hi hq
      change v.val u = (w.refUnits q.dim).mag * q.mag * dsize v.val (w.refUnits q.dim).dim
      rw [h2]
      change (w.refUnits q.dim).mag * dsize v.val (w.refUnits q.dim).dim = dsize v.val q.dim at h1
      rw [← h1]; ring
  · intro u hu
    rcases h : w'.convRef u with _ | r
    · rfl
    · rcases hconvnew u r h with h | ⟨q, _, _, _, hc, _⟩
      · rw [hw.dimless u hu] at h; exact absurd h (by simp)
      · exact absurd hu hc

end

/-! ### Registering labels -/

section
variable [One K] [Mul K] [RPow K] [Div K] [DecidableEq K]

/-- `registrySet` changes at most the registry, and only by adding one new binding. -/
theorem registrySet_spec (w : World K) (l : String) (u : UKey) :
    ∃ reg, (w.registrySet l u).2 = { w with registry := reg } ∧
      (∀ l' x, get? reg l' = some x → get? w.registry l' = some x ∨ (x = u ∧ l' = l)) ∧
      (∀ l' x, get? w.registry l' = some x → get? reg l' = some x) := by
  unfold World.registrySet
  rcases h : get? w.registry l with _ | v
  · refine ⟨Dict.set w.registry l u, rfl, ?_, ?_⟩
    · intro l' x hx
      rw [get?_set] at hx
      split at hx
      · rename_i e; simp only [Option.some.injEq] at hx; exact Or.inr ⟨hx.symm, e.symm⟩
      · exact Or.inl hx
    · intro l' x hx
      rw [get?_set]
      split
      · rename_i e; subst e; rw [h] at hx; exact absurd hx (by simp)
      · exact hx
  · refine ⟨w.registry, ?_, fun _ _ h => Or.inl h, fun _ _ h => h⟩
    simp only; split <;> rfl

theorem registryAll_spec (w : World K) (u : UKey) (ls : List String) :
    ∃ reg, (w.registryAll u ls).2 = { w with registry := reg } ∧
      (∀ l' x, get? reg l' = some x → get? w.registry l' = some x ∨ (x = u ∧ l' ∈ ls)) ∧
      (∀ l' x, get? w.registry l' = some x → get? reg l' = some x) := by
  induction ls generalizing w with
  | nil => exact ⟨w.registry, rfl, fun _ _ h => Or.inl h, fun _ _ h => h⟩
  | cons l ls ih =>
    obtain ⟨reg, h1, h2, h3⟩ := registrySet_spec w l u
    simp only [World.registryAll]
    rcases hs : w.registrySet l u with ⟨_ | e, w'⟩
    · simp only
      rw [hs] at h1; simp only at h1; subst h1
      obtain ⟨reg', g1, g2, g3⟩ := ih { w with registry := reg }
      refine ⟨reg', g1, ?_, fun l' x hx => g3 l' x (h3 l' x hx)⟩
      intro l' x hx
      rcases g2 l' x hx with h | ⟨h, hm⟩
      · rcases h2 l' x h with h | ⟨h, hm⟩
        · exact Or.inl h
        · exact Or.inr ⟨h, by simp [hm]⟩
      · exact Or.inr ⟨h, by simp [hm]⟩
    · simp only
      rw [hs] at h1; simp only at h1
      refine ⟨reg, h1, ?_, h3⟩
      intro l' x hx
      rcases h2 l' x hx with h | ⟨h, hm⟩
      · exact Or.inl h
      · exact Or.inr ⟨h, by simp [hm]⟩

/-- What a constructor call does to the world. -/
theorem newUnit_spec (w : World K) (a : NewUnit K) :
    let w' := (w.newUnit a).2
    let key : UKey := ⟨a.cls, a.name⟩
    w'.hasher = w.hasher ∧
    (w'.units = w.units ∨ (w.info key = none ∧ ∃ n, w'.units = w.units ++ [(key,
      { definition := a.definition.toDef, convRef := a.definition.toDef.map w.reference,
        symbol := a.symbol, uSymbol := a.uSymbol, aliases := a.aliases, order := n })])) ∧
    (∀ l u, get? w'.registry l = some u → get? w.registry l = some u ∨
      (u = key ∧ l ∈ labelsOf a.cls a.name a.symbol a.aliases ∧ key ∈ w'.units.map Prod.fst)) ∧
    (∀ l u, get? w.registry l = some u → get? w'.registry l = some u) ∧
    (∀ c d, w'.defaults c = some d → w.defaults c = some d ∨
      (c = a.cls ∧ w.defaults c = none ∧ d = unitDim key ∧ key ∈ w'.units.map Prod.fst)) ∧
    (∀ c d, w.defaults c = some d → w'.defaults c = some d) := by
  intro w' key
  have hw' : w' = (w.newUnit a).2 := rfl
  clear_value w'
  simp only [World.newUnit, World.construct] at hw'
  -- the intermediate world
  generalize hw1 : ({ w with
      counters := fun c => if c = a.cls then some (if decide (a.cls = .dimensionless) then
        w.counter a.cls + 2 else w.counter a.cls + 1) else w.counters c
      units := match w.info ⟨a.cls, a.name⟩ with
        | some _ => w.units
        | none => Dict.set w.units ⟨a.cls, a.name⟩
          { definition := a.definition.toDef, convRef := a.definition.toDef.map w.reference,
            symbol := a.symbol, uSymbol := a.uSymbol, aliases := a.aliases,
            order := (a.cls.primaryOrder, if decide (a.cls = .dimensionless) then
              w.counter a.cls + 1 else w.counter a.cls) } } : World K) = w1 at hw'
  have u1 : w1.units = w.units ∨ (w.info key = none ∧ ∃ n, w1.units = w.units ++ [(key,
      { definition := a.definition.toDef, convRef := a.definition.toDef.map w.reference,
        symbol := a.symbol, uSymbol := a.uSymbol, aliases := a.aliases, order := n })]) := by
    subst hw1
    simp only
    rcases h : w.info ⟨a.cls, a.name⟩ with _ | i
    · right; exact ⟨rfl, _, set_fresh h⟩
    · left; rfl
  have k1 : key ∈ w1.units.map Prod.fst := by
    rcases h : w.info key with _ | i
    · have e : w1.units = Dict.set w.units key
          { definition := a.definition.toDef, convRef := a.definition.toDef.map w.reference,
            symbol := a.symbol, uSymbol := a.uSymbol, aliases := a.aliases,
            order := (a.cls.primaryOrder, if decide (a.cls = .dimensionless) then
              w.counter a.cls + 1 else w.counter a.cls) } := by
        subst hw1; simp only [key] at h; simp only [h]; rfl
      rw [e, mem_keys_set]; exact Or.inl rfl
    · rcases u1 with u1 | ⟨u1, _⟩
      · rw [u1]; exact known_of_info h
      · rw [u1] at h; exact absurd h (by simp)
  have r1 : w1.registry = w.registry := by subst hw1; rfl
  have d1 : w1.defaults = w.defaults := by subst hw1; rfl
  have h1 : w1.hasher = w.hasher := by subst hw1; rfl
  clear hw1
  obtain ⟨reg, e1, e2, e3⟩ := registryAll_spec w1 key (labelsOf a.cls a.name a.symbol a.aliases)
  rw [r1] at e2 e3
  rcases hr : w1.registryAll key (labelsOf a.cls a.name a.symbol a.aliases) with ⟨err, w2⟩
  rw [hr] at e1
  simp only at e1
  rw [show (⟨a.cls, a.name⟩ : UKey) = key from rfl, hr] at hw'
  subst e1
  rcases err with _ | err
  · simp only at hw'
    have base : ∀ l u, get? reg l = some u → get? w.registry l = some u ∨
          (u = key ∧ l ∈ labelsOf a.cls a.name a.symbol a.aliases ∧
            key ∈ w1.units.map Prod.fst) := by
      intro l u h
      rcases e2 l u h with h | ⟨h, hm⟩
      · exact Or.inl h
      · exact Or.inr ⟨h, hm, k1⟩
    split at hw'
    · rename_i hc
      subst hw'
      refine ⟨h1, u1, base, e3, ?_, ?_⟩
      · intro c d hd
        simp only at hd
        split at hd
        · rename_i e
          simp only [Option.some.injEq] at hd
          right
          refine ⟨e, ?_, hd.symm, k1⟩
          simp only [Bool.and_eq_true, Option.isNone_iff_eq_none] at hc
          rw [e, ← d1]; exact hc.2
        · left; rw [← d1]; exact hd
      · intro c d hd
        simp only
        simp only [Bool.and_eq_true, Option.isNone_iff_eq_none] at hc
        split
        · rename_i e; subst e; rw [← d1, hc.2] at hd; exact absurd hd (by simp)
        · rw [d1]; exact hd
    · subst hw'
      refine ⟨h1, u1, base, e3, ?_, ?_⟩
      · intro c d hd; left; rw [← d1]; exact hd
      · intro c d hd; simp only; rw [d1]; exact hd
  · simp only at hw'
    split at hw'
    · subst hw'
      refine ⟨h1, u1, ?_, e3, ?_, ?_⟩
      · intro l u h
        rcases e2 l u h with h | ⟨h, hm⟩
        · exact Or.inl h
        · exact Or.inr ⟨h, hm, k1⟩
      · intro c d hd; left; rw [← d1]; exact hd
      · intro c d hd; simp only; rw [d1]; exact hd
    · rename_i hn
      subst hw'
      refine ⟨h1, Or.inl rfl, ?_, e3, ?_, ?_⟩
      · intro l u h
        rcases e2 l u h with h | ⟨h', hm⟩
        · exact Or.inl h
        · exfalso
          apply hn
          simp only [List.any_eq_true, decide_eq_true_eq]
          exact ⟨(l, u), mem_of_get? h, h'⟩
      · intro c d hd; left; rw [← d1]; exact hd
      · intro c d hd; simp only; rw [d1]; exact hd

/-- What changing a default does to the world. -/
theorem setDefault_spec (w : World K) (c : UClass) (a : Option (DefaultArg K)) :
    (w.setDefault c a).2 = w ∨ ∃ x cur cf, a = some x ∧ w.defaults c = some cur ∧ x.mag = 1 ∧
      w.convFactor cur x.dim = .ok cf ∧ (w.setDefault c a).1 = none ∧
      (w.setDefault c a).2 =
        { w with defaults := fun c' => if c' = c then some x.dim else w.defaults c' } := by
  unfold World.setDefault
  rcases a with _ | x
  · exact Or.inl rfl
  · rcases hd : w.defaults c with _ | cur
    · exact Or.inl rfl
    · simp only
      split
      · rename_i hm
        rcases hc : w.convFactor cur x.dim with e | cf
        · exact Or.inl rfl
        · right
          refine ⟨x, cur, cf, rfl, rfl, hm, hc, rfl, rfl⟩
      · exact Or.inl rfl

end

section
variable [Field K] [LinearOrder K] [IsStrictOrderedRing K] [RPow K] [LawfulRPow K]

omit [IsStrictOrderedRing K] [LawfulRPow K] in
theorem WF.init (h : Hasher) : WF (World.init h : World K) := by
  have hi : ∀ u, (World.init h : World K).info u = none := fun _ => rfl
  have hc : ∀ u, (World.init h : World K).convRef u = none := fun _ => rfl
  refine ⟨by simp [World.init, Dict.Nodup], ?_, ?_, ?_, ?_, fun u _ => hc u, ?_, ?_⟩
  · intro u i h; rw [hi] at h; exact absurd h (by simp)
  · intro u i q h; rw [hi] at h; exact absurd h (by simp)
  · intro u r h; rw [hc] at h; exact absurd h (by simp)
  · intro u r v h; rw [hc] at h; exact absurd h (by simp)
  · intro c d h; simp [World.init] at h
  · intro l u h; simp [World.init] at h

omit [Field K] [LinearOrder K] [IsStrictOrderedRing K] [RPow K] [LawfulRPow K] in
theorem info_append {w w' : World K} {key : UKey} {i0 : UnitInfo K}
    (h : w'.units = w.units ++ [(key, i0)]) (hk : w.info key = none) (u : UKey) :
    w'.info u = if u = key then some i0 else w.info u := by
  have : w'.units = Dict.set w.units key i0 := by rw [h, set_fresh hk]
  rw [World.info, this, get?_set]
  by_cases e : key = u
  · simp [e]
  · simp [e, Ne.symm e, World.info]

theorem WF.newUnit {w : World K} (hw : WF w) (a : NewUnit K) (hv : (Op.newUnit a).Valid w) :
    WF (w.newUnit a).2 := by
  obtain ⟨_, h2, h3, _, h5, _⟩ := newUnit_spec w a
  obtain ⟨v1, v2⟩ := hv
  have hkeys : ∀ u, u ∈ w.units.map Prod.fst → u ∈ (w.newUnit a).2.units.map Prod.fst := by
    intro u hu
    rcases h2 with h2 | ⟨_, n, h2⟩ <;> rw [h2]
    · exact hu
    · simp only [List.map_append, List.mem_append]; exact Or.inl hu
  refine WF.extend hw ⟨a.cls, a.name⟩ ?_ ?_ ?_ ?_ ?_
  · intro u i hi
    rcases h2 with h2 | ⟨hn, n, h2⟩
    · rw [World.info, h2]; exact hi
    · rw [info_append h2 hn]
      split
      · rename_i e; subst e; rw [hn] at hi; exact absurd hi (by simp)
      · exact hi
  · intro u i hi
    rcases h2 with h2 | ⟨hn, n, h2⟩
    · left; rw [World.info, h2] at hi; exact hi
    · rw [info_append h2 hn] at hi
      split at hi
      · rename_i e
        right
        simp only [Option.some.injEq] at hi
        subst hi; subst e
        exact ⟨rfl, rfl, v1, v2⟩
      · exact Or.inl hi
  · rcases h2 with h2 | ⟨hn, n, h2⟩
    · rw [h2]; exact hw.nodup
    · rw [h2, ← set_fresh hn]; exact nodup_set hw.nodup _ _
  · intro c d hd
    rcases h5 c d hd with h | ⟨_, _, rfl, hk⟩
    · exact (hw.defaultsOK c d h).mono hkeys
    · exact unitDim_ok hk
  · intro l u hu
    rcases h3 l u hu with h | ⟨rfl, _, hk⟩
    · exact hkeys _ (hw.registered l u h)
    · exact hk

theorem WF.setDefault {w : World K} (hw : WF w) (c : UClass) (a : Option (DefaultArg K))
    (hv : (Op.setDefault c a).Valid w) : WF (w.setDefault c a).2 := by
  rcases setDefault_spec w c a with h | ⟨x, cur, cf, ha, _, _, _, _, h⟩
  · rw [h]; exact hw
  · rw [h]
    refine WF.extend hw ⟨.length, ""⟩ (fun u i hi => hi) (fun u i hi => Or.inl hi) hw.nodup ?_ ?_
    · intro c' d hd
      simp only at hd
      split at hd
      · simp only [Option.some.injEq] at hd; subst hd
        exact ⟨(hv x ha).canon, (hv x ha).known, (hv x ha).notDimless⟩
      · have := hw.defaultsOK c' d hd
        exact ⟨this.canon, this.known, this.notDimless⟩
    · exact hw.registered

omit [IsStrictOrderedRing K] [LawfulRPow K] in
/-- The units after `__new__` of a unit with a new class and name. -/
theorem construct_units {w : World K} {a : NewUnit K} (hf : w.info ⟨a.cls, a.name⟩ = none) :
    ∃ n, (w.construct a).units = w.units ++ [(⟨a.cls, a.name⟩,
      { definition := a.definition.toDef, convRef := a.definition.toDef.map w.reference,
        symbol := a.symbol, uSymbol := a.uSymbol, aliases := a.aliases, order := n })] := by
  simp only [World.construct, hf]
  exact ⟨_, set_fresh hf⟩

/-- The state between `__new__` and `__init__` is well formed. -/
theorem WF.construct {w : World K} (hw : WF w) (a : NewUnit K) (hv : (Op.newUnit a).Valid w)
    (hf : w.info ⟨a.cls, a.name⟩ = none) : WF (w.construct a) := by
  obtain ⟨n, h2⟩ := construct_units hf
  obtain ⟨v1, v2⟩ := hv
  have hinfo := fun u => info_append (w' := w.construct a) h2 hf u
  have hkeys : ∀ u, u ∈ w.units.map Prod.fst → u ∈ (w.construct a).units.map Prod.fst := by
    intro u hu
    rw [h2, List.map_append, List.mem_append]; exact Or.inl hu
  refine WF.extend hw ⟨a.cls, a.name⟩ ?_ ?_ ?_ ?_ ?_
  · intro u i hi
    rw [hinfo]
    split
    · rename_i e; subst e; rw [hf] at hi; exact absurd hi (by simp)
    · exact hi
  · intro u i hi
    rw [hinfo] at hi
    split at hi
    · rename_i e
      right
      simp only [Option.some.injEq] at hi
      subst hi; subst e
      exact ⟨rfl, rfl, v1, v2⟩
    · exact Or.inl hi
  · rw [h2, ← set_fresh hf]; exact nodup_set hw.nodup _ _
  · exact fun c d hd => (hw.defaultsOK c d hd).mono hkeys
  · exact fun l u hu => hkeys _ (hw.registered l u hu)

/-- Every reachable world satisfies the invariant. -/
theorem Reachable.wf {h : Hasher} {w : World K} (hr : Reachable h w) : WF w := by
  induction hr with
  | init => exact WF.init h
  | step op _ hv ih =>
    cases op with
    | newUnit a => exact ih.newUnit a hv
    | setDefault c a => exact ih.setDefault c a hv

end
end PQ
