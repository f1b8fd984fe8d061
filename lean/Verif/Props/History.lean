import Verif.Model.Defaults
import Verif.Spec.History
import Verif.Lemmas.Simplified
import Verif.Lemmas.ExampleSimplify

/-!
# Properties C21, C22, C23, C47: default units, labels, units as keys
-/

namespace PQ

open Dict LawfulRPow World

/-! ## What no operation changes -/

section
variable {K : Type _}

theorem deq_hasher {w w' : World K} (h : w'.hasher = w.hasher) (a b : Dim) : w'.deq a b = w.deq a b := by
  unfold World.deq Dim.eq
  rw [h, hash_perm w.hasher w'.order w.order (List.Perm.refl a),
    hash_perm w.hasher w'.order w.order (List.Perm.refl b)]

end

variable {K : Type _} [Field K] [LinearOrder K] [IsStrictOrderedRing K] [RPow K] [LawfulRPow K]
variable {h : Hasher}

/-- An operation keeps the hash function, every unit already created, every label, and the existence
of defaults. -/
theorem run_keeps (w : World K) (op : Op K) :
    (op.run w).2.hasher = w.hasher ∧
    (∀ u i, w.info u = some i → (op.run w).2.info u = some i) ∧
    (∀ l u, get? w.registry l = some u → get? (op.run w).2.registry l = some u) := by
  cases op with
  | newUnit a =>
    obtain ⟨h1, h2, -, h4, -⟩ := newUnit_spec w a
    refine ⟨h1, ?_, h4⟩
    intro u i hi
    rcases h2 with h2 | ⟨h0, n, h2⟩
    · change get? _ _ = _
      simp only [Op.run]
      rw [h2]; exact hi
    · have := info_append (w' := (w.newUnit a).2) h2 h0 u
      simp only [Op.run]
      rw [this]
      split
      · rename_i e; subst e; rw [h0] at hi; exact absurd hi (by simp)
      · exact hi
  | setDefault c a =>
    rcases setDefault_spec w c a with e | ⟨x, cur, cf, -, -, -, -, -, e⟩
    · simp only [Op.run]; rw [e]; exact ⟨rfl, fun _ _ h => h, fun _ _ h => h⟩
    · simp only [Op.run]; rw [e]; exact ⟨rfl, fun _ _ h => h, fun _ _ h => h⟩

theorem evolves_keeps {w w' : World K} (he : Evolves w w') :
    w'.hasher = w.hasher ∧ (∀ u i, w.info u = some i → w'.info u = some i) ∧
    (∀ l u, get? w.registry l = some u → get? w'.registry l = some u) := by
  induction he with
  | refl => exact ⟨rfl, fun _ _ h => h, fun _ _ h => h⟩
  | step op _ _ ih =>
    obtain ⟨k1, k2, k3⟩ := run_keeps _ op
    exact ⟨k1.trans ih.1, fun u i hi => k2 u i (ih.2.1 u i hi), fun l u hl => k3 l u (ih.2.2 l u hl)⟩

omit [IsStrictOrderedRing K] [LawfulRPow K] in
theorem Reachable.evolves {w w' : World K} (hr : Reachable h w) (he : Evolves w w') :
    Reachable h w' := by
  induction he with
  | refl => exact hr
  | step op _ hv ih => exact Reachable.step op ih hv

theorem dimOK_evolves {w w' : World K} (he : Evolves w w') {d : Dim} (hd : DimOK w d) : DimOK w' d :=
  hd.mono fun u hu => by
    obtain ⟨i, hi⟩ := info_known hu
    exact known_of_info ((evolves_keeps he).2.1 u i hi)

theorem refUnits_evolves {w w' : World K} (he : Evolves w w') {d : Dim} (hd : DimOK w d) :
    w'.refUnits d = w.refUnits d :=
  refUnits_congr fun kv hkv => by
    obtain ⟨i, hi⟩ := info_known (hd.known kv hkv)
    rw [convRef_of_info hi, convRef_of_info ((evolves_keeps he).2.1 _ i hi)]

theorem convFactor_evolves {w w' : World K} (he : Evolves w w') {a b : Dim} (ha : DimOK w a)
    (hb : DimOK w b) : w'.convFactor a b = w.convFactor a b := by
  rw [convFactor_def, convFactor_def, refUnits_evolves he ha, refUnits_evolves he hb,
    deq_hasher (evolves_keeps he).1]

/-! ## C21 -/

/-- C21: no history of definitions and default changes, successful or not, alters the result of a
rescaling (or its exception) or a conversion factor between units that exist already. -/
theorem C21_conversions_stable {w w' : World K} (he : Evolves w w') (q : Quantity K) (d : Dim)
    (hq : DimOK w q.dim) (hd : DimOK w d) :
    q.rescale w' d = q.rescale w d ∧ w'.convFactor q.dim d = w.convFactor q.dim d := by
  refine ⟨?_, convFactor_evolves he hq hd⟩
  unfold Quantity.rescale
  rw [convFactor_evolves he hq hd, deq_hasher (evolves_keeps he).1]

/-- C21: no history alters what existing quantities mean: every consistent assignment of sizes after
the history is one before it, under which each existing quantity has the same physical value, and
existing units are compatible afterwards exactly when they were before. -/
theorem C21_values_stable {w w' : World K} (hw : Reachable h w) (he : Evolves w w') :
    (∀ v' : Valuation w', ∃ v : Valuation w, ∀ q : Quantity K, v.phys q = v'.phys q) ∧
    (∀ a b : Dim, DimOK w a → DimOK w b → (Compatible w' a b ↔ Compatible w a b)) := by
  refine ⟨fun v' => ⟨v'.restrict (evolves_keeps he).2.1, fun q => rfl⟩, fun a b ha hb => ?_⟩
  rw [compatible_iff (hw.evolves he).wf (dimOK_evolves he ha) (dimOK_evolves he hb),
    compatible_iff hw.wf ha hb, refUnits_evolves he ha, refUnits_evolves he hb]

/-- C21: a call of `set_default_unit` that raises changes nothing; one that returns changes only
the default of that class. -/
theorem C21_set_default_local (w : World K) (c : UClass) (a : Option (DefaultArg K)) :
    ((w.setDefault c a).1 ≠ none → (w.setDefault c a).2 = w) ∧
    (∀ c', c' ≠ c → (w.setDefault c a).2.defaults c' = w.defaults c') ∧
    (w.setDefault c a).2.units = w.units ∧ (w.setDefault c a).2.registry = w.registry := by
  rcases setDefault_spec w c a with e | ⟨x, cur, cf, -, -, -, -, hn, e⟩
  · rw [e]; exact ⟨fun _ => rfl, fun _ _ => rfl, rfl, rfl⟩
  · rw [e]
    refine ⟨fun hne => absurd hn hne, fun c' hc => ?_, rfl, rfl⟩
    simp [hc]

/-- One operation keeps each default convertible to what it was. -/
theorem default_step (w : World K) (op : Op K) (hw : Reachable h w) (hv : op.Valid w)
    (c : UClass) (d : Dim) (hd : w.defaults c = some d) :
    ∃ d', (op.run w).2.defaults c = some d' ∧
      w.deq (w.refUnits d).dim (w.refUnits d').dim = true ∧ DimOK w d' := by
  cases op with
  | newUnit a =>
    obtain ⟨-, -, -, -, -, h6⟩ := newUnit_spec w a
    exact ⟨d, h6 c d hd, deq_self _ _, hw.wf.defaultsOK c d hd⟩
  | setDefault c' a =>
    rcases setDefault_spec w c' a with e | ⟨x, cur, cf, ha, hcur, -, hcf, -, e⟩
    · refine ⟨d, ?_, deq_self _ _, hw.wf.defaultsOK c d hd⟩
      simp only [Op.run]; rw [e]; exact hd
    · simp only [Op.run]; rw [e]
      by_cases hc : c = c'
      · subst hc
        rw [hd] at hcur; simp only [Option.some.injEq] at hcur; subst hcur
        refine ⟨x.dim, by simp, ?_, hv x ha⟩
        rw [convFactor_def] at hcf
        split at hcf
        · assumption
        · exact absurd hcf (by simp)
      · exact ⟨d, by simp [hc, hd], deq_self _ _, hw.wf.defaultsOK c d hd⟩

/-- C21: once a class has a default, after any history it still has one, and the library converts
between the old default and the new one.  No assumption about hash collisions. -/
theorem C21_default_convertible {w w' : World K} (hw : Reachable h w) (he : Evolves w w')
    (c : UClass) (d : Dim) (hd : w.defaults c = some d) :
    ∃ d', w'.defaults c = some d' ∧ DimOK w' d' ∧ Returns (w'.convFactor d d') := by
  have hdo := hw.wf.defaultsOK c d hd
  have key : ∃ d', w'.defaults c = some d' ∧ DimOK w' d' ∧
      w'.deq (w'.refUnits d).dim (w'.refUnits d').dim = true := by
    induction he with
    | refl => exact ⟨d, hd, hdo, deq_self _ _⟩
    | @step w₁ op he₁ hv ih =>
      obtain ⟨d₁, h1, ok1, h2⟩ := ih
      have hr1 := hw.evolves he₁
      obtain ⟨d₂, h3, h4, ok2⟩ := default_step w₁ op hr1 hv c d₁ h1
      have e1 : Evolves w₁ (op.run w₁).2 := Evolves.step op Evolves.refl hv
      refine ⟨d₂, h3, dimOK_evolves e1 ok2, ?_⟩
      rw [refUnits_evolves e1 (dimOK_evolves he₁ hdo), refUnits_evolves e1 ok2,
        deq_hasher (evolves_keeps e1).1]
      unfold World.deq Dim.eq at h2 h4 ⊢
      rw [beq_iff_eq] at h2 h4 ⊢
      exact h2.trans h4
  obtain ⟨d', h1, h2, h3⟩ := key
  refine ⟨d', h1, h2, ?_⟩
  rw [convFactor_def, if_pos h3]
  exact returns_ok _

/-- C21: hence, barring a hash collision between the reference units, the default of a class has the
same physical dimension for ever. -/
theorem C21_default_dimension {w w' : World K} (hw : Reachable h w) (he : Evolves w w')
    (c : UClass) (d d' : Dim) (hd : w.defaults c = some d) (hd' : w'.defaults c = some d')
    (hs : NoColl w' (w'.refUnits d).dim (w'.refUnits d').dim) : Compatible w' d d' := by
  obtain ⟨d₁, h1, h2, h3⟩ := C21_default_convertible hw he c d hd
  rw [hd'] at h1; simp only [Option.some.injEq] at h1; subst h1
  exact (convFactor_returns (hw.evolves he).wf (dimOK_evolves he (hw.wf.defaultsOK c d hd)) h2 hs).1 h3

/-- C21: the first default of a class is the unit of that class whose construction set it. -/
theorem C21_first_default (w : World K) (op : Op K) (c : UClass) (d : Dim)
    (hn : w.defaults c = none) (hd : (op.run w).2.defaults c = some d) :
    ∃ u : UKey, u.cls = c ∧ d = unitDim u ∧ u ∈ (op.run w).2.units.map Prod.fst := by
  cases op with
  | newUnit a =>
    obtain ⟨-, -, -, -, h5, -⟩ := newUnit_spec w a
    rcases h5 c d hd with h5 | ⟨h5, -, h6, h7⟩
    · rw [hn] at h5; exact absurd h5 (by simp)
    · exact ⟨⟨a.cls, a.name⟩, h5.symm, h6, h7⟩
  | setDefault c' a =>
    rcases setDefault_spec w c' a with e | ⟨x, cur, cf, -, hcur, -, -, -, e⟩
    · simp only [Op.run] at hd; rw [e, hn] at hd; exact absurd hd (by simp)
    · simp only [Op.run] at hd; rw [e] at hd
      simp only at hd
      split at hd
      · rename_i hc; subst hc; rw [hn] at hcur; exact absurd hcur (by simp)
      · rw [hn] at hd; exact absurd hd (by simp)

/-- C21: if the first unit of each base-unit class has no definition, each class's default remains,
through any operation, convertible to a base unit of the class (what C19 and C20 assume). -/
theorem C21_good_defaults_step {w : World K} (hw : Reachable h w) (hg : GoodDefaults w) (op : Op K)
    (hv : op.Valid w)
    (hfirst : ∀ a, op = .newUnit a → w.defaults a.cls = none →
      (op.run w).2.convRef ⟨a.cls, a.name⟩ = none)
    (hsafe : ∀ c d x, op = .setDefault c (some x) → w.defaults c = some d →
      NoColl w (w.refUnits d).dim (w.refUnits x.dim).dim) :
    GoodDefaults (op.run w).2 := by
  have e1 : Evolves w (op.run w).2 := Evolves.step op Evolves.refl hv
  have hw' := hw.evolves e1
  have keep : ∀ d u₀, DimOK w d → u₀ ∈ w.units.map Prod.fst → w.convRef u₀ = none →
      Compatible w d (unitDim u₀) → u₀ ∈ (op.run w).2.units.map Prod.fst ∧
        (op.run w).2.convRef u₀ = none ∧ Compatible (op.run w).2 d (unitDim u₀) := by
    intro d u₀ hd hk hb hc
    obtain ⟨i, hi⟩ := info_known hk
    have hi' := (evolves_keeps e1).2.1 u₀ i hi
    refine ⟨known_of_info hi', ?_, ((C21_values_stable hw e1).2 _ _ hd (unitDim_ok hk)).2 hc⟩
    rw [convRef_of_info hi', ← convRef_of_info hi]; exact hb
  intro c d hd
  refine ⟨hw'.wf.defaultsOK c d hd, ?_⟩
  cases op with
  | newUnit a =>
    obtain ⟨-, -, -, -, h5, -⟩ := newUnit_spec w a
    rcases h5 c d hd with h5 | ⟨h5, h50, h6, h7⟩
    · obtain ⟨hok, u₀, g1, g2, g3, g4⟩ := hg c d h5
      exact ⟨u₀, g1, keep d u₀ hok g2 g3 g4⟩
    · subst h5
      exact ⟨⟨a.cls, a.name⟩, rfl, h7, hfirst a rfl h50, h6 ▸ compatible_refl _ _⟩
  | setDefault c' a =>
    rcases setDefault_spec w c' a with e | ⟨x, cur, cf, ha, hcur, -, hcf, -, e⟩
    · have hd' : w.defaults c = some d := by simp only [Op.run] at hd; rw [e] at hd; exact hd
      obtain ⟨hok, u₀, g1, g2, g3, g4⟩ := hg c d hd'
      exact ⟨u₀, g1, keep d u₀ hok g2 g3 g4⟩
    · have hdd := hd
      simp only [Op.run] at hdd; rw [e] at hdd
      simp only at hdd
      split at hdd
      · rename_i hc
        simp only [Option.some.injEq] at hdd
        subst hc hdd
        obtain ⟨hok, u₀, g1, g2, g3, g4⟩ := hg c cur hcur
        have hx : DimOK w x.dim := hv x ha
        have hcomp : Compatible w cur x.dim :=
          (convFactor_returns hw.wf hok hx (hsafe c cur x (by rw [ha]) hcur)).1 ⟨cf, hcf⟩
        exact ⟨u₀, g1, keep x.dim u₀ hx g2 g3
          (compatible_trans (compatible_symm hw.wf hcomp) g4)⟩
      · obtain ⟨hok, u₀, g1, g2, g3, g4⟩ := hg c d hdd
        exact ⟨u₀, g1, keep d u₀ hok g2 g3 g4⟩

/-- `UnitLength.set_default_unit('km')` in the example world. -/
noncomputable def exSetKm : Op ℝ := .setDefault .length (some ⟨1, dKm⟩)

example : exSetKm.Valid exWorld ∧ Evolves exWorld (exSetKm.run exWorld).2 ∧
    (exSetKm.run exWorld).1 = none := by
  have hv : exSetKm.Valid exWorld := by
    intro x hx
    simp only [Option.some.injEq] at hx
    subst hx
    exact ex_dimOK _ (by simp)
  refine ⟨hv, Evolves.step _ Evolves.refl hv, ?_⟩
  obtain ⟨cf, hcf⟩ := (convFactor_returns exWorld_wf (ex_dimOK dM (by simp)) (ex_dimOK dKm (by simp))
    ex_safe_m_km.refs).2 (compatible_symm exWorld_wf ex_compat)
  simp only [exSetKm, Op.run, World.setDefault, exDefaults, if_true, hcf]

/-! ## C23 -/

/-- C23: a registered label denotes the same unit for the rest of the process, whatever is defined
or attempted later. -/
theorem C23_label_stable {w w' : World K} (he : Evolves w w') (l : String) (u : UKey)
    (hl : get? w.registry l = some u) : get? w'.registry l = some u :=
  (evolves_keeps he).2.2 l u hl

omit [LinearOrder K] [IsStrictOrderedRing K] [LawfulRPow K] in
theorem registryAll_conflict [DecidableEq K] (w : World K) (u : UKey) (ls : List String) (l : String)
    (v : UKey) (hl : l ∈ ls) (hb : get? w.registry l = some v) (hne : w.unitEq u v = false) :
    (w.registryAll u ls).1 = some .keyError := by
  induction ls generalizing w with
  | nil => exact absurd hl (by simp)
  | cons x ls ih =>
    rw [World.registryAll]
    rcases hs : w.registrySet x u with ⟨e, w'⟩
    have hset := hs
    unfold World.registrySet at hs
    rcases hg : get? w.registry x with _ | v'
    · rw [hg] at hs
      simp only [Prod.mk.injEq] at hs
      obtain ⟨rfl, rfl⟩ := hs
      simp only
      have hlx : l ≠ x := by
        intro e; subst e; rw [hg] at hb; exact absurd hb (by simp)
      refine ih _ ?_ ?_ hne
      · rcases List.mem_cons.1 hl with h | h
        · exact absurd h hlx
        · exact h
      · simp only [get?_set, Ne.symm hlx, if_false]; exact hb
    · rw [hg] at hs
      simp only at hs
      split at hs
      · rename_i heq
        simp only [Prod.mk.injEq] at hs
        obtain ⟨rfl, rfl⟩ := hs
        refine ih _ ?_ hb hne
        rcases List.mem_cons.1 hl with h | h
        · exfalso
          rw [h, hg] at hb; simp only [Option.some.injEq] at hb; subst hb
          rw [heq] at hne; exact absurd hne (by simp)
        · exact h
      · simp only [Prod.mk.injEq] at hs
        obtain ⟨rfl, rfl⟩ := hs
        rfl

/-- The labels of a unit: its name, its symbol (if not empty) and its aliases; units of the classes
`CompoundUnit` and `UnitConstant` have none, `Dimensionless` has only its name. -/
def IsLabel (a : NewUnit K) (l : String) : Prop :=
  a.cls ≠ .compound ∧ a.cls ≠ .constant ∧
    (l = a.name ∨ (a.cls ≠ .dimensionless ∧ ((a.symbol = some l ∧ l ≠ "") ∨ l ∈ a.aliases)))

omit [LinearOrder K] [IsStrictOrderedRing K] [LawfulRPow K] [Field K] [RPow K] in
theorem isLabel_iff (a : NewUnit K) (l : String) :
    IsLabel a l ↔ l ∈ labelsOf a.cls a.name a.symbol a.aliases := by
  unfold IsLabel labelsOf
  cases a.cls <;> simp only [ne_eq, reduceCtorEq, not_false_eq_true, not_true_eq_false, true_and,
    false_and, List.not_mem_nil, or_false, List.mem_singleton, and_false]
  all_goals
    rw [List.mem_cons]
    refine or_congr_right ?_
    cases a.symbol with
    | none => simp
    | some s =>
      dsimp only
      by_cases e : s = ""
      · subst e
        rw [if_pos rfl]
        constructor
        · rintro (⟨h1, h2⟩ | h)
          · exact absurd (Option.some.inj h1).symm h2
          · exact h
        · exact Or.inr
      · rw [if_neg e, List.mem_cons]
        constructor
        · rintro (⟨h1, _⟩ | h)
          · exact Or.inl (Option.some.inj h1).symm
          · exact Or.inr h
        · rintro (h | h)
          · exact Or.inl ⟨by rw [h], by rw [h]; exact e⟩
          · exact Or.inr h

omit [LinearOrder K] [IsStrictOrderedRing K] [LawfulRPow K] in
theorem registryAll_bound [DecidableEq K] (u : UKey) : ∀ (ls : List String) (w : World K),
    (w.registryAll u ls).1 = none →
    (∀ l ∈ ls, (get? w.registry l = none → get? (w.registryAll u ls).2.registry l = some u)) ∧
    (∀ l v, get? w.registry l = some v → get? (w.registryAll u ls).2.registry l = some v) ∧
    (∀ l, l ∉ ls → get? (w.registryAll u ls).2.registry l = get? w.registry l)
  | [], w, _ => ⟨by simp, fun _ _ h => h, fun _ _ => rfl⟩
  | x :: ls, w, hok => by
      rw [World.registryAll] at hok ⊢
      rcases hs : w.registrySet x u with ⟨e, w'⟩
      rw [hs] at hok
      unfold World.registrySet at hs
      rcases hg : get? w.registry x with _ | v'
      · rw [hg] at hs
        simp only [Prod.mk.injEq] at hs
        obtain ⟨rfl, rfl⟩ := hs
        simp only at hok ⊢
        obtain ⟨h1, h2, h3⟩ := registryAll_bound u ls _ hok
        refine ⟨fun l hl hn => ?_, fun l v hv => ?_, fun l hl => ?_⟩
        · by_cases e : l = x
          · subst e
            exact h2 l u (by simp [get?_set])
          · refine h1 l ?_ ?_
            · rcases List.mem_cons.1 hl with h | h
              · exact absurd h e
              · exact h
            · simp only [get?_set, Ne.symm e, if_false]; exact hn
        · refine h2 l v ?_
          have e : l ≠ x := by rintro rfl; rw [hg] at hv; cases hv
          simp only [get?_set, Ne.symm e, if_false]; exact hv
        · have e : l ≠ x := fun h => hl (by simp [h])
          rw [h3 l (fun h => hl (by simp [h]))]
          simp only [get?_set, Ne.symm e, if_false]
      · rw [hg] at hs
        simp only at hs
        split at hs
        · simp only [Prod.mk.injEq] at hs
          obtain ⟨rfl, rfl⟩ := hs
          simp only at hok ⊢
          obtain ⟨h1, h2, h3⟩ := registryAll_bound u ls _ hok
          refine ⟨fun l hl hn => ?_, h2, fun l hl => h3 l (fun h => hl (by simp [h]))⟩
          rcases List.mem_cons.1 hl with h | h
          · rw [h, hg] at hn; cases hn
          · exact h1 l h hn
        · simp only [Prod.mk.injEq] at hs
          obtain ⟨rfl, rfl⟩ := hs
          cases hok

omit [LinearOrder K] [IsStrictOrderedRing K] [LawfulRPow K] in
/-- C23: creating a unit, if it succeeds, binds all its labels that were free to it, and changes no other
label. -/
theorem C23_labels_bound [DecidableEq K] (w : World K) (a : NewUnit K) (hok : (w.newUnit a).1 = none) :
    (∀ l, IsLabel a l → get? w.registry l = none →
      get? (w.newUnit a).2.registry l = some ⟨a.cls, a.name⟩) ∧
    (∀ l, (¬ IsLabel a l ∨ get? w.registry l ≠ none) →
      get? (w.newUnit a).2.registry l = get? w.registry l) := by
  have hreg : (w.construct a).registry = w.registry := rfl
  have key : ((w.construct a).registryAll ⟨a.cls, a.name⟩ (labelsOf a.cls a.name a.symbol a.aliases)).1 = none ∧
      (w.newUnit a).2.registry =
      ((w.construct a).registryAll ⟨a.cls, a.name⟩ (labelsOf a.cls a.name a.symbol a.aliases)).2.registry := by
    unfold World.newUnit at hok ⊢
    rcases hr : (w.construct a).registryAll ⟨a.cls, a.name⟩
      (labelsOf a.cls a.name a.symbol a.aliases) with ⟨e, w2⟩
    simp only [hr] at hok ⊢
    cases e with
    | some e =>
      exfalso
      simp only at hok
      split at hok <;> cases hok
    | none =>
      refine ⟨rfl, ?_⟩
      simp only
      split <;> rfl
  obtain ⟨h1, h2, h3⟩ := registryAll_bound _ _ _ key.1
  rw [key.2]
  refine ⟨fun l hl hn => h1 l ((isLabel_iff a l).1 hl) (by rw [hreg]; exact hn), fun l hl => ?_⟩
  rcases hg : get? w.registry l with _ | v
  · rcases hl with hl | hl
    · rw [h3 l (fun h => hl ((isLabel_iff a l).2 h)), hreg, hg]
    · exact absurd hg hl
  · exact h2 l v (by rw [hreg]; exact hg)

/-- C67, the part that holds: constructing a unit one of whose labels is already bound to a unit of
another class or name and of a different value raises `KeyError`.  `w.construct a` is the state in
which the label is compared: the new unit exists, nothing is registered yet.  Missing: a unit of the
same class and name, which is accepted whatever its value (`C67_false`). -/
theorem C67_conflict_partial {w : World K} (hw : Reachable h w) (a : NewUnit K)
    (hv : (Op.newUnit a).Valid w) (l : String) (u : UKey)
    (hl : IsLabel a l) (hb : get? w.registry l = some u)
    (hfresh : w.info ⟨a.cls, a.name⟩ = none)
    (hs : HashSafe (w.construct a) (unitDim u) (unitDim ⟨a.cls, a.name⟩))
    (hdiff : ¬ (∀ v : Valuation (w.construct a),
      v.size (unitDim u) = v.size (unitDim ⟨a.cls, a.name⟩))) :
    ((Op.newUnit a).run w).1 = some .keyError := by
  have hw1 : WF (w.construct a) := hw.wf.construct a hv hfresh
  obtain ⟨n, hu2⟩ := construct_units hfresh
  have hu : u ∈ (w.construct a).units.map Prod.fst := by
    rw [hu2, List.map_append, List.mem_append]; exact Or.inl (hw.wf.registered l u hb)
  have hkey : (⟨a.cls, a.name⟩ : UKey) ∈ (w.construct a).units.map Prod.fst := by
    rw [hu2, List.map_append, List.mem_append]; exact Or.inr (by simp)
  have hne : (w.construct a).unitEq ⟨a.cls, a.name⟩ u = false := by
    by_contra hc
    rw [Bool.not_eq_false] at hc
    refine hdiff fun v => ?_
    have := eqS_meaning hw1 (a := ⟨1, unitDim ⟨a.cls, a.name⟩⟩) (b := ⟨1, unitDim u⟩)
      (unitDim_ok hkey) (unitDim_ok hu) hs hc v
    simpa [Valuation.scalar] using this.symm
  have hc := registryAll_conflict (w.construct a) ⟨a.cls, a.name⟩ _ l u ((isLabel_iff a l).1 hl) hb hne
  simp only [Op.run, World.newUnit]
  rcases hr : (w.construct a).registryAll ⟨a.cls, a.name⟩
    (labelsOf a.cls a.name a.symbol a.aliases) with ⟨e, w2⟩
  rw [hr] at hc
  simp only at hc
  subst hc
  simp only
  split <;> rfl

/-- C67: what happens to a second unit of the same class and name: whatever its definition, if its
labels are those of the first unit the constructor returns without exception. -/
theorem C67_same_name_accepted (w : World K) (a : NewUnit K)
    (hl : ∀ l ∈ labelsOf a.cls a.name a.symbol a.aliases, get? w.registry l = some ⟨a.cls, a.name⟩) :
    ((Op.newUnit a).run w).1 = none := by
  have key : ∀ ls : List String, (∀ l ∈ ls, get? (w.construct a).registry l = some ⟨a.cls, a.name⟩) →
      ((w.construct a).registryAll ⟨a.cls, a.name⟩ ls).1 = none := by
    intro ls
    induction ls with
    | nil => intro _; rfl
    | cons l ls ih =>
      intro hh
      have h1 : (w.construct a).registrySet l ⟨a.cls, a.name⟩ = (none, w.construct a) := by
        unfold World.registrySet
        rw [hh l (by simp)]
        simp [unitEq_self]
      rw [World.registryAll, h1]
      exact ih fun x hx => hh x (by simp [hx])
  have := key _ hl
  simp only [Op.run, World.newUnit]
  rcases hr : (w.construct a).registryAll ⟨a.cls, a.name⟩
    (labelsOf a.cls a.name a.symbol a.aliases) with ⟨e, w2⟩
  rw [hr] at this
  simp only at this
  subst this
  simp only
  split <;> rfl

/-- C67 as stated is false: `UnitLength('meter', 5*km)` after `UnitLength('meter')` raises nothing,
and the label keeps denoting the first unit. -/
theorem C67_false : ∃ a : NewUnit ℝ, a.definition.toDef = some ⟨5, dKm⟩ ∧
    (Op.newUnit a).Valid exWorld ∧ get? exWorld.registry "meter" = some uM ∧
    "meter" ∈ labelsOf a.cls a.name a.symbol a.aliases ∧
    ((Op.newUnit a).run exWorld).1 = none := by
  refine ⟨{ cls := .length, name := "meter", definition := .quantity ⟨5, dKm⟩ }, rfl, ⟨?_, by simp⟩, rfl,
    by simp [labelsOf], ?_⟩
  · intro q hq
    simp only [DefArg.toDef, Option.some.injEq] at hq
    subst hq
    exact ⟨by norm_num, ex_dimOK _ (by simp)⟩
  · refine C67_same_name_accepted _ _ fun l hl => ?_
    simp only [labelsOf, List.mem_singleton] at hl
    subst hl
    rfl

/-- Becquerel, defined like hertz. -/
def uBq : UKey := ⟨.unitQuantity, "becquerel"⟩
noncomputable def exBq : NewUnit ℝ :=
  { cls := .unitQuantity, name := "becquerel", definition := .quantity ⟨1, [(uS, -1)]⟩ }
/-- The example world with becquerel. -/
noncomputable def exWorldBq : World ℝ := ((Op.newUnit exBq).run exWorld).2

theorem exBq_valid : (Op.newUnit exBq).Valid exWorld := by
  refine ⟨?_, by simp [exBq]⟩
  intro q hq
  simp only [exBq, DefArg.toDef, Option.some.injEq] at hq
  subst hq
  exact ⟨by norm_num, ⟨⟨by decide, by simp⟩, by rw [exKeys]; simp, by simp [uS]⟩⟩

theorem exWorldBq_reachable : Reachable exH exWorldBq := Reachable.step _ exWorld_reachable exBq_valid

theorem exKeysBq : exWorldBq.units.map Prod.fst =
  [⟨.dimensionless, "dimensionless"⟩, uM, uKm, uS, uHz, uBq] := by rfl

/-- A new unit `foo` of 2 m whose symbol `m` is taken: the hypotheses of `C67_conflict_partial`. -/
noncomputable def exFoo : NewUnit ℝ :=
  { cls := .length, name := "foo", definition := .quantity ⟨2, dM⟩, symbol := some "m" }

theorem exFoo_valid : (Op.newUnit exFoo).Valid exWorld := by
  refine ⟨?_, by simp [exFoo]⟩
  intro q hq
  simp only [exFoo, DefArg.toDef, Option.some.injEq] at hq
  subst hq
  exact ⟨by norm_num, ex_dimOK _ (by simp)⟩

theorem exFoo_fresh : exWorld.info ⟨exFoo.cls, exFoo.name⟩ = none := by rfl

theorem exFoo_safe : HashSafe (exWorld.construct exFoo) (unitDim uM) (unitDim ⟨exFoo.cls, exFoo.name⟩) := by
  refine ⟨?_, ?_⟩
  · intro hd
    exfalso
    have : (exWorld.construct exFoo).deq (unitDim uM) (unitDim ⟨exFoo.cls, exFoo.name⟩) = false := by
      simp only [World.deq, Dim.eq]
      rw [show (exWorld.construct exFoo).hasher = exH from rfl,
        show unitDim uM = [(uM, 1)] from rfl,
        show unitDim ⟨exFoo.cls, exFoo.name⟩ = [((⟨.length, "foo"⟩ : UKey), 1)] from rfl, exHash1, exHash1]
      decide
    rw [this] at hd; exact absurd hd (by simp)
  · intro _
    have e1 : ((exWorld.construct exFoo).refUnits (unitDim uM)).dim = [(uM, 1)] := by decide +kernel
    have e2 : ((exWorld.construct exFoo).refUnits (unitDim ⟨exFoo.cls, exFoo.name⟩)).dim = [(uM, 1)] := by
      decide +kernel
    rw [e1, e2]; exact SameContent.refl _

theorem exFoo_diff : ¬ (∀ v : Valuation (exWorld.construct exFoo),
    v.size (unitDim uM) = v.size (unitDim ⟨exFoo.cls, exFoo.name⟩)) := by
  intro hh
  obtain ⟨v⟩ := exists_valuation (exWorld_wf.construct exFoo exFoo_valid exFoo_fresh)
  have h1 := hh v
  have h2 := v.defined ⟨.length, "foo"⟩ ((exWorld.construct exFoo).info ⟨.length, "foo"⟩ |>.get (by rfl))
    ⟨2, dM⟩ (by rfl) (by rfl)
  have h3 : v.size (unitDim uM) = v.val uM := by
    rw [show unitDim uM = [(uM, 1)] from rfl]; simp [Valuation.size, dsize_cons, LawfulRPow.rpow_one]
  have h4 : v.size (unitDim ⟨exFoo.cls, exFoo.name⟩) = v.val ⟨.length, "foo"⟩ := by
    rw [show unitDim ⟨exFoo.cls, exFoo.name⟩ = [((⟨.length, "foo"⟩ : UKey), 1)] from rfl]
    simp [Valuation.size, dsize_cons, LawfulRPow.rpow_one]
  have h5 : dsize v.val dM = v.val uM := by simp [dM, dsize_cons, LawfulRPow.rpow_one]
  rw [h3, h4, h2, h5] at h1
  have := v.pos uM
  linarith

example : ((Op.newUnit exFoo).run exWorld).1 = some .keyError :=
  C67_conflict_partial exWorld_reachable exFoo exFoo_valid "m" uM
    ((isLabel_iff _ _).2 (by simp [exFoo, labelsOf])) rfl exFoo_fresh exFoo_safe exFoo_diff

/-! ## C47 -/

/-- C47, the part that holds: units with the same class and name are `==` and have the same hash.
Missing: units that are `==` because they have the same value (`C47_false`). -/
theorem C47_same_identity_partial (w : World K) (u v : UKey) (hc : u.cls = v.cls)
    (hn : u.name = v.name) : w.unitEq u v = true ∧ w.hasher.key u = w.hasher.key v := by
  cases u; cases v; simp only at hc hn; subst hc hn; exact ⟨unitEq_self _ _, rfl⟩

/-- C47 as stated is false: `hertz == becquerel` is `True`, but they hash differently (by class and
name). -/
theorem C47_false : exWorldBq.unitEq uHz uBq = true ∧
    exWorldBq.hasher.key uHz ≠ exWorldBq.hasher.key uBq := by
  have hwf := exWorldBq_reachable.wf
  refine ⟨?_, by decide⟩
  have hHz : DimOK exWorldBq (unitDim uHz) := unitDim_ok (by rw [exKeysBq]; simp)
  have hBq : DimOK exWorldBq (unitDim uBq) := unitDim_ok (by rw [exKeysBq]; simp)
  have e1 : (exWorldBq.refUnits (unitDim uHz)).dim = [(uS, -1)] := by decide +kernel
  have e2 : (exWorldBq.refUnits (unitDim uBq)).dim = [(uS, -1)] := by decide +kernel
  refine eqS_of_value hwf (a := ⟨1, unitDim uHz⟩) (b := ⟨1, unitDim uBq⟩) hHz hBq ⟨?_, ?_⟩ ?_ ?_
  · intro hd
    exfalso
    have : exWorldBq.deq (unitDim uBq) (unitDim uHz) = false := by
      simp only [World.deq, Dim.eq]
      rw [show exWorldBq.hasher = exH from rfl, show unitDim uBq = [(uBq, 1)] from rfl,
        show unitDim uHz = [(uHz, 1)] from rfl, exHash1, exHash1]
      decide
    rw [this] at hd; exact absurd hd (by simp)
  · intro _; rw [e1, e2]; exact SameContent.refl _
  · rw [compatible_iff hwf hBq hHz, e1, e2]; exact SameContent.refl _
  · intro v
    have h1 := v.defined uHz (exWorldBq.info uHz |>.get (by rfl)) ⟨1, [(uS, -1)]⟩ (by rfl) (by rfl)
    have h2 := v.defined uBq (exWorldBq.info uBq |>.get (by rfl)) ⟨1, [(uS, -1)]⟩ (by rfl) (by rfl)
    simp only [Valuation.scalar, Valuation.size,
      show unitDim uBq = [(uBq, 1)] from rfl, show unitDim uHz = [(uHz, 1)] from rfl, dsize_cons,
      dsize_nil, LawfulRPow.rpow_one, mul_one, one_mul] at h1 h2 ⊢
    rw [h1, h2]

/-! ## C22 -/

omit [IsStrictOrderedRing K] [LawfulRPow K] in
theorem setDefaultSpec_spec (w : World K) (c : UClass) (s : DefSpec K) :
    (w.setDefaultSpec c s).2.registry = w.registry ∧
    (∀ c', c' ≠ c → (w.setDefaultSpec c s).2.defaults c' = w.defaults c') ∧
    ((w.setDefaultSpec c s).1 ≠ none → (w.setDefaultSpec c s).2 = w) ∧
    ((w.setDefaultSpec c s).1 = none → Requested w c s ((w.setDefaultSpec c s).2.defaults c)) := by
  have one : ∀ a : DefaultArg K, (w.setDefault c (some a)).2.registry = w.registry ∧
      (∀ c', c' ≠ c → (w.setDefault c (some a)).2.defaults c' = w.defaults c') ∧
      ((w.setDefault c (some a)).1 ≠ none → (w.setDefault c (some a)).2 = w) ∧
      ((w.setDefault c (some a)).1 = none → (w.setDefault c (some a)).2.defaults c = some a.dim) := by
    intro a
    unfold World.setDefault
    simp only
    rcases hd : w.defaults c with _ | cur
    · simp
    · simp only
      split
      · rcases hc : w.convFactor cur a.dim with e | cf
        · simp
        · simp only [ne_eq, not_true_eq_false, false_imp_iff, if_true, true_and, forall_true_left,
            and_true]
          intro c' hc'; simp [hc']
      · simp
  cases s with
  | none => exact ⟨rfl, fun _ _ => rfl, fun _ => rfl, fun _ => rfl⟩
  | other => exact ⟨rfl, fun _ _ => rfl, fun _ => rfl, fun h => absurd h (by simp [World.setDefaultSpec])⟩
  | unit a => exact one a
  | label l =>
    unfold World.setDefaultSpec
    simp only
    rcases hl : get? w.registry l with _ | u
    · simp
    · obtain ⟨h1, h2, h3, h4⟩ := one ⟨1, unitDim u⟩
      exact ⟨h1, h2, h3, fun h => ⟨u, hl, h4 h⟩⟩

omit [IsStrictOrderedRing K] [LawfulRPow K] in
/-- Running distinct-class requests. -/
theorem runDefaults_ok (w w' : World K) (calls : List (UClass × DefSpec K))
    (hn : (calls.map Prod.fst).Nodup) (hr : w.runDefaults calls = (none, w')) :
    w'.registry = w.registry ∧ (∀ c s, (c, s) ∈ calls → Requested w c s (w'.defaults c)) ∧
    (∀ c, c ∉ calls.map Prod.fst → w'.defaults c = w.defaults c) := by
  induction calls generalizing w with
  | nil =>
    simp only [World.runDefaults, Prod.mk.injEq, true_and] at hr; subst hr
    exact ⟨rfl, by simp, fun _ _ => rfl⟩
  | cons cs calls ih =>
    obtain ⟨c, s⟩ := cs
    rw [World.runDefaults] at hr
    obtain ⟨p1, p2, p3, p4⟩ := setDefaultSpec_spec w c s
    rcases hs : w.setDefaultSpec c s with ⟨e, w₁⟩
    rw [hs] at hr p1 p2 p3 p4
    simp only at hr p1 p2 p3 p4
    rcases e with _ | e
    · simp only at hr
      rw [List.map_cons, List.nodup_cons] at hn
      obtain ⟨q1, q2, q3⟩ := ih w₁ hn.2 hr
      refine ⟨q1.trans p1, ?_, ?_⟩
      · intro c' s' hm₀
        rcases List.mem_cons.1 hm₀ with hm | hm
        · simp only [Prod.mk.injEq] at hm
          obtain ⟨e1, e2⟩ := hm
          subst e1 e2
          rw [q3 _ hn.1]; exact p4 rfl
        · have hne : c' ≠ c := by
            rintro rfl
            exact hn.1 (List.mem_map.2 ⟨_, hm, rfl⟩)
          have := q2 c' s' hm
          cases s' with
          | none => exact this.trans (p2 c' hne)
          | label l => obtain ⟨u, h1, h2⟩ := this; exact ⟨u, by rw [← p1]; exact h1, h2⟩
          | unit a => exact this
          | other => exact this
      · intro c' hc'
        simp only [List.map_cons, List.mem_cons, not_or] at hc'
        rw [q3 c' hc'.2, p2 c' hc'.1]
    · simp only [Prod.mk.injEq, reduceCtorEq, false_and] at hr

omit [IsStrictOrderedRing K] [LawfulRPow K] in
theorem runDefaults_append (w : World K) (a b : List (UClass × DefSpec K)) :
    w.runDefaults (a ++ b) = (match w.runDefaults a with
      | (none, w₁) => w₁.runDefaults b
      | (some e, w₁) => (some e, w₁)) := by
  induction a generalizing w with
  | nil => rfl
  | cons cs a ih =>
    obtain ⟨c, s⟩ := cs
    rw [List.cons_append, World.runDefaults, World.runDefaults]
    rcases hs : w.setDefaultSpec c s with ⟨e, w₁⟩
    rcases e with _ | e
    · simp only; exact ih w₁
    · rfl

omit [IsStrictOrderedRing K] [LawfulRPow K] in
theorem Requested.congr {w w₁ : World K} {c : UClass} {sp : DefSpec K} {r : Option Dim}
    (hr : w₁.registry = w.registry) (hd : w₁.defaults c = w.defaults c)
    (h : Requested w₁ c sp r) : Requested w c sp r := by
  cases sp with
  | none => exact h.trans hd
  | label l => obtain ⟨u, h1, h2⟩ := h; exact ⟨u, by rw [← hr]; exact h1, h2⟩
  | unit a => exact h
  | other => exact h

omit [IsStrictOrderedRing K] [LawfulRPow K] in
/-- C22: when `set_default_units` returns, the unit system named (if any) was
`si` or `cgs`, in any case; every class given as a keyword has the requested default; every other class
has the default of the unit system; and a class neither mentions keeps its default. (Calls that raise: C66.) -/
theorem C22_success (w w' : World K) (system : Option String) (a : DefaultsArgs K)
    (hr : w.setDefaultUnits system a = (none, w')) :
    w'.registry = w.registry ∧
    (∀ s, system = some s → s.toLower = "si" ∨ s.toLower = "cgs") ∧
    (∀ c, Requested w c (asked system a c) (w'.defaults c)) := by
  have kw : ∀ w₁ : World K, w₁.runDefaults (keywordCalls a) = (none, w') →
      w'.registry = w₁.registry ∧ ∀ c, Requested w₁ c (a.get c) (w'.defaults c) := by
    intro w₁ h1
    obtain ⟨q1, q2, q3⟩ := runDefaults_ok w₁ w' _ (by simp [keywordCalls]) h1
    refine ⟨q1, fun c => ?_⟩
    by_cases hc : c ∈ (keywordCalls a).map Prod.fst
    · refine q2 c (a.get c) ?_
      simp only [keywordCalls, List.map_cons, List.map_nil, List.mem_cons, List.not_mem_nil,
        or_false] at hc
      rcases hc with rfl | rfl | rfl | rfl | rfl | rfl | rfl | rfl | rfl <;>
        simp [keywordCalls, DefaultsArgs.get]
    · have : a.get c = .none := by
        cases c <;> first | rfl | exact absurd (by simp [keywordCalls]) hc
      rw [this]; exact q3 c hc
  -- the system first, then the keywords
  have both : ∀ (calls : List (UClass × DefSpec K)), (calls.map Prod.fst).Nodup →
      w.runDefaults (calls ++ keywordCalls a) = (none, w') →
      (∀ c sp, (c, sp) ∈ calls → systemUnit system c = sp) →
      (∀ c, c ∉ calls.map Prod.fst → (systemUnit system c : DefSpec K) = .none) →
      w'.registry = w.registry ∧ ∀ c, Requested w c (asked system a c) (w'.defaults c) := by
    intro calls hn hrun hin hout
    rw [runDefaults_append] at hrun
    rcases h1 : w.runDefaults calls with ⟨e, w₁⟩
    rw [h1] at hrun
    rcases e with _ | e
    · simp only at hrun
      obtain ⟨q1, q2, q3⟩ := runDefaults_ok w w₁ calls hn h1
      obtain ⟨k1, k2⟩ := kw w₁ hrun
      refine ⟨k1.trans q1, fun c => ?_⟩
      have hk := k2 c
      have first : Requested w c (systemUnit system c) (w₁.defaults c) := by
        by_cases hc : c ∈ calls.map Prod.fst
        · obtain ⟨⟨c', sp⟩, hm, rfl⟩ := List.mem_map.1 hc
          rw [hin _ _ hm]
          exact q2 _ _ hm
        · rw [hout c hc]; exact q3 c hc
      unfold asked
      cases hg : a.get c with
      | none =>
        rw [hg] at hk
        change w'.defaults c = w₁.defaults c at hk
        rw [hk]; exact first
      | label l =>
        rw [hg] at hk
        obtain ⟨u, h1, h2⟩ := hk; exact ⟨u, by rw [← q1]; exact h1, h2⟩
      | unit b => rw [hg] at hk; exact hk
      | other => rw [hg] at hk; exact hk
    · simp at hrun
  cases system with
  | none =>
    have := both [] (by simp) (by simpa [World.setDefaultUnits] using hr) (by simp)
      (fun c _ => by cases c <;> rfl)
    exact ⟨this.1, fun s hs => absurd hs (by simp), this.2⟩
  | some s =>
    simp only [World.setDefaultUnits] at hr
    rcases hs : (systemCalls s : Option (List (UClass × DefSpec K))) with _ | calls
    · rw [hs] at hr; simp at hr
    · rw [hs] at hr
      simp only at hr
      unfold systemCalls at hs
      by_cases e1 : s.toLower = "si"
      · rw [if_pos e1] at hs
        simp only [Option.some.injEq] at hs; subst hs
        have := both _ (by simp) hr
          (by
            intro c sp hm
            simp only [List.cons_append, List.nil_append, List.mem_cons, Prod.mk.injEq, List.not_mem_nil, or_false] at hm
            rcases hm with ⟨rfl, rfl⟩ | ⟨rfl, rfl⟩ | ⟨rfl, rfl⟩ | ⟨rfl, rfl⟩ | ⟨rfl, rfl⟩ | ⟨rfl, rfl⟩ | ⟨rfl, rfl⟩ <;>
              simp only [systemUnit, if_pos e1, siUnit])
          (by
            intro c hm
            simp only [systemUnit, if_pos e1]
            cases c <;> first | rfl | exact absurd (by simp) hm)
        exact ⟨this.1, fun s' hs' => by cases hs'; exact .inl e1, this.2⟩
      · rw [if_neg e1] at hs
        by_cases e2 : s.toLower = "cgs"
        · rw [if_pos e2] at hs
          simp only [Option.some.injEq] at hs; subst hs
          have := both _ (by simp) hr
            (by
              intro c sp hm
              simp only [List.cons_append, List.nil_append, List.mem_cons, Prod.mk.injEq, List.not_mem_nil, or_false] at hm
              rcases hm with ⟨rfl, rfl⟩ | ⟨rfl, rfl⟩ | ⟨rfl, rfl⟩ | ⟨rfl, rfl⟩ | ⟨rfl, rfl⟩ | ⟨rfl, rfl⟩ <;>
                simp only [systemUnit, if_neg e1, cgsUnit])
            (by
              intro c hm
              simp only [systemUnit, if_neg e1]
              cases c <;> first | rfl | exact absurd (by simp) hm)
          exact ⟨this.1, fun s' hs' => by cases hs'; exact .inr e2, this.2⟩
        · rw [if_neg e2] at hs; exact absurd hs (by simp)

/-- C22: an unknown unit system is refused with nothing changed. -/
theorem C22_unknown_system (w : World K) (s : String) (a : DefaultsArgs K)
    (h1 : s.toLower ≠ "si") (h2 : s.toLower ≠ "cgs") :
    w.setDefaultUnits (some s) a = (some .valueError, w) := by
  simp [World.setDefaultUnits, systemCalls, h1, h2]

/-- C66 as stated is false: `set_default_units(length='km', time='m')` raises (and raises
`AssertionError`, not `TypeError`), but the default length has been changed. -/
theorem C66_false : ∃ w' : World ℝ,
    exWorld.setDefaultUnits none { length := .label "km", time := .label "m" } =
      (some .assertionError, w') ∧
    exWorld.defaults .length = some dM ∧ w'.defaults .length = some dKm := by
  obtain ⟨cf, hcf⟩ := (convFactor_returns exWorld_wf (ex_dimOK dM (by simp)) (ex_dimOK dKm (by simp))
    ex_safe_m_km.refs).2 (compatible_symm exWorld_wf ex_compat)
  let w₁ : World ℝ := { exWorld with
    defaults := fun c' => if c' = .length then some dKm else exWorld.defaults c' }
  have s1 : exWorld.setDefaultSpec .length (.label "km") = (none, w₁) := by
    simp only [World.setDefaultSpec, show get? exWorld.registry "km" = some uKm from rfl]
    simp only [World.setDefault, exDefaults, if_true]
    rw [show unitDim uKm = dKm from rfl, hcf]
    simp only [w₁, exDefaults]
  have s2 : w₁.setDefaultSpec .time (.label "m") = (some .assertionError, w₁) := by
    simp only [World.setDefaultSpec, show get? w₁.registry "m" = some uM from rfl]
    have hd : w₁.defaults .time = some dS := rfl
    have hc : w₁.convFactor dS (unitDim uM) = .error .assertionError := by
      have hdq : exWorld.deq dS dM = false := by rw [deq_comm]; exact ex_deq_m_s
      have e1 : (w₁.refUnits dS).dim = dS := exRef_s
      have e2 : (w₁.refUnits (unitDim uM)).dim = dM := exRef_m
      rw [convFactor_def, e1, e2, if_neg]
      change ¬ exWorld.deq dS dM = true
      rw [hdq]; simp
    simp only [World.setDefault, hd, if_true, hc]
  have sn : ∀ (w : World ℝ) c, w.setDefaultSpec c .none = (none, w) := fun _ _ => rfl
  refine ⟨w₁, ?_, rfl, rfl⟩
  simp only [World.setDefaultUnits, keywordCalls, World.runDefaults, sn, s1, s2]

end PQ
