import Verif.Lemmas.ShippedExample
import Verif.Props.Simplified

/-!
# C42: the units and constants shipped with the library

`table` is the list of all constructor calls executed by `import quantities` (346 units, 324 constants),
`loaded t π h` the state after executing those of `t` in a process with hash function `h`, `π` the value
of `math.pi`.  31 constants (magnetic moments and the like) are negative.  A unit with a negative size has
no place in the theorems about conversions, which is why those here are stated for `saneTable`, all units
and the other 293 constants; `C42_constants_inert` transfers conversions to the full library.
`dims` lists, for each row, twice the exponents of the base units `baseKeys`.
-/

namespace PQ

open Dict World Shipped LawfulRPow

variable {K : Type _} [Field K] [LinearOrder K] [IsStrictOrderedRing K] [RPow K] [LawfulRPow K]

attribute [local irreducible] table unitTable constTable dims

theorem full_sub : table.Sublist table := List.Sublist.refl _

theorem units_sub : unitTable.Sublist table := by
  unfold table; exact List.sublist_append_left _ _

theorem full_eq : table = unitTable ++ constTable := by unfold table; rfl

/-- C42: `import quantities` raises nothing, whatever the hash function: no label is claimed twice. -/
theorem C42_import_returns (h : Hasher) (π : K) : (load table π (World.init h : World K)).1 = none := by
  obtain ⟨f1, f2, f3, f4⟩ := sub_fresh full_sub table π h
  rw [load]
  exact (runAll_fresh _ _ f1 f2 f3 f4).1

/-- The labels after loading part of the table. -/
theorem loaded_labels {T : List Row} (hsub : T.Sublist table) (h : Hasher) (π : K) (l : String) (u : UKey) :
    get? (loaded T π h).registry l = some u ↔ ∃ r ∈ T, l ∈ r.labels ∧ u = r.key := by
  obtain ⟨f1, f2, f3, f4⟩ := sub_fresh hsub T π h
  have hreg := (runAll_fresh _ _ f1 f2 f3 f4).2.2.2
  rw [loaded_eq, load, hreg]
  simp only [World.init, List.nil_append]
  have hmem : ∀ (l : String) (u : UKey), (l, u) ∈ (T.map (Row.toNew T π)).flatMap
      (fun a => (nlabels a).map (fun l => (l, nkey a))) ↔ ∃ r ∈ T, l ∈ r.labels ∧ u = r.key := by
    intro l u
    simp only [List.mem_flatMap, List.mem_map]
    constructor
    · rintro ⟨a, ⟨r, hr, rfl⟩, l', hl', e⟩
      simp only [Prod.mk.injEq] at e
      rw [labelsOf_row _ _ (hsub.subset hr)] at hl'
      exact ⟨r, hr, e.1 ▸ hl', e.2.symm⟩
    · rintro ⟨r, hr, hl, rfl⟩
      exact ⟨_, ⟨r, hr, rfl⟩, l, by rwa [labelsOf_row _ _ (hsub.subset hr)], rfl⟩
  rw [← hmem]
  constructor
  · exact fun hg => mem_of_get? hg
  · refine fun hm => get?_of_mem_nodup ?_ hm
    unfold Dict.Nodup
    rw [List.map_flatMap]
    have : ((T.map (Row.toNew T π)).flatMap fun a => ((nlabels a).map (fun l => (l, nkey a))).map Prod.fst)
        = (T.map (Row.toNew T π)).flatMap nlabels :=
      List.flatMap_congr fun a _ => by rw [List.map_map]; exact List.map_id' _
    rw [this]
    exact f3

/-- C42: afterwards every name, symbol and alias of every shipped unit is bound to that unit, and nothing
else is bound. -/
theorem C42_labels (h : Hasher) (π : K) (l : String) (u : UKey) :
    get? (loaded table π h).registry l = some u ↔ ∃ r ∈ table, l ∈ r.labels ∧ u = r.key :=
  loaded_labels full_sub h π l u

/-- C79: a missing comma in `units/length.py` 79 makes one alias of two: there is no unit
`international_foot`. -/
theorem C79_false_international_foot (h : Hasher) (π : K) :
    get? (loaded table π h).registry "international_foot" = none ∧
    get? (loaded table π h).registry "international_footinternational_feet" = some ⟨.length, "foot"⟩ := by
  constructor
  · rcases hg : get? (loaded table π h).registry "international_foot" with _ | u
    · rfl
    · obtain ⟨r, hr, hl, -⟩ := (C42_labels h π _ _).1 hg
      have hm : "international_foot" ∈ table.flatMap Row.labels := List.mem_flatMap.2 ⟨r, hr, hl⟩
      exact absurd hm no_international_foot
  · exact (C42_labels h π _ _).2 ⟨footRow, foot_mem, by simp [footRow, Row.labels], rfl⟩

/-- C42: the units and the positive constants are definitions as a user could make them (each a positive
quantity over units created before), so everything proved about reachable states holds of the library. -/
theorem C42_reachable (h : Hasher) {π : K} (hπ : 0 < π) :
    Reachable h (loaded unitTable π h) ∧ Reachable h (loaded saneTable π h) :=
  ⟨load_reachable h hπ unitTable [] units_sub (by simp)
    (List.all_eq_true.1 units_positive), sane_reachable h hπ⟩

/-- C42: loading the constants, negative ones included, does not change any conversion between units. -/
theorem C42_constants_inert (h : Hasher) (π : K) (a b : Dim)
    (ha : ∀ kv ∈ a, ∃ r ∈ unitTable, kv.1 = r.key) (hb : ∀ kv ∈ b, ∃ r ∈ unitTable, kv.1 = r.key) :
    (loaded table π h).convFactor a b = (loaded unitTable π h).convFactor a b ∧
    (loaded saneTable π h).convFactor a b = (loaded unitTable π h).convFactor a b := by
  have main : ∀ T t' : List Row, T.Sublist table → T = unitTable ++ t' →
      (loaded T π h).convFactor a b = (loaded unitTable π h).convFactor a b := by
    intro T t' hs ht
    obtain ⟨h1, h2⟩ := loaded_units h π T t' hs ht
    obtain ⟨h3, -⟩ := loaded_units h π unitTable [] units_sub (by simp)
    have hc : ∀ d : Dim, (∀ kv ∈ d, ∃ r ∈ unitTable, kv.1 = r.key) →
        (loaded T π h).refUnits d = (loaded unitTable π h).refUnits d := by
      intro d hd
      refine refUnits_congr fun kv hkv => ?_
      obtain ⟨r, hr, e⟩ := hd kv hkv
      obtain ⟨i, i1, i2⟩ := h2 r hr
      rw [e, convRef_of_info i1, convRef_of_info i2]
    have hdeq : ∀ x y : Dim, (loaded T π h).deq x y = (loaded unitTable π h).deq x y := by
      intro x y
      unfold World.deq
      rw [h1, h3]
      unfold Dim.eq
      rw [hash_perm h _ (loaded unitTable π h).order (List.Perm.refl x),
        hash_perm h _ (loaded unitTable π h).order (List.Perm.refl y)]
    unfold World.convFactor World.reference
    simp only [hc a ha, hc b hb, hdeq]
  exact ⟨main table constTable full_sub full_eq, main saneTable _ saneTable_sub saneTable_eq⟩

/-- C42: every shipped unit is a fixed positive multiple of a product of powers of the eight base units,
with the exponents listed. -/
theorem C42_dimensions (h : Hasher) {π : K} (hπ : 0 < π) (i : Nat) (r : Row) (x : List Int)
    (hr : table[i]? = some r) (hx : dims[i]? = some x) (hp : r.positive = true) :
    ∃ c : K, 0 < c ∧ ∀ v : Valuation (loaded saneTable π h), v.size (unitDim r.key) =
      c * (List.zipWith (fun k (e : Int) => rpow (v.val k) ((e : ℚ) / 2))
        [⟨.time, "second"⟩, ⟨.length, "meter"⟩, ⟨.substance, "mole"⟩, ⟨.mass, "kilogram"⟩, ⟨.current, "ampere"⟩,
         ⟨.luminousIntensity, "candela"⟩, ⟨.temperature, "Kelvin"⟩, ⟨.information, "bit"⟩] x).prod := by
  obtain ⟨c, c0, hc⟩ := row_size h (sane_reachable h hπ) i r x hr hx hp
  refine ⟨c, c0, fun v => ?_⟩
  rw [← baseKeys_eq]
  exact hc v

/-- C42: a quantity in one shipped unit rescales to another exactly when their exponents agree. -/
theorem C42_convertible (h : Hasher) {π : K} (hπ : 0 < π) {i j : Nat} {r s : Row} {x y : List Int}
    (hr : table[i]? = some r) (hx : dims[i]? = some x) (hrp : r.positive = true)
    (hs : table[j]? = some s) (hy : dims[j]? = some y) (hsp : s.positive = true)
    (hsafe : HashSafe (loaded saneTable π h) (unitDim r.key) (unitDim s.key)) (m : NDArr K) :
    Returns ((⟨m, unitDim r.key⟩ : Quantity K).rescale (loaded saneTable π h) (unitDim s.key)) ↔ x = y := by
  have hw := sane_reachable h hπ
  have known : ∀ q ∈ saneTable, q.key ∈ (loaded saneTable π h).units.map Prod.fst := fun q hq => by
    obtain ⟨i, i1, -⟩ := load_info h (π := π) saneTable_sub hq
    exact known_of_info i1
  rw [rescale_returns hw.wf (unitDim_ok (known r (List.mem_filter.2 ⟨List.mem_of_getElem? hr, hrp⟩)))
    (unitDim_ok (known s (List.mem_filter.2 ⟨List.mem_of_getElem? hs, hsp⟩))) hsafe]
  exact row_compat h hπ hr hx hrp hs hy hsp

/-- The hypotheses hold of feet and metres. -/
example : ∃ (h : Hasher) (r s : Row) (x : List Int), table[45]? = some r ∧ table[34]? = some s ∧
    dims[45]? = some x ∧ dims[34]? = some x ∧
    Returns ((⟨NDArr.scalar (3 : ℝ), unitDim r.key⟩ : Quantity ℝ).rescale (loaded saneTable Real.pi h) (unitDim s.key)) := by
  obtain ⟨r, s, r1, s1, r3, s3, hd, hsafe⟩ := foot_meter
  obtain ⟨x, hx, -⟩ := dims_get r1
  have hy : dims[34]? = some x := by rw [← hd]; exact hx
  exact ⟨libH, r, s, x, r1, s1, hx, hy,
    (C42_convertible libH Real.pi_pos r1 hx r3 s1 hy s3 (hsafe Real.pi Real.pi_pos) _).2 rfl⟩

/-- C42: the default unit of each base class is its SI unit (bit for information); currency has none. -/
theorem C42_defaults (h : Hasher) (π : K) (c : UClass) :
    (loaded table π h).defaults c = match c with
      | .time => some [(⟨.time, "second"⟩, 1)]
      | .length => some [(⟨.length, "meter"⟩, 1)]
      | .substance => some [(⟨.substance, "mole"⟩, 1)]
      | .mass => some [(⟨.mass, "kilogram"⟩, 1)]
      | .current => some [(⟨.current, "ampere"⟩, 1)]
      | .luminousIntensity => some [(⟨.luminousIntensity, "candela"⟩, 1)]
      | .temperature => some [(⟨.temperature, "Kelvin"⟩, 1)]
      | .information => some [(⟨.information, "bit"⟩, 1)]
      | _ => none := by
  rw [loaded_defaults h π table constTable full_sub full_eq]
  cases c <;> rfl

/-- C42: every default unit is a base unit of its class. -/
theorem C42_good_defaults (h : Hasher) {π : K} (_hπ : 0 < π) : GoodDefaults (loaded saneTable π h) := by
  intro c d hd
  rw [loaded_defaults h π saneTable _ saneTable_sub saneTable_eq] at hd
  obtain ⟨u, hu, rfl⟩ := Option.map_eq_some_iff.1 hd
  obtain ⟨h1, h2⟩ := defaultOf_spec c u hu
  obtain ⟨k1, k2, k3⟩ := base_conv h (π := π) h1
  exact ⟨unitDim_ok k1, u, h2, k1, k2, compatible_refl _ _⟩

/-- C79 (partial: all units but one): every shipped unit of a base class except `statampere` can be expressed in the default
unit of its class. -/
theorem C79_class_partial (h : Hasher) {π : K} (hπ : 0 < π) {r : Row} (hr : r ∈ saneTable)
    (hi : r.cls.irreducible = true) (hn : r.key ≠ ⟨.current, "statampere"⟩) :
    ∃ d, (loaded saneTable π h).defaults r.key.cls = some d ∧ Compatible (loaded saneTable π h) (unitDim r.key) d :=
  (meets_default h hπ hr hi hn).2

/-- C79 does not hold of `statampere` (`units/electromagnetism.py` 55-60): declared a unit of current,
it is not convertible to ampere, the default unit of current. -/
theorem C79_false_statampere (h : Hasher) {π : K} (hπ : 0 < π) :
    (⟨.current, "statampere"⟩ : UKey) ∈ (loaded saneTable π h).units.map Prod.fst ∧
    (loaded saneTable π h).defaults .current = some [(⟨.current, "ampere"⟩, 1)] ∧
    ¬ Compatible (loaded saneTable π h) [(⟨.current, "statampere"⟩, 1)] [(⟨.current, "ampere"⟩, 1)] := by
  have hlt : statampereRow < nUnits := by decide
  obtain ⟨r, t1, -, t3⟩ := table_get_unit hlt
  have hk : r.key = ⟨.current, "statampere"⟩ := (keyAt_get t1).symm.trans statampere_key
  have hr : r ∈ saneTable := List.mem_filter.2 ⟨List.mem_of_getElem? t1, t3⟩
  have hj : 186 ∈ baseRows := by decide
  obtain ⟨s, s1, s2, s3, s4, s5⟩ := base_sane hj
  have hsk : s.key = ⟨.current, "ampere"⟩ := s3.symm.trans ampere_key
  refine ⟨?_, ?_, ?_⟩
  · obtain ⟨i, i1, -⟩ := load_info h (π := π) saneTable_sub hr
    rw [← hk]; exact known_of_info i1
  · rw [loaded_defaults h π saneTable _ saneTable_sub saneTable_eq]; rfl
  · have := row_compat h hπ t1 statampere_dims t3 s2 ampere_dims (List.mem_filter.1 s1).2
    rw [hk, hsk] at this
    intro hc
    exact absurd (this.1 hc) (by decide)

/-- Every shipped unit but one can be expressed in default units. -/
theorem row_simplifies (h : Hasher) {π : K} (hπ : 0 < π) {r : Row} (hr : r ∈ saneTable)
    (hd0 : r.cls ≠ .dimensionless) (hn : r.key ≠ ⟨.current, "statampere"⟩) :
    Simplifies (loaded saneTable π h) r.key := by
  have hw := sane_reachable h hπ
  have rowOf := fun u => sane_row h π (u := u)
  obtain ⟨i, i1, i2, i3, -⟩ := load_info h (π := π) saneTable_sub hr
  rcases hi : r.cls.irreducible with _ | _
  · -- derived units are defined, and their references are in base units
    right
    refine ⟨hi, ?_⟩
    rcases hd : r.definition with _ | ex
    · exfalso
      obtain ⟨j, x, ht, hx⟩ := sane_index hr
      obtain ⟨y, hy, hl, hdef⟩ := dims_get ht
      rw [hd] at hdef
      simp only at hdef
      split at hdef
      · rename_i hc
        exact hd0 hc
      · obtain ⟨s, s1, s2, s3, s4, s5⟩ := base_sane hdef.1
        rw [ht] at s2
        cases s2
        have := (baseClasses_irreducible _ s5).1
        rw [hi] at this; cases this
    · rcases hcr : i.convRef with _ | ref
      · have := i3.1 hcr; rw [hd] at this; cases this
      · have hcr' : (loaded saneTable π h).convRef r.key = some ref := by rw [convRef_of_info i1, hcr]
        refine ⟨ref, hcr', fun kv' hkv' => ?_⟩
        obtain ⟨-, b⟩ := hw.wf.refBase _ _ hcr'
        obtain ⟨s, hs, e'⟩ := rowOf _ (b.known kv' hkv')
        obtain ⟨i', i1', i2', i3', -⟩ := load_info h (π := π) saneTable_sub hs
        have hbase := b.base kv' hkv'
        rw [e'] at hbase
        rw [convRef_of_info i1'] at hbase
        have hdn := i3'.1 hbase
        obtain ⟨j, x, ht, hx⟩ := sane_index hs
        obtain ⟨y, hy, hl, hdef⟩ := dims_get ht
        rw [hdn] at hdef
        simp only at hdef
        split at hdef
        · rename_i hc
          have := b.notDimless kv' hkv'
          rw [e'] at this
          exact absurd hc this
        · obtain ⟨s', s1, s2, s3, s4, s5⟩ := base_sane hdef.1
          rw [ht] at s2
          cases s2
          rw [e']
          refine meets_default h hπ hs (baseClasses_irreducible _ s5).1 fun hst => ?_
          have : keyAt table j ∈ baseKeys := List.mem_map.2 ⟨j, hdef.1, rfl⟩
          rw [s3, hst, baseKeys_eq] at this
          revert this
          simp [statampere]
  · exact Or.inl (meets_default h hπ hr hi hn)

/-- C79: `simplified` succeeds on every quantity in shipped units, `statampere` excepted, whatever its
exponents. -/
theorem C79_simplified_partial (h : Hasher) {π : K} (hπ : 0 < π) (hds : DefaultsSafe (loaded saneTable π h))
    (q : Quantity K) (hq : DimOK (loaded saneTable π h) q.dim)
    (hn : ∀ kv ∈ q.dim, kv.1 ≠ ⟨.current, "statampere"⟩) (fuel : Nat) (hf : 3 ≤ fuel) :
    Returns (q.simplified (loaded saneTable π h) fuel) := by
  have hw := sane_reachable h hπ
  rw [C19_returns hw hds q fuel hf hq]
  intro kv hkv
  obtain ⟨r, hr, e⟩ := sane_row h π (hq.known kv hkv)
  rw [e]
  exact row_simplifies h hπ hr (by have := hq.notDimless kv hkv; rw [e] at this; exact this) (e ▸ hn kv hkv)

/-- There is a hash function for which the hypothesis on collisions holds of the whole library. -/
example : ∃ h : Hasher, DefaultsSafe (loaded saneTable Real.pi h) ∧
    Returns ((⟨NDArr.scalar (3 : ℝ), [(footRow.key, 2)]⟩ : Quantity ℝ).simplified (loaded saneTable Real.pi h) 3) := by
  have hf : footRow ∈ saneTable := List.mem_filter.2 ⟨foot_mem, by decide⟩
  have hk := sane_known libH Real.pi hf
  refine ⟨libH, lib_defaultsSafe Real.pi_pos, C79_simplified_partial libH Real.pi_pos (lib_defaultsSafe Real.pi_pos)
    _ ⟨⟨by simp [Dict.Nodup], by simp⟩, ?_, ?_⟩ ?_ 3 le_rfl⟩
  · intro kv hkv
    rw [List.mem_singleton.1 hkv]; exact hk
  · intro kv hkv
    rw [List.mem_singleton.1 hkv]; decide
  · intro kv hkv
    rw [List.mem_singleton.1 hkv]; decide

end PQ
