import Verif.Lemmas.Shipped3
import Verif.Spec.Simplify

/-!
# Dimensions and default units of the shipped library
-/

namespace PQ.Shipped

open Dict World LawfulRPow

variable {K : Type _} [Field K] [LinearOrder K] [IsStrictOrderedRing K] [RPow K] [LawfulRPow K]

theorem baseRows_check : baseRows.map (fun j => (table[j]?).map (fun r => (r.cls, r.definition.isNone)))
    = baseClasses.map (fun c => some (c, true)) := by decide +kernel

theorem default_time : (unitTable.find? (fun r => r.cls.irreducible && decide (r.cls = .time))).map Row.key =
    some ⟨.time, "second"⟩ := by rfl
theorem default_length : (unitTable.find? (fun r => r.cls.irreducible && decide (r.cls = .length))).map Row.key =
    some ⟨.length, "meter"⟩ := by rfl
theorem default_substance : (unitTable.find? (fun r => r.cls.irreducible && decide (r.cls = .substance))).map Row.key =
    some ⟨.substance, "mole"⟩ := by rfl
theorem default_mass : (unitTable.find? (fun r => r.cls.irreducible && decide (r.cls = .mass))).map Row.key =
    some ⟨.mass, "kilogram"⟩ := by rfl
theorem default_current : (unitTable.find? (fun r => r.cls.irreducible && decide (r.cls = .current))).map Row.key =
    some ⟨.current, "ampere"⟩ := by rfl
theorem default_luminous :
    (unitTable.find? (fun r => r.cls.irreducible && decide (r.cls = .luminousIntensity))).map Row.key =
    some ⟨.luminousIntensity, "candela"⟩ := by rfl
theorem default_temperature :
    (unitTable.find? (fun r => r.cls.irreducible && decide (r.cls = .temperature))).map Row.key =
    some ⟨.temperature, "Kelvin"⟩ := by rfl
theorem default_information :
    (unitTable.find? (fun r => r.cls.irreducible && decide (r.cls = .information))).map Row.key =
    some ⟨.information, "bit"⟩ := by rfl
theorem no_currency : table.all (fun r => decide (r.cls ≠ .currency)) = true := by decide +kernel

theorem baseKeys_eq : baseKeys = [⟨.time, "second"⟩, ⟨.length, "meter"⟩, ⟨.substance, "mole"⟩,
    ⟨.mass, "kilogram"⟩, ⟨.current, "ampere"⟩, ⟨.luminousIntensity, "candela"⟩, ⟨.temperature, "Kelvin"⟩,
    ⟨.information, "bit"⟩] := by rfl

theorem ampere_key : keyAt table 186 = ⟨.current, "ampere"⟩ := by rfl

theorem statampere_dims : dims[statampereRow]? = some [-4, 3, 0, 1, 0, 0, 0, 0] := by decide +kernel

theorem ampere_dims : dims[186]? = some [0, 0, 0, 0, 2, 0, 0, 0] := by decide +kernel

/-- The row of `foot`. -/
def footRow : Row := ⟨.length, "foot", (some (.mul (.num 12 1) (.unit 44))), (some "ft"), none,
  ["feet", "international_footinternational_feet"]⟩

theorem foot_mem : footRow ∈ table := by
  have : table[45]? = some footRow := by rfl
  exact List.mem_of_getElem? this

/-- `international_foot` as code points. -/
def footCodes : List Nat := [105, 110, 116, 101, 114, 110, 97, 116, 105, 111, 110, 97, 108, 95, 102, 111, 111, 116]

theorem footCodes_not : labelCodes.all (fun ns => !(Nat.beq (packNat ns) (packNat footCodes))) = true := by
  decide +kernel

theorem no_international_foot : "international_foot" ∉ table.flatMap Row.labels := by
  rw [labels_eq]
  intro h
  obtain ⟨ns, hns, e⟩ := List.mem_map.1 h
  have h1 := List.all_eq_true.1 footCodes_not ns hns
  have hv := List.all_eq_true.1 labelCodes_valid ns hns
  have e2 : (decodeStr ns).toList.map Char.toNat = "international_foot".toList.map Char.toNat := by rw [e]
  have e3 : "international_foot".toList.map Char.toNat = footCodes := by rfl
  have e4 : (decodeStr ns).toList.map Char.toNat = ns := by
    simp only [decodeStr, String.toList_ofList, List.map_map]
    have : ns.map (Char.toNat ∘ Char.ofNat) = ns.map id := by
      refine List.map_congr_left fun n hn => ?_
      have := List.all_eq_true.1 hv n hn
      exact char_ofNat_toNat (by simpa [Nat.blt_eq] using this)
    rw [this, List.map_id]
  rw [e3, e4] at e2
  rw [e2] at h1
  simp at h1

theorem statampere_key : keyAt table statampereRow = ⟨.current, "statampere"⟩ := by rfl

attribute [local irreducible] table unitTable constTable dims

theorem baseKeys_nodup : baseKeys.Nodup := by
  have : (baseKeys.map UKey.cls).Nodup := by rw [baseKeys_eq]; decide
  exact this.of_map

/-- The row of a base unit. -/
theorem base_row {j : Nat} (hj : j ∈ baseRows) : ∃ r, table[j]? = some r ∧ r.definition = none ∧
    r.cls ∈ baseClasses := by
  have h : (table[j]?).map (fun r => (r.cls, r.definition.isNone)) ∈
      baseClasses.map (fun c => some (c, true)) := by
    rw [← baseRows_check]; exact List.mem_map.2 ⟨j, hj, rfl⟩
  obtain ⟨c, hc, h⟩ := List.mem_map.1 h
  rcases ht : table[j]? with _ | r
  · rw [ht] at h; cases h
  · rw [ht] at h
    simp only [Option.map_some, Option.some.injEq, Prod.mk.injEq] at h
    refine ⟨r, rfl, ?_, h.1 ▸ hc⟩
    rcases hd : r.definition with _ | e
    · rfl
    · rw [hd] at h; simp at h

theorem baseClasses_irreducible : ∀ c ∈ baseClasses, c.irreducible = true ∧ c ≠ .dimensionless := by decide

theorem base_sane {j : Nat} (hj : j ∈ baseRows) : ∃ r ∈ saneTable, table[j]? = some r ∧ keyAt table j = r.key ∧
    r.definition = none ∧ r.cls ∈ baseClasses := by
  obtain ⟨r, h1, h2, h3⟩ := base_row hj
  exact ⟨r, List.mem_filter.2 ⟨List.mem_of_getElem? h1, by simp [Row.positive, h2]⟩, h1, keyAt_get h1, h2, h3⟩

theorem sane_index {r : Row} (hr : r ∈ saneTable) : ∃ (i : Nat) (x : List Int), table[i]? = some r ∧ dims[i]? = some x := by
  obtain ⟨i, hi⟩ := List.getElem?_of_mem (saneTable_sub.subset hr)
  obtain ⟨x, hx, -⟩ := dims_get hi
  exact ⟨i, x, hi, hx⟩

/-- Product of powers when one base has size 2 and the others 1. -/
theorem gsize_update {b : UKey → K} {k : UKey} (hb : ∀ u, u ≠ k → b u = 1) (hk : b k = 2) :
    ∀ (ks : List UKey) (x : List Int) (m : Nat) (e : Int), ks.Nodup → ks[m]? = some k → x[m]? = some e →
      gsize b ks x = rpow (2 : K) ((e : ℚ) / 2)
  | [], _, _, _, _, h, _ => by simp at h
  | _ :: _, [], _, _, _, _, h => by simp at h
  | k' :: ks, e' :: x, 0, e, hn, h1, h2 => by
      simp only [List.getElem?_cons_zero, Option.some.injEq] at h1 h2
      subst h1 h2
      rw [List.nodup_cons] at hn
      have : ∀ (ks : List UKey) (x : List Int), k' ∉ ks → gsize b ks x = 1 := by
        intro ks
        induction ks with
        | nil => intro x _; simp [gsize]
        | cons q ks ih =>
          intro x hx
          rcases x with _ | ⟨y, x⟩
          · simp [gsize]
          · simp only [List.mem_cons, not_or] at hx
            have := ih x hx.2
            simp only [gsize, List.zipWith_cons_cons, List.prod_cons] at this ⊢
            rw [this, hb q (Ne.symm hx.1), rpow_one_left, one_mul]
      have h := this ks x hn.1
      simp only [gsize, List.zipWith_cons_cons, List.prod_cons] at h ⊢
      rw [h, hk, mul_one]
  | k' :: ks, e' :: x, m + 1, e, hn, h1, h2 => by
      simp only [List.getElem?_cons_succ] at h1 h2
      rw [List.nodup_cons] at hn
      have h := gsize_update hb hk ks x m e hn.2 h1 h2
      have hne : k' ≠ k := by rintro rfl; exact hn.1 (List.mem_of_getElem? h1)
      simp only [gsize, List.zipWith_cons_cons, List.prod_cons] at h ⊢
      rw [h, hb k' hne, rpow_one_left, one_mul]

theorem gsize_congr {b b' : UKey → K} : ∀ (ks : List UKey) (x : List Int), (∀ k ∈ ks, b k = b' k) →
    gsize b ks x = gsize b' ks x
  | [], _, _ => by simp [gsize]
  | _ :: _, [], _ => by simp [gsize]
  | k :: ks, e :: x, h => by
      have := gsize_congr ks x (fun q hq => h q (by simp [hq]))
      simp only [gsize, List.zipWith_cons_cons, List.prod_cons] at this ⊢
      rw [this, h k (by simp)]

section
variable (h : Hasher) {π : K} (hπ : 0 < π)

theorem base_conv {k : UKey} (hk : k ∈ baseKeys) :
    k ∈ (loaded saneTable π h : World K).units.map Prod.fst ∧ (loaded saneTable π h : World K).convRef k = none ∧
      k.cls ≠ .dimensionless := by
  obtain ⟨j, hj, rfl⟩ := List.mem_map.1 hk
  obtain ⟨r, h1, h2, h3, h4, h5⟩ := base_sane hj
  obtain ⟨i, i1, i2, i3, -⟩ := load_info h (π := π) saneTable_sub h1
  rw [h3]
  refine ⟨known_of_info i1, ?_, (baseClasses_irreducible _ h5).2⟩
  rw [convRef_of_info i1]
  exact i3.2 h4

include hπ

/-- Two shipped units are compatible exactly when they have the same exponents. -/
theorem row_compat {i j : Nat} {r s : Row} {x y : List Int} (hr : table[i]? = some r) (hx : dims[i]? = some x)
    (hrp : r.positive = true) (hs : table[j]? = some s) (hy : dims[j]? = some y) (hsp : s.positive = true) :
    Compatible (loaded saneTable π h) (unitDim r.key) (unitDim s.key) ↔ x = y := by
  have hw := sane_reachable h hπ
  obtain ⟨c, c0, hc⟩ := row_size h hw i r x hr hx hrp
  obtain ⟨d, d0, hd⟩ := row_size h hw j s y hs hy hsp
  constructor
  · rintro ⟨k, hk⟩
    have key : ∀ b : UKey → K, (∀ u, 0 < b u) → c * gsize b baseKeys x = k * d * gsize b baseKeys y := by
      intro b hb
      have h1 := hk (mkValuation hw.wf b hb)
      unfold Valuation.size at h1
      rw [hc, hd] at h1
      have e : ∀ q ∈ baseKeys, (mkValuation hw.wf b hb).val q = b q := by
        intro q hq
        obtain ⟨-, b2, b3⟩ := base_conv h (π := π) hq
        exact mkVal_base b2 b3
      rw [gsize_congr baseKeys x e, gsize_congr baseKeys y e] at h1
      rw [h1]; ring
    have one : ∀ z : List Int, gsize (fun _ => (1 : K)) baseKeys z = 1 := by
      intro z
      have : ∀ (ks : List UKey) (z : List Int), gsize (fun _ => (1 : K)) ks z = 1 := by
        intro ks
        induction ks with
        | nil => intro z; simp [gsize]
        | cons q ks ih =>
          intro z
          rcases z with _ | ⟨e, z⟩
          · simp [gsize]
          · have := ih z
            simp only [gsize, List.zipWith_cons_cons, List.prod_cons] at this ⊢
            rw [this, rpow_one_left, one_mul]
      exact this baseKeys z
    have hcd : c = k * d := by
      have := key (fun _ => 1) (fun _ => one_pos)
      rwa [one, one, mul_one, mul_one] at this
    have lx := dims_len8 i x hx
    have ly := dims_len8 j y hy
    refine List.ext_getElem (by rw [lx, ly]) fun m h1 h2 => ?_
    have hm : m < baseKeys.length := by rw [baseKeys_length]; omega
    let b : UKey → K := fun u => if u = baseKeys[m] then 2 else 1
    have hb : ∀ u, 0 < b u := by
      intro u; simp only [b]; split
      · exact zero_lt_two
      · exact one_pos
    have e := key b hb
    rw [gsize_update (K := K) (b := b) (k := baseKeys[m]) (fun u hu => by simp [b, hu]) (by simp [b]) baseKeys x m x[m]
        baseKeys_nodup (by simp [hm]) (by simp [h1]),
      gsize_update (K := K) (b := b) (k := baseKeys[m]) (fun u hu => by simp [b, hu]) (by simp [b]) baseKeys y m y[m]
        baseKeys_nodup (by simp [hm]) (by simp [h2]), ← hcd] at e
    have e' := mul_left_cancel₀ c0.ne' e
    by_contra hne
    have hsub : ((x[m] : ℚ) / 2 - (y[m] : ℚ) / 2) ≠ 0 := by
      intro h0
      have h1 : (x[m] : ℚ) = y[m] := by linarith
      exact hne (by exact_mod_cast h1)
    refine rpow_ne_one (2 : K) _ one_lt_two hsub ?_
    have h3 : rpow (2 : K) ((x[m] : ℚ) / 2 - (y[m] : ℚ) / 2) * rpow (2 : K) ((y[m] : ℚ) / 2) =
        1 * rpow (2 : K) ((y[m] : ℚ) / 2) := by
      rw [← rpow_add _ _ _ zero_lt_two, sub_add_cancel, e', one_mul]
    exact mul_right_cancel₀ (rpow_pos _ _ zero_lt_two).ne' h3
  · rintro rfl
    refine ⟨c / d, fun v => ?_⟩
    unfold Valuation.size
    rw [hc, hd]
    field_simp

end

/-! ## Default units -/

/-- The first unit of a base class. -/
def defaultOf : UClass → Option UKey
  | .time => some ⟨.time, "second"⟩
  | .length => some ⟨.length, "meter"⟩
  | .substance => some ⟨.substance, "mole"⟩
  | .mass => some ⟨.mass, "kilogram"⟩
  | .current => some ⟨.current, "ampere"⟩
  | .luminousIntensity => some ⟨.luminousIntensity, "candela"⟩
  | .temperature => some ⟨.temperature, "Kelvin"⟩
  | .information => some ⟨.information, "bit"⟩
  | _ => none

theorem find_default (T t' : List Row) (hs : T.Sublist table) (ht : T = unitTable ++ t') (c : UClass) :
    (T.find? (fun r => r.cls.irreducible && decide (r.cls = c))).map Row.key = defaultOf c := by
  have hsome : ∀ {o : UKey}, (unitTable.find? (fun r => r.cls.irreducible && decide (r.cls = c))).map Row.key = some o →
      (T.find? (fun r => r.cls.irreducible && decide (r.cls = c))).map Row.key = some o := by
    intro o ho
    rw [Option.map_eq_some_iff] at ho ⊢
    obtain ⟨r, h1, h2⟩ := ho
    refine ⟨r, ?_, h2⟩
    rw [ht, List.find?_append, h1]; rfl
  have hnone : (∀ r ∈ T, (r.cls.irreducible && decide (r.cls = c)) = false) →
      (T.find? (fun r => r.cls.irreducible && decide (r.cls = c))).map Row.key = none := by
    intro hn
    rw [Option.map_eq_none_iff, List.find?_eq_none]
    intro r hr
    simp [hn r hr]
  have hirr : c.irreducible = false → ∀ r ∈ T, (r.cls.irreducible && decide (r.cls = c)) = false := by
    intro hc r _
    by_cases e : r.cls = c
    · rw [e, hc]; rfl
    · simp [e]
  cases c
  case mass => exact hsome default_mass
  case length => exact hsome default_length
  case time => exact hsome default_time
  case current => exact hsome default_current
  case luminousIntensity => exact hsome default_luminous
  case substance => exact hsome default_substance
  case temperature => exact hsome default_temperature
  case information => exact hsome default_information
  case currency =>
    refine hnone fun r hr => ?_
    have := List.all_eq_true.1 no_currency r (hs.subset hr)
    simp only [decide_eq_true_eq, ne_eq] at this
    simp [this]
  all_goals exact hnone (hirr rfl)

theorem loaded_defaults (h : Hasher) (π : K) (T t' : List Row) (hs : T.Sublist table) (ht : T = unitTable ++ t')
    (c : UClass) : (loaded T π h).defaults c = (defaultOf c).map unitDim := by
  obtain ⟨f1, f2, f3, f4⟩ := sub_fresh hs T π h
  have := (runAll_info _ _ f1 f2 f3 f4).2.2 c
  rw [loaded_eq, load, this, ← find_default T t' hs ht c, List.find?_map]
  simp only [World.init, Option.map_map]
  rfl

theorem defaultOf_spec : ∀ (c : UClass) (u : UKey), defaultOf c = some u → u ∈ baseKeys ∧ u.cls = c := by
  intro c u hu
  rw [baseKeys_eq]
  cases c <;> simp only [defaultOf, Option.some.injEq, reduceCtorEq] at hu <;> subst hu <;> simp

theorem defaultOf_base : ∀ c ∈ baseClasses, ∃ u, defaultOf c = some u := by
  intro c hc
  simp only [baseClasses, List.mem_cons, List.not_mem_nil, or_false] at hc
  rcases hc with rfl | rfl | rfl | rfl | rfl | rfl | rfl | rfl <;> exact ⟨_, rfl⟩

/-! ## Adding constants does not disturb the units -/

section
variable (h : Hasher) (π : K)

theorem runAll_append (w : World K) (as bs : List (NewUnit K)) (ha : (runAll w as).1 = none) :
    runAll w (as ++ bs) = runAll (runAll w as).2 bs := by
  induction as generalizing w with
  | nil => simp [runAll]
  | cons a as ih =>
    rw [List.cons_append, runAll, runAll]
    rw [runAll] at ha
    rcases hn : w.newUnit a with ⟨e, w'⟩
    rw [hn] at ha
    rcases e with _ | e
    · simp only at ha ⊢
      exact ih w' ha
    · simp at ha

/-- The units are stored alike whatever constants follow. -/
theorem loaded_units (T t' : List Row) (hs : T.Sublist table) (ht : T = unitTable ++ t') :
    (loaded T π h).hasher = h ∧
    ∀ r ∈ unitTable, ∃ i, (loaded unitTable π h).info r.key = some i ∧ (loaded T π h).info r.key = some i := by
  have hu : unitTable.Sublist table := (List.sublist_append_left _ _).trans (ht ▸ hs)
  have e : T.map (Row.toNew T π) = unitTable.map (Row.toNew unitTable π) ++ t'.map (Row.toNew T π) := by
    conv_lhs => rw [ht, List.map_append]
    have : t'.map (Row.toNew (unitTable ++ t') π) = t'.map (Row.toNew T π) := by rw [ht]
    rw [this]
    congr 1
    refine List.map_congr_left fun r hr => ?_
    unfold Row.toNew
    congr 1
    rcases hd : r.definition with _ | ex
    · rfl
    · obtain ⟨i, hi⟩ := List.getElem?_of_mem (hu.subset hr)
      simp only
      congr 1
      exact Expr.eval_congr π (n := nUnits) (fun j hj => keyAt_prefix _ hj) ex (sub_refs hi hd).2.1
  obtain ⟨f1, f2, f3, f4⟩ := sub_fresh hs T π h
  obtain ⟨u1, u2, u3, u4⟩ := sub_fresh hu unitTable π h
  obtain ⟨g1, g2, -⟩ := runAll_fresh _ _ f1 f2 f3 f4
  obtain ⟨k1, k2, k3, k4⟩ := runAll_fresh _ _ u1 u2 u3 u4
  refine ⟨g2, fun r hr => ?_⟩
  obtain ⟨i, i1, -⟩ := load_info h (π := π) hu hr
  refine ⟨i, i1, ?_⟩
  rw [loaded_eq, load] at i1
  rw [loaded_eq, load, e, runAll_append _ _ _ k1]
  rw [e, List.map_append, List.nodup_append] at f1
  rw [e, List.flatMap_append, List.nodup_append] at f3
  refine (runAll_info _ _ f1.2.1 ?_ f3.2.1 ?_).1 _ _ i1
  · intro a ha
    unfold World.info
    rw [get?_none_iff, k3]
    simp only [World.init, List.map_nil, List.nil_append]
    intro hm
    exact f1.2.2 _ hm _ (List.mem_map.2 ⟨a, ha, rfl⟩) rfl
  · intro a ha l hl
    rw [k4, get?_none_iff]
    simp only [World.init, List.nil_append]
    intro hm
    obtain ⟨lu, hlu, rfl⟩ := List.mem_map.1 hm
    obtain ⟨b, hb, hlb⟩ := List.mem_flatMap.1 hlu
    obtain ⟨l', hl', rfl⟩ := List.mem_map.1 hlb
    exact f3.2.2 _ (List.mem_flatMap.2 ⟨b, hb, hl'⟩) _ (List.mem_flatMap.2 ⟨a, ha, hl⟩) rfl

end

/-! ## Base classes -/

/-- The unit `statampere`. -/
def statampere : UKey := ⟨.current, "statampere"⟩

/-- A base-class unit other than `statampere` meets the default of its class. -/
theorem meets_default (h : Hasher) {π : K} (hπ : 0 < π) {r : Row} (hr : r ∈ saneTable)
    (hi : r.cls.irreducible = true) (hn : r.key ≠ statampere) : MeetsDefault (loaded saneTable π h) r.key := by
  obtain ⟨i, x, ht, hx⟩ := sane_index hr
  have hi193 : i ≠ statampereRow := by
    rintro rfl
    exact hn ((keyAt_get ht).symm.trans statampere_key)
  have hp : r.positive = true := (List.mem_filter.1 hr).2
  have hxr := classFrom_get table dims 0 i r x table_class ht hx hi (by simpa using hi193)
  -- the class is one of the eight base classes
  have hc : r.cls ∈ baseClasses := by
    have hcur := List.all_eq_true.1 no_currency r (saneTable_sub.subset hr)
    simp only [decide_eq_true_eq, ne_eq] at hcur
    rcases hcl : r.cls <;> rw [hcl] at hi hcur <;> first | decide | exact absurd hi (by decide) | exact absurd rfl hcur
  obtain ⟨u, hu⟩ := defaultOf_base _ hc
  obtain ⟨hub, huc⟩ := defaultOf_spec _ _ hu
  refine ⟨hi, unitDim u, ?_, ?_⟩
  · rw [loaded_defaults h π saneTable _ saneTable_sub saneTable_eq]
    show (defaultOf r.cls).map unitDim = _
    rw [hu]; rfl
  · obtain ⟨j, hj, rfl⟩ := List.mem_map.1 hub
    obtain ⟨s, s1, s2, s3, s4, s5⟩ := base_sane hj
    obtain ⟨y, hy, -⟩ := dims_get s2
    have hsi : s.cls.irreducible = true := (baseClasses_irreducible _ s5).1
    have hj193 : j ≠ statampereRow := by rintro rfl; revert hj; decide
    have hyr := classFrom_get table dims 0 j s y table_class s2 hy hsi (by simpa using hj193)
    have hcls : s.cls = r.cls := by
      have : s.key.cls = r.cls := s3 ▸ huc
      exact this
    rw [s3, row_compat h hπ ht hx hp s2 hy (List.mem_filter.1 s1).2, hxr, hyr, hcls]

end PQ.Shipped
