import Verif.Lemmas.Shipped4
import Verif.Lemmas.PyHash

/-!
# References of the shipped units, and a hash function under which the library has no harmful collision
-/

namespace PQ.Shipped

open Dict World LawfulRPow

theorem foot_class : (table[45]?).map Row.cls = some .length := by decide +kernel
theorem meter_class : (table[34]?).map Row.cls = some .length := by decide +kernel
theorem foot_dims : dims[45]? = dims[34]? := by decide +kernel

attribute [local irreducible] table unitTable constTable dims

variable {K : Type _} [Field K] [LinearOrder K] [IsStrictOrderedRing K] [RPow K] [LawfulRPow K]

/-- The dimensionality with half the exponents `x` in the units `ks`. -/
def expDim (ks : List UKey) (x : List Int) : Dim :=
  (List.zipWith (fun k (e : Int) => (k, (e : ℚ) / 2)) ks x).filter (fun kv => decide (kv.2 ≠ 0))

theorem expDim_keys : ∀ (ks : List UKey) (x : List Int), ((expDim ks x).map Prod.fst).Sublist ks
  | [], _ => by simp [expDim]
  | _ :: _, [] => by simp [expDim]
  | k :: ks, e :: x => by
      have := expDim_keys ks x
      simp only [expDim, List.zipWith_cons_cons, List.filter_cons] at this ⊢
      split
      · rw [List.map_cons]; exact this.cons₂ k
      · exact this.cons k

theorem dsize_expDim (val : UKey → K) : ∀ (ks : List UKey) (x : List Int),
    dsize val (expDim ks x) = gsize val ks x
  | [], _ => by simp [expDim, gsize]
  | _ :: _, [] => by simp [expDim, gsize]
  | k :: ks, e :: x => by
      have := dsize_expDim val ks x
      simp only [expDim, gsize, List.zipWith_cons_cons, List.filter_cons, List.prod_cons] at this ⊢
      split
      · rw [dsize_cons, this]
      · rename_i hz
        simp only [ne_eq, decide_not, Bool.not_eq_eq_eq_not, Bool.not_true, decide_eq_false_iff_not,
          not_not] at hz
        rw [this, hz, rpow_zero, one_mul]

theorem expDim_base (h : Hasher) (π : K) (x : List Int) : BaseDim (loaded saneTable π h) (expDim baseKeys x) := by
  have hm : ∀ kv ∈ expDim baseKeys x, kv.1 ∈ baseKeys := fun kv hkv =>
    (expDim_keys baseKeys x).subset (List.mem_map.2 ⟨kv, hkv, rfl⟩)
  refine ⟨⟨⟨baseKeys_nodup.sublist (expDim_keys _ _), fun kv hkv => ?_⟩, fun kv hkv => ?_, fun kv hkv => ?_⟩,
    fun kv hkv => ?_⟩
  · have := (List.mem_filter.1 hkv).2
    simpa using this
  · exact (base_conv h (π := π) (hm kv hkv)).1
  · exact (base_conv h (π := π) (hm kv hkv)).2.2
  · exact (base_conv h (π := π) (hm kv hkv)).2.1

/-- The reference of a shipped unit is in the base units, with the exponents listed. -/
theorem row_ref (h : Hasher) {π : K} (hπ : 0 < π) {i : Nat} {r : Row} {x : List Int}
    (hr : table[i]? = some r) (hx : dims[i]? = some x) (hp : r.positive = true) :
    SameContent ((loaded saneTable π h).refUnits (unitDim r.key)).dim (expDim baseKeys x) := by
  have hw := sane_reachable h hπ
  obtain ⟨c, c0, hc⟩ := row_size h hw i r x hr hx hp
  have hk : r.key ∈ (loaded saneTable π h).units.map Prod.fst := by
    obtain ⟨i, i1, -⟩ := load_info h (π := π) saneTable_sub (List.mem_filter.2 ⟨List.mem_of_getElem? hr, hp⟩)
    exact known_of_info i1
  obtain ⟨a1, a2, a3⟩ := refUnits_spec hw.wf (unitDim_ok hk)
  refine base_content_of_ratio hw.wf a2 (expDim_base h π x)
    (c / ((loaded saneTable π h).refUnits (unitDim r.key)).mag) fun v => ?_
  have h1 := a3 v
  unfold Valuation.size at h1 ⊢
  rw [hc v, ← dsize_expDim] at h1
  rw [div_mul_eq_mul_div, ← h1]
  field_simp

/-- A hash function telling all shipped units apart. -/
def libH : Hasher where
  base := 0
  key u := ((table.map Row.key).idxOf u : Nat)
  pair a b := if b = 1 then BitVec.ofInt 64 (a + 1) else 0

theorem table_length : table.length = 670 := by
  have h1 := congrArg List.length keys_eq
  rw [List.length_map, List.length_map] at h1
  rw [h1]
  decide +kernel

theorem hashed_one : pyHashNum (hashedExponent 1) = 1 := by
  have h1 : hashedExponent 1 = ((1 : ℕ) : ℚ) := by
    unfold hashedExponent; rw [if_neg (by norm_num)]; norm_num
  rw [h1, pyHashNum_nat]; decide

theorem idx_lt {r : Row} (hr : r ∈ table) : (table.map Row.key).idxOf r.key < 670 := by
  have hm : r.key ∈ table.map Row.key := List.mem_map.2 ⟨r, hr, rfl⟩
  have := List.idxOf_lt_length_of_mem hm
  rwa [List.length_map, table_length] at this

theorem libHash1 {r : Row} (hr : r ∈ table) (ord : UKey → Nat × Nat) : Dim.hash libH ord [(r.key, 1)] =
    BitVec.ofNat 64 ((table.map Row.key).idxOf r.key + 1) := by
  have hlt := idx_lt hr
  simp only [Dim.hash, rawHash_eq, List.foldl_cons, List.foldl_nil, Hasher.item, hashed_one]
  have e : libH.pair (libH.key r.key) 1 = BitVec.ofNat 64 ((table.map Row.key).idxOf r.key + 1) := by
    have : libH.pair (libH.key r.key) 1 = BitVec.ofInt 64 (((table.map Row.key).idxOf r.key : Nat) + 1 : Int) := rfl
    rw [this]
    exact_mod_cast BitVec.ofInt_natCast 64 _
  rw [e]
  have hb : libH.base = 0#64 := rfl
  rw [hb, BitVec.zero_xor, if_neg]
  intro hh
  have := congrArg BitVec.toNat hh
  rw [BitVec.toNat_ofNat, Nat.mod_eq_of_lt (by omega)] at this
  simp at this
  omega

theorem libHash_inj {r s : Row} (hr : r ∈ table) (hs : s ∈ table) (ord : UKey → Nat × Nat)
    (he : Dim.hash libH ord [(r.key, 1)] = Dim.hash libH ord [(s.key, 1)]) : r.key = s.key := by
  rw [libHash1 hr, libHash1 hs] at he
  have h1 := idx_lt hr
  have h2 := idx_lt hs
  have := congrArg BitVec.toNat he
  rw [BitVec.toNat_ofNat, BitVec.toNat_ofNat, Nat.mod_eq_of_lt (by omega), Nat.mod_eq_of_lt (by omega)] at this
  have hm : r.key ∈ table.map Row.key := List.mem_map.2 ⟨r, hr, rfl⟩
  exact (List.idxOf_inj hm).1 (by omega)

theorem hash_congr {h : Hasher} (o o' : UKey → Nat × Nat) {a b : Dim} (ha : Nodup a) (hb : Nodup b)
    (hs : SameContent a b) : Dim.hash h o a = Dim.hash h o' b :=
  hash_perm h o o' (perm_of_get?_eq ha hb hs)

theorem statampere_hash (ord : UKey → Nat × Nat) :
    Dim.hash libH ord (expDim baseKeys [-4, 3, 0, 1, 0, 0, 0, 0]) = 0#64 := by
  have e : expDim baseKeys [-4, 3, 0, 1, 0, 0, 0, 0] =
      [(⟨.time, "second"⟩, -2), (⟨.length, "meter"⟩, 3 / 2), (⟨.mass, "kilogram"⟩, 1 / 2)] := by
    rw [baseKeys_eq]
    simp only [expDim, List.zipWith_cons_cons, List.zipWith_nil_left]
    norm_num [List.filter_cons]
  have z : ∀ (k : UKey) (q : ℚ), SmallExp q → q ≠ 1 → libH.item k (hashedExponent q) = 0#64 := by
    intro k q hq h1
    have : pyHashNum (hashedExponent q) ≠ 1 := by
      intro h2
      rw [← hashed_one] at h2
      exact h1 (exponentHash_inj hq (by unfold SmallExp; norm_num) h2)
    show libH.pair _ _ = _
    unfold libH
    simp only [this, if_false]
    rfl
  have hb : libH.base = 0#64 := rfl
  rw [e]
  simp only [Dim.hash, rawHash_eq, List.foldl_cons, List.foldl_nil]
  rw [z _ _ (by unfold SmallExp; norm_num) (by norm_num), z _ _ (by unfold SmallExp; norm_num) (by norm_num),
    z _ _ (by unfold SmallExp; norm_num) (by norm_num), hb]
  decide

/-- The unit of a key of the library. -/
theorem sane_row (h : Hasher) (π : K) {u : UKey} (hu : u ∈ (loaded saneTable π h).units.map Prod.fst) :
    ∃ r ∈ saneTable, u = r.key := by
  obtain ⟨f1, f2, f3, f4⟩ := sub_fresh saneTable_sub saneTable π h
  have := (runAll_fresh _ _ f1 f2 f3 f4).2.2.1
  rw [loaded_eq, load, this] at hu
  simp only [World.init, List.map_nil, List.nil_append, List.map_map] at hu
  obtain ⟨r, hr, rfl⟩ := List.mem_map.1 hu
  exact ⟨r, hr, rfl⟩

theorem sane_known (h : Hasher) (π : K) {r : Row} (hr : r ∈ saneTable) :
    r.key ∈ (loaded saneTable π h).units.map Prod.fst := by
  obtain ⟨i, i1, -⟩ := load_info h (π := π) saneTable_sub hr
  exact known_of_info i1

theorem sane_hasher (h : Hasher) (π : K) : (loaded saneTable π h).hasher = h :=
  (loaded_units h π saneTable _ saneTable_sub saneTable_eq).1

/-- Two compatible units of the library with different hashes convert without collision. -/
theorem safe_of_compat {π : K} {r s : Row} (hr : r ∈ saneTable) (hs : s ∈ saneTable)
    (hrd : r.cls ≠ .dimensionless) (hsd : s.cls ≠ .dimensionless)
    (hrefs : NoColl (loaded saneTable π libH) ((loaded saneTable π libH).refUnits (unitDim r.key)).dim
      ((loaded saneTable π libH).refUnits (unitDim s.key)).dim) :
    HashSafe (loaded saneTable π libH) (unitDim r.key) (unitDim s.key) := by
  refine ⟨fun he => ?_, hrefs⟩
  have h1 : unitDim r.key = [(r.key, 1)] := if_neg hrd
  have h2 : unitDim s.key = [(s.key, 1)] := if_neg hsd
  rw [h1, h2] at he ⊢
  unfold World.deq Dim.eq at he
  rw [sane_hasher, beq_iff_eq] at he
  rw [libHash_inj (saneTable_sub.subset hr) (saneTable_sub.subset hs) _ he]
  exact SameContent.refl _

/-- No unit of the library collides with the default of its class. -/
theorem lib_defaultsSafe {π : K} (hπ : 0 < π) : DefaultsSafe (loaded saneTable π libH) := by
  intro u d hu hd
  have hw := sane_reachable libH hπ
  obtain ⟨r, hr, rfl⟩ := sane_row libH π hu
  rw [loaded_defaults libH π saneTable _ saneTable_sub saneTable_eq] at hd
  obtain ⟨du, hdu, rfl⟩ := Option.map_eq_some_iff.1 hd
  obtain ⟨hb, hc⟩ := defaultOf_spec _ _ hdu
  obtain ⟨j, hj, rfl⟩ := List.mem_map.1 hb
  obtain ⟨s, s1, s2, s3, s4, s5⟩ := base_sane hj
  rw [s3] at hc ⊢
  have hcls : s.cls = r.cls := hc
  have hi : r.cls.irreducible = true := hcls ▸ (baseClasses_irreducible _ s5).1
  have hsd := (baseClasses_irreducible _ s5).2
  have hrd : r.cls ≠ .dimensionless := hcls ▸ hsd
  refine safe_of_compat hr s1 hrd hsd ?_
  by_cases hn : r.key = statampere
  · -- `statampere`: the references differ
    obtain ⟨i, x, ht, hx⟩ := sane_index hr
    have hp : r.positive = true := (List.mem_filter.1 hr).2
    have hlt : statampereRow < nUnits := by decide
    obtain ⟨r', t1, -, t3⟩ := table_get_unit hlt
    have hk' : r'.key = statampere := (keyAt_get t1).symm.trans statampere_key
    have ref1 := row_ref libH hπ t1 statampere_dims t3
    obtain ⟨y, hy, -⟩ := dims_get s2
    have ref2 := row_ref libH hπ s2 hy (List.mem_filter.1 s1).2
    have hj193 : j ≠ statampereRow := by rintro rfl; revert hj; decide
    have hyr := classFrom_get table dims 0 j s y table_class s2 hy (hcls ▸ hi) (by simpa using hj193)
    have hscls : s.cls = .current := by
      rw [hcls]
      have : r.key.cls = .current := by rw [hn]; rfl
      exact this
    rw [hscls] at hyr
    have hye : y = [0, 0, 0, 0, 2, 0, 0, 0] := by rw [hyr]; decide
    intro he
    exfalso
    unfold World.deq Dim.eq at he
    rw [sane_hasher, beq_iff_eq] at he
    rw [hn, ← hk'] at he
    have ok1 := (refUnits_spec hw.wf (unitDim_ok (sane_known libH π (List.mem_filter.2 ⟨List.mem_of_getElem? t1, t3⟩)))).2.1
    have ok2 := (refUnits_spec hw.wf (unitDim_ok (sane_known libH π s1))).2.1
    rw [hash_congr (loaded saneTable π libH).order (loaded saneTable π libH).order ok1.canon.nodup
        (expDim_base libH π _).canon.nodup ref1,
      hash_congr (loaded saneTable π libH).order (loaded saneTable π libH).order ok2.canon.nodup
        (expDim_base libH π _).canon.nodup ref2, statampere_hash, hye] at he
    have e2 : expDim baseKeys [0, 0, 0, 0, 2, 0, 0, 0] = [(⟨.current, "ampere"⟩, 1)] := by
      rw [baseKeys_eq]
      simp only [expDim, List.zipWith_cons_cons, List.zipWith_nil_left]
      norm_num [List.filter_cons]
    obtain ⟨a, a1, a2, a3, -⟩ := base_sane (show 186 ∈ baseRows by decide)
    have hak : a.key = ⟨.current, "ampere"⟩ := a3.symm.trans ampere_key
    rw [e2, ← hak, libHash1 (saneTable_sub.subset a1)] at he
    have h1 := idx_lt (saneTable_sub.subset a1)
    have := congrArg BitVec.toNat he
    rw [BitVec.toNat_ofNat, BitVec.toNat_ofNat, Nat.mod_eq_of_lt (a := (table.map Row.key).idxOf a.key + 1) (by omega)] at this
    omega
  · intro _
    obtain ⟨-, d, hd1, hd2⟩ := meets_default libH hπ hr hi hn
    rw [loaded_defaults libH π saneTable _ saneTable_sub saneTable_eq, hdu] at hd1
    simp only [Option.map_some, Option.some.injEq] at hd1
    subst hd1
    rw [s3] at hd2
    exact (compatible_iff hw.wf (unitDim_ok (sane_known libH π hr)) (unitDim_ok (sane_known libH π s1))).1 hd2

/-- `foot` and `meter` under this hash function. -/
theorem foot_meter : ∃ r s : Row, table[45]? = some r ∧ table[34]? = some s ∧ r.positive = true ∧ s.positive = true ∧
    dims[45]? = dims[34]? ∧ ∀ π : ℝ, 0 < π → HashSafe (loaded saneTable π libH) (unitDim r.key) (unitDim s.key) := by
  obtain ⟨r, r1, -, r3⟩ := table_get_unit (show 45 < nUnits by decide)
  obtain ⟨s, s1, -, s3⟩ := table_get_unit (show 34 < nUnits by decide)
  have hr : r ∈ saneTable := List.mem_filter.2 ⟨List.mem_of_getElem? r1, r3⟩
  have hs : s ∈ saneTable := List.mem_filter.2 ⟨List.mem_of_getElem? s1, s3⟩
  have hrc : r.cls = .length := by
    have h1 : (table[45]?).map Row.cls = some .length := foot_class
    rw [r1] at h1; simpa using h1
  have hsc : s.cls = .length := by
    have h1 : (table[34]?).map Row.cls = some .length := meter_class
    rw [s1] at h1; simpa using h1
  refine ⟨r, s, r1, s1, r3, s3, foot_dims, fun π hπ => ?_⟩
  have hw := sane_reachable (K := ℝ) libH hπ
  obtain ⟨x, hx, -⟩ := dims_get r1
  have hy : dims[34]? = some x := by rw [← foot_dims]; exact hx
  exact safe_of_compat hr hs (by rw [hrc]; decide) (by rw [hsc]; decide) fun _ =>
    (compatible_iff hw.wf (unitDim_ok (sane_known libH π hr)) (unitDim_ok (sane_known libH π hs))).1
      ((row_compat libH hπ r1 hx r3 s1 hy s3).2 rfl)

end PQ.Shipped
