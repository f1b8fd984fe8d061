import Verif.Lemmas.ShippedStandards
import Verif.Lemmas.ShippedExample
import Verif.Props.Shipped

/-!
# C140–C142: the sizes and symbols of the shipped units

The specification `Spec/Standards.lean` lists the prefixes, the standard symbols and the standard definitions.
A unit is referred to by a name under which the registry knows it.  `v.size` is the size of a unit in any
assignment of sizes that agrees with the library's definitions, so the theorems say what every conversion
does; `C140_rescale` and `C141_rescale` spell that out for `rescale`.
-/

namespace PQ

open World Dict LawfulRPow Shipped

attribute [local irreducible] table unitTable constTable dims coefs unitLabels

variable {K : Type _} [Field K] [LinearOrder K] [IsStrictOrderedRing K] [RPow K] [LawfulRPow K]

/-- If one unit is a fixed multiple of another, `rescale` multiplies by that. -/
theorem rescale_by {w : World K} (hw : WF w) {a b : Dim} (ha : DimOK w a) (hb : DimOK w b) (hs : HashSafe w a b) {c : K}
    (hc : ∀ v : Valuation w, v.size a = c * v.size b) (m : NDArr K) :
    ∃ r, (⟨m, a⟩ : Quantity K).rescale w b = .ok r ∧ SameContent r.dim b ∧ r.mag = m.map (fun x => c * x) := by
  have hr := (rescale_returns hw (q := ⟨m, a⟩) ha hb hs).2 ⟨c, hc⟩
  rcases he : (⟨m, a⟩ : Quantity K).rescale w b with e | r
  · rw [he] at hr; exact absurd hr (not_returns_error e)
  · obtain ⟨-, h2, -, -, cf, -, h5, h6⟩ := rescale_ok hw (q := ⟨m, a⟩) ha hb hs he
    refine ⟨r, rfl, h2, ?_⟩
    obtain ⟨v⟩ := exists_valuation hw
    have e1 := h6 v
    rw [hc v] at e1
    have hp : v.size b ≠ 0 := (dsize_pos v.pos b).ne'
    rw [h5, mul_right_cancel₀ hp e1]

theorem unit_sane {r : Row} (hr : r ∈ unitTable) : r ∈ saneTable := by
  rw [saneTable_eq]; exact List.mem_append_left _ hr

theorem row_bound (h : Hasher) (π : K) {r : Row} (hr : r ∈ unitTable) {l : String} (hl : l ∈ r.labels) :
    get? (loaded saneTable π h).registry l = some r.key :=
  (loaded_labels saneTable_sub h π l r.key).2 ⟨r, unit_sane hr, hl, rfl⟩

theorem bound_row (h : Hasher) (π : K) {l : String} {u : UKey} (hu : get? (loaded saneTable π h).registry l = some u) :
    ∃ (i : Nat) (r : Row), unitTable[i]? = some r ∧ l ∈ r.labels ∧ u = r.key := by
  obtain ⟨r, hr, hl, e⟩ := (loaded_labels saneTable_sub h π l u).1 hu
  rw [saneTable_eq] at hr
  rcases List.mem_append.1 hr with hr | hr
  · obtain ⟨i, hi⟩ := List.mem_iff_getElem?.1 hr
    exact ⟨i, r, hi, hl, e⟩
  · have := List.all_eq_true.1 const_labels r (List.mem_filter.1 hr).1
    rw [List.isEmpty_iff.1 this] at hl
    cases hl

theorem bound_known (h : Hasher) (π : K) {l : String} {u : UKey} (hu : get? (loaded saneTable π h).registry l = some u) :
    u ∈ (loaded saneTable π h).units.map Prod.fst := by
  obtain ⟨i, r, hr, -, rfl⟩ := bound_row h π hu
  exact sane_known h π (unit_sane (List.mem_of_getElem? hr))

/-- C140: a shipped unit named by a prefix and the name of another is that power of ten (or of two) times the
other: `kilometer` and `kilometers`, `millisecond`, `megapascal`, `kibibyte`….  The only exception is an
accident of spelling: `microns` is not `micro` followed by `ns`. -/
theorem C140_prefixes (h : Hasher) {π : K} (hπ : 0 < π) {pre : String} {p q : Nat} (hp : (pre, p, q) ∈ prefixes)
    {l : String} (hl : l ≠ "ns") {u u' : UKey} (hu : get? (loaded saneTable π h).registry (pre ++ l) = some u)
    (hu' : get? (loaded saneTable π h).registry l = some u') (v : Valuation (loaded saneTable π h)) :
    v.size (unitDim u) = (p : K) / q * v.size (unitDim u') := by
  obtain ⟨i, r, r1, r2, rfl⟩ := bound_row h π hu
  obtain ⟨j, s, s1, s2, e⟩ := bound_row h π hu'
  have h1 := List.all_eq_true.1 (List.all_eq_true.1 prefixes_ok _ hp) _ (unit_label r1 r2)
  simp only [codes_append, strip_append] at h1
  have hne : eqCodes (codesOf l) nsCodes = false := by
    rw [Bool.eq_false_iff]
    intro he
    have h2 := (eqCodes_iff _ _).1 he
    apply hl
    rw [← decode_codes l, h2]
    decide +kernel
  rw [hne, Bool.false_or] at h1
  obtain ⟨k, hk⟩ := rowOf_of_label s1 s2
  rw [hk] at h1
  simp only at h1
  obtain ⟨t, t1, t2⟩ := rowOf_spec hk
  have h3 := row_bound h π (List.mem_of_getElem? t1) t2
  rw [hu'] at h3
  rw [Option.some.inj h3]
  exact ratio_sound h hπ r1 t1 h1 v

/-- C140: so rescaling multiplies by the prefix. -/
theorem C140_rescale (h : Hasher) {π : K} (hπ : 0 < π) {pre : String} {p q : Nat} (hp : (pre, p, q) ∈ prefixes)
    {l : String} (hl : l ≠ "ns") {u u' : UKey} (hu : get? (loaded saneTable π h).registry (pre ++ l) = some u)
    (hu' : get? (loaded saneTable π h).registry l = some u')
    (hs : HashSafe (loaded saneTable π h) (unitDim u) (unitDim u')) (m : NDArr K) :
    ∃ r, (⟨m, unitDim u⟩ : Quantity K).rescale (loaded saneTable π h) (unitDim u') = .ok r ∧
      SameContent r.dim (unitDim u') ∧ r.mag = m.map (fun x => (p : K) / q * x) :=
  rescale_by (sane_reachable h hπ).wf (unitDim_ok (bound_known h π hu)) (unitDim_ok (bound_known h π hu')) hs
    (C140_prefixes h hπ hp hl hu hu') m

/-- `3000 mm` are `3 m`. -/
example : ∃ (u u' : UKey), get? (loaded saneTable Real.pi libH).registry ("milli" ++ "meter") = some u ∧
    get? (loaded saneTable Real.pi libH).registry "meter" = some u' ∧
    ∃ r, (⟨NDArr.scalar (3000 : ℝ), unitDim u⟩ : Quantity ℝ).rescale (loaded saneTable Real.pi libH) (unitDim u') = .ok r ∧
      r.mag = NDArr.scalar 3 := by
  obtain ⟨i, hi⟩ : ∃ i, rowOf (codesOf ("milli" ++ "meter")) = some i := Option.isSome_iff_exists.1 (by decide +kernel)
  obtain ⟨j, hj⟩ : ∃ j, rowOf (codesOf "meter") = some j := Option.isSome_iff_exists.1 (by decide +kernel)
  obtain ⟨r, r1, r2⟩ := rowOf_spec hi
  obtain ⟨s, s1, s2⟩ := rowOf_spec hj
  have hu := row_bound libH Real.pi (List.mem_of_getElem? r1) r2
  have hu' := row_bound libH Real.pi (List.mem_of_getElem? s1) s2
  have hw := sane_reachable (K := ℝ) libH Real.pi_pos
  have hk := bound_known libH Real.pi hu
  have hk' := bound_known libH Real.pi hu'
  have hp : ("milli", 1, 10 ^ 3) ∈ prefixes := by simp [prefixes]
  have hv := C140_prefixes libH Real.pi_pos hp (l := "meter") (by decide) hu hu'
  have hc : Compatible (loaded saneTable Real.pi libH) (unitDim r.key) (unitDim s.key) := ⟨_, hv⟩
  have c1 : (unitTable[i]?).map Row.cls = some .length := by
    have : ((rowOf (codesOf ("milli" ++ "meter"))).bind fun i => (unitTable[i]?).map Row.cls) = some .length := by decide +kernel
    rw [hi] at this; exact this
  have c2 : (unitTable[j]?).map Row.cls = some .length := by
    have : ((rowOf (codesOf "meter")).bind fun i => (unitTable[i]?).map Row.cls) = some .length := by decide +kernel
    rw [hj] at this; exact this
  rw [r1] at c1
  rw [s1] at c2
  simp only [Option.map_some, Option.some.injEq] at c1 c2
  have hs := safe_of_compat (π := Real.pi) (unit_sane (List.mem_of_getElem? r1)) (unit_sane (List.mem_of_getElem? s1))
    (by rw [c1]; decide) (by rw [c2]; decide) fun _ => (compatible_iff hw.wf (unitDim_ok hk) (unitDim_ok hk')).1 hc
  obtain ⟨x, x1, -, x3⟩ := C140_rescale libH Real.pi_pos hp (by decide) hu hu' hs (NDArr.scalar 3000)
  refine ⟨_, _, hu, hu', x, x1, ?_⟩
  rw [x3]
  simp only [NDArr.scalar, NDArr.map]
  norm_num

/-- C141: every unit of the list of standard definitions has its standard size. -/
theorem C141_standards (h : Hasher) {π : K} (hπ : 0 < π) {s : Standard} (hs : s ∈ standards) :
    s.Holds (loaded saneTable π h) π := by
  obtain ⟨r, rs, r1, r2, f, hv⟩ := standard_sound h hπ (List.all_eq_true.1 standards_ok s hs)
  refine ⟨r.key, rs.map Row.key, row_bound h π r1 r2, ?_, fun v => ?_⟩
  · rw [List.forall₂_map_right_iff]
    exact f.imp fun x r hr => row_bound h π hr.1 hr.2
  · rw [hv v, List.zipWith_map_right]

theorem holds_of_ok (h : Hasher) {π : K} (hπ : 0 < π) {s : Standard} (hs : standardOK s = true) :
    s.Holds (loaded saneTable π h) π := by
  obtain ⟨r, rs, r1, r2, f, hv⟩ := standard_sound h hπ hs
  refine ⟨r.key, rs.map Row.key, row_bound h π r1 r2, ?_, fun v => ?_⟩
  · rw [List.forall₂_map_right_iff]
    exact f.imp fun x r hr => row_bound h π hr.1 hr.2
  · rw [hv v, List.zipWith_map_right]

/-- C141: so rescaling a quantity in such a unit to the units of the definition multiplies by the standard factor. -/
theorem C141_rescale (h : Hasher) {π : K} (hπ : 0 < π) {s : Standard} (hs : s ∈ standards) {u : UKey}
    (hu : get? (loaded saneTable π h).registry s.label = some u) {d : Dim} (hd : DimOK (loaded saneTable π h) d)
    (hdef : ∀ us : List UKey,
      List.Forall₂ (fun (x : String × Int) k => get? (loaded saneTable π h).registry x.1 = some k) s.units us →
      ∀ v : Valuation (loaded saneTable π h),
        v.size d = (List.zipWith (fun (x : String × Int) k => v.size (unitDim k) ^ x.2) s.units us).prod)
    (hsafe : HashSafe (loaded saneTable π h) (unitDim u) d) (m : NDArr K) :
    ∃ r, (⟨m, unitDim u⟩ : Quantity K).rescale (loaded saneTable π h) d = .ok r ∧
      SameContent r.dim d ∧ r.mag = m.map (fun x => (s.p : K) / s.q * π ^ s.pi * x) := by
  obtain ⟨u', us, h1, h2, h3⟩ := C141_standards h hπ hs
  rw [hu] at h1
  obtain rfl := Option.some.inj h1
  exact rescale_by (sane_reachable h hπ).wf (unitDim_ok (bound_known h π hu)) hd hsafe
    (fun v => by rw [h3 v, hdef us h2 v]) m

/-- A definition fixes the factor. -/
theorem holds_unique {w : World K} (hw : WF w) {π : K} {s t : Standard} (hl : s.label = t.label) (hu : s.units = t.units)
    (hs : s.Holds w π) (ht : t.Holds w π) : (s.p : K) / s.q * π ^ s.pi = (t.p : K) / t.q * π ^ t.pi := by
  obtain ⟨u, us, a1, a2, a3⟩ := hs
  obtain ⟨u', us', b1, b2, b3⟩ := ht
  rw [hl] at a1
  rw [a1] at b1
  obtain rfl := Option.some.inj b1
  rw [hu] at a2
  have e : us = us' := by
    clear a3 b3 a1
    clear hu hl
    generalize t.units = xs at a2 b2
    induction a2 generalizing us' with
    | nil => cases b2; rfl
    | cons p _ ih =>
      cases b2 with
      | cons q f => rw [p] at q; rw [Option.some.inj q, ih _ f]
  subst e
  obtain ⟨v⟩ := exists_valuation hw
  have h1 := a3 v
  have h2 := b3 v
  rw [hu] at h1
  have hp : (List.zipWith (fun (x : String × Int) k => v.size (unitDim k) ^ x.2) t.units us).prod ≠ 0 := by
    rw [Ne, List.prod_eq_zero_iff]
    intro h0
    obtain ⟨x, k, -, -, e⟩ : ∃ (x : String × Int) (k : UKey), x ∈ t.units ∧ k ∈ us ∧ 0 = v.size (unitDim k) ^ x.2 := by
      rw [← List.map_uncurry_zip_eq_zipWith] at h0
      obtain ⟨⟨x, k⟩, hm, e⟩ := List.mem_map.1 h0
      exact ⟨x, k, (List.of_mem_zip hm).1, (List.of_mem_zip hm).2, e.symm⟩
    exact (zpow_pos (dsize_pos v.pos _) _).ne e
  exact mul_right_cancel₀ hp (h1.symm.trans h2)

/-- C141: the pond is a gram-force; `units/force.py` 29–31 defines it as `g_0*kg`, a thousand times that. -/
theorem C141_false_pond (h : Hasher) {π : K} (hπ : 0 < π) :
    ¬ Standard.Holds (loaded saneTable π h) π ⟨"pond", 1, 1, 0, [("gram_force", 1)]⟩ ∧
      Standard.Holds (loaded saneTable π h) π ⟨"pond", 1000, 1, 0, [("gram_force", 1)]⟩ := by
  have h1 : Standard.Holds (loaded saneTable π h) π ⟨"pond", 1000, 1, 0, [("gram_force", 1)]⟩ :=
    holds_of_ok h hπ (by decide +kernel)
  refine ⟨fun h0 => ?_, h1⟩
  have := holds_unique (sane_reachable h hπ).wf (hl := by rfl) (hu := by rfl) (hs := h0) (ht := h1)
  norm_num at this

/-- C141: an electron volt is the energy of an elementary charge across a volt; the library takes the two from
different adjustments of the constants (`units/energy.py`, `units/electromagnetism.py`). -/
theorem C141_false_electron_volt (h : Hasher) {π : K} (hπ : 0 < π) :
    ¬ Standard.Holds (loaded saneTable π h) π ⟨"electron_volt", 1, 1, 0, [("elementary_charge", 1), ("volt", 1)]⟩ := by
  have h1 : Standard.Holds (loaded saneTable π h) π
      ⟨"electron_volt", 1602176530, 1602176487, 0, [("elementary_charge", 1), ("volt", 1)]⟩ :=
    holds_of_ok h hπ (by decide +kernel)
  intro h0
  have := holds_unique (sane_reachable h hπ).wf (hl := by rfl) (hu := by rfl) (hs := h0) (ht := h1)
  norm_num at this

/-- C142: a standard symbol and the name it abbreviates denote the same unit. -/
theorem C142_symbols (h : Hasher) (π : K) {s : String × String} (hs : s ∈ symbols) :
    ∃ u, get? (loaded saneTable π h).registry s.1 = some u ∧ get? (loaded saneTable π h).registry s.2 = some u := by
  have h0 := List.all_eq_true.1 symbols_ok s hs
  unfold symbolOK at h0
  rcases hi : rowOf (codesOf s.1) with _ | i
  · simp [hi] at h0
  rcases hj : rowOf (codesOf s.2) with _ | j
  · simp [hi, hj] at h0
  simp only [hi, hj] at h0
  obtain rfl := Nat.eq_of_beq_eq_true h0
  obtain ⟨r, r1, r2⟩ := rowOf_spec hi
  obtain ⟨r', r1', r2'⟩ := rowOf_spec hj
  rw [r1] at r1'
  obtain rfl := Option.some.inj r1'
  exact ⟨r.key, row_bound h π (List.mem_of_getElem? r1) r2, row_bound h π (List.mem_of_getElem? r1) r2'⟩

/-- C79: `units/electromagnetism.py` 263–268 gives the oersted the alias `aliases`: that word is a unit, and the
plural is not. -/
theorem C79_false_oersteds (h : Hasher) (π : K) :
    get? (loaded saneTable π h).registry "oersteds" = none ∧
    ∃ u, get? (loaded saneTable π h).registry "aliases" = some u ∧ get? (loaded saneTable π h).registry "oersted" = some u := by
  constructor
  · rcases hg : get? (loaded saneTable π h).registry "oersteds" with _ | u
    · rfl
    · obtain ⟨i, r, hr, hl, -⟩ := bound_row h π hg
      obtain ⟨j, hj⟩ := rowOf_of_label hr hl
      have : rowOf (codesOf "oersteds") = none := by decide +kernel
      rw [this] at hj
      cases hj
  · obtain ⟨j, hj⟩ : ∃ j, rowOf (codesOf "aliases") = some j := Option.isSome_iff_exists.1 (by decide +kernel)
    have e : rowOf (codesOf "oersted") = rowOf (codesOf "aliases") := by decide +kernel
    have hk := e.trans hj
    obtain ⟨r, r1, r2⟩ := rowOf_spec hj
    obtain ⟨r', r1', r2'⟩ := rowOf_spec hk
    rw [r1] at r1'
    obtain rfl := Option.some.inj r1'
    exact ⟨r.key, row_bound h π (List.mem_of_getElem? r1) r2, row_bound h π (List.mem_of_getElem? r1) r2'⟩

end PQ
