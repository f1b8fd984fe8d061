import Verif.Lemmas.Shipped2

/-!
# Sizes of the shipped units in base units
-/

namespace PQ

open Dict World LawfulRPow

variable {K : Type _} [Field K] [LinearOrder K] [IsStrictOrderedRing K] [RPow K] [LawfulRPow K]

namespace Shipped

attribute [local irreducible] table unitTable constTable dims

/-- The base units: second, meter, mole, kilogram, ampere, candela, kelvin, bit. -/
def baseKeys : List UKey := baseRows.map (keyAt table)

/-- Product of powers of `ks` with half the exponents `x`. -/
def gsize (val : UKey → K) (ks : List UKey) (x : List Int) : K :=
  (List.zipWith (fun k (e : Int) => rpow (val k) ((e : ℚ) / 2)) ks x).prod

section
variable {val : UKey → K} (hv : ∀ u, 0 < val u)
include hv

theorem gsize_pos : ∀ (ks : List UKey) (x : List Int), 0 < gsize val ks x
  | [], _ => by simp [gsize]
  | _ :: _, [] => by simp [gsize]
  | k :: ks, e :: x => by
      have := gsize_pos ks x
      simp only [gsize, List.zipWith_cons_cons, List.prod_cons] at *
      exact mul_pos (rpow_pos _ _ (hv k)) this

omit hv in
theorem gsize_zero (val : UKey → K) : ∀ (ks : List UKey) (n : Nat), gsize val ks (List.replicate n 0) = 1
  | [], _ => by simp [gsize]
  | _ :: _, 0 => by simp [gsize]
  | k :: ks, n + 1 => by
      have := gsize_zero val ks n
      simp only [gsize, List.replicate_succ, List.zipWith_cons_cons, List.prod_cons] at *
      rw [this]
      simp [rpow_zero]

theorem gsize_add : ∀ (ks : List UKey) (x y : List Int), x.length = ks.length → y.length = ks.length →
    gsize val ks (List.zipWith (· + ·) x y) = gsize val ks x * gsize val ks y
  | [], _, _, _, _ => by simp [gsize]
  | k :: ks, a :: x, b :: y, hx, hy => by
      have := gsize_add ks x y (by simpa using hx) (by simpa using hy)
      simp only [gsize, List.zipWith_cons_cons, List.prod_cons] at *
      rw [this, show ((a + b : ℤ) : ℚ) / 2 = (a : ℚ) / 2 + (b : ℚ) / 2 by push_cast; ring,
        rpow_add _ _ _ (hv k)]
      ring

theorem gsize_sub : ∀ (ks : List UKey) (x y : List Int), x.length = ks.length → y.length = ks.length →
    gsize val ks (List.zipWith (· - ·) x y) = gsize val ks x / gsize val ks y
  | [], _, _, _, _ => by simp [gsize]
  | k :: ks, a :: x, b :: y, hx, hy => by
      have := gsize_sub ks x y (by simpa using hx) (by simpa using hy)
      have e : rpow (val k) ((a : ℚ) / 2) = rpow (val k) (((a - b : ℤ) : ℚ) / 2) * rpow (val k) ((b : ℚ) / 2) := by
        rw [← rpow_add _ _ _ (hv k)]
        congr 1; push_cast; ring
      have hb := (rpow_pos _ ((b : ℚ) / 2) (hv k)).ne'
      have hg := (gsize_pos hv ks y).ne'
      simp only [gsize, List.zipWith_cons_cons, List.prod_cons] at *
      rw [this, e]
      field_simp

theorem gsize_scale (n : Int) (d : Nat) (hd : 0 < d) : ∀ (ks : List UKey) (x : List Int),
    x.length = ks.length → (∀ e ∈ x, e * n % d = 0) →
    gsize val ks (x.map (fun e => e * n / d)) = rpow (gsize val ks x) ((n : ℚ) / d)
  | [], _, _, _ => by
      simp only [gsize, List.zipWith_nil_left, List.prod_nil]
      rw [rpow_one_left]
  | k :: ks, a :: x, hx, he => by
      have := gsize_scale n d hd ks x (by simpa using hx) (fun e h => he e (by simp [h]))
      have hp := gsize_pos hv ks x
      simp only [gsize, List.map_cons, List.zipWith_cons_cons, List.prod_cons] at *
      rw [this, mul_rpow _ _ _ (rpow_pos _ _ (hv k)) hp, rpow_rpow _ _ _ (hv k)]
      congr 2
      have h0 := Int.ediv_mul_cancel (Int.dvd_of_emod_eq_zero (he a (by simp)))
      have h1 : ((a * n / d : ℤ) : ℚ) * d = a * n := by exact_mod_cast h0
      have hd' : (d : ℚ) ≠ 0 := by exact_mod_cast hd.ne'
      field_simp
      linarith [h1]

end

theorem baseRows_lt : ∀ j ∈ baseRows, j < nUnits := by decide

theorem baseKeys_length : baseKeys.length = 8 := by unfold baseKeys; rw [List.length_map]; rfl

/-- The state after running the constructor calls of a table. -/
def loaded (t : List Row) (π : K) (h : Hasher) : World K := (load t π (World.init h)).2

theorem loaded_eq (t : List Row) (π : K) (h : Hasher) : loaded t π h = (load t π (World.init h)).2 := rfl

section
variable (h : Hasher) {π : K} (hπ : 0 < π)

include hπ in
theorem load_reachable (T t' : List Row) (hs : T.Sublist table) (ht : T = unitTable ++ t')
    (hp : ∀ r ∈ T, r.positive = true) : Reachable h (loaded T π h) := by
  obtain ⟨f1, f2, f3, f4⟩ := sub_fresh hs T π h
  refine runAll_reachable (T.map (Row.toNew T π)) _ Reachable.init f1 f2 f3 f4 ?_
  intro pre a post e
  have hlen := congrArg (fun l : List (NewUnit K) => l[pre.length]?) e
  simp only [List.getElem?_append_right (le_refl _), Nat.sub_self, List.getElem?_cons_zero,
    List.getElem?_map, Option.map_eq_some_iff] at hlen
  obtain ⟨r, hr, rfl⟩ := hlen
  have hmem : r ∈ T := List.mem_of_getElem? hr
  have hpos : r.positive = true := hp r hmem
  obtain ⟨i, hi⟩ := List.getElem?_of_mem (hs.subset hmem)
  have hbound : ∀ e, r.definition = some e → e.refs pre.length = true ∨ (e.refs nUnits = true ∧ nUnits ≤ pre.length) := by
    intro e he
    by_cases hm : pre.length < nUnits
    · left
      obtain ⟨r', t1, t2, t3⟩ := table_get_unit hm
      rw [ht, List.getElem?_append_left (by rw [unitTable_length]; exact hm), t2] at hr
      cases hr
      exact (sub_refs t1 he).1
    · exact Or.inr ⟨(sub_refs hi he).2.1, by omega⟩
  have hpre : ∀ j, j < pre.length → keyAt T j ∈ pre.map nkey := by
    intro j hj
    have h1 := congrArg (fun l : List (NewUnit K) => (l.map nkey)[j]?) e
    simp only [List.map_map, List.map_append] at h1
    rw [List.getElem?_append_left (by simpa using hj)] at h1
    unfold keyAt
    have h2 : (List.map (nkey ∘ Row.toNew T π) T) = List.map Row.key T :=
      List.map_congr_left fun r _ => rfl
    rw [← h2, h1]
    rw [List.getElem?_eq_getElem (by simpa using hj)]
    simp only [Option.getD_some]
    exact List.getElem_mem _
  refine ⟨fun q hq => ?_, fun hc => ?_⟩
  · simp only [Row.toNew] at hq
    rcases hd : r.definition with _ | ex
    · rw [hd] at hq; cases hq
    · rw [hd] at hq
      simp only [DefArg.toDef, Option.some.injEq] at hq
      subst hq
      have hp' : ex.positive = true := by unfold Row.positive at hpos; rw [hd] at hpos; exact hpos
      refine ⟨Expr.eval_pos _ hπ _ hp', ?_⟩
      rcases hbound ex hd with hb | ⟨hb, hle⟩
      · obtain ⟨c1, c2⟩ := Expr.eval_dim (keyAt T) π _ ex hb
        refine ⟨c1, fun kv hkv => ?_⟩
        obtain ⟨d1, j, hj, d2⟩ := c2 kv hkv
        exact ⟨d1, Or.inr (d2 ▸ hpre j hj)⟩
      · obtain ⟨c1, c2⟩ := Expr.eval_dim (keyAt T) π _ ex hb
        refine ⟨c1, fun kv hkv => ?_⟩
        obtain ⟨d1, j, hj, d2⟩ := c2 kv hkv
        exact ⟨d1, Or.inr (d2 ▸ hpre j (by omega))⟩
  · rcases hd : r.definition with _ | ex
    · simp only [Row.toNew, hd]; rfl
    · exact absurd hc (sub_refs hi hd).2.2

include hπ in
theorem sane_reachable : Reachable h (loaded saneTable π h) :=
  load_reachable h hπ saneTable _ saneTable_sub saneTable_eq (fun _ hr => (List.mem_filter.1 hr).2)

/-- A unit of a table is stored with its definition. -/
theorem load_info {t : List Row} (hs : t.Sublist table) {r : Row} (hr : r ∈ t) :
    ∃ i, (loaded t π h).info r.key = some i ∧
      i.definition = r.definition.map (fun e => e.eval (keyAt t) π) ∧
      (i.convRef = none ↔ r.definition = none) ∧
      i.symbol = r.symbol ∧ i.uSymbol = r.uSymbol ∧ i.aliases = r.aliases := by
  obtain ⟨f1, f2, f3, f4⟩ := sub_fresh hs t π h
  obtain ⟨i, g1, g2, g3, g4⟩ := (runAll_info _ _ f1 f2 f3 f4).2.1 (Row.toNew t π r) (List.mem_map.2 ⟨r, hr, rfl⟩)
  refine ⟨i, g1, ?_, ?_, g4⟩
  · rw [g2]; simp only [Row.toNew]; rcases r.definition <;> rfl
  · rw [g3]; simp only [Row.toNew]; rcases r.definition with _ | e <;> simp [DefArg.toDef]

/-- The size of a definition in base units, if the units it refers to have such a size. -/
theorem expr_size (w : World K) (key : Nat → UKey) (n : Nat)
    (hu : ∀ j x, j < n → dims[j]? = some x → ∃ c : K, 0 < c ∧
      ∀ v : Valuation w, dsize v.val (unitDim (key j)) = c * gsize v.val baseKeys x)
    (hl : ∀ (j : Nat) (x : List Int), dims[j]? = some x → x.length = 8) :
    ∀ (e : Expr) (x : List Int), e.refs n = true → e.expo dims = some x → x.length = 8 ∧ ∃ c : K, 0 < c ∧
      ∀ v : Valuation w, dsize v.val (e.eval key π).dim = c * gsize v.val baseKeys x
  | .num _ _, x, _, h => by
      simp only [Expr.expo, Option.some.injEq] at h
      subst h
      exact ⟨by simp, 1, one_pos, fun v => by rw [gsize_zero]; simp [Expr.eval]⟩
  | .pi, x, _, h => by
      simp only [Expr.expo, Option.some.injEq] at h
      subst h
      exact ⟨by simp, 1, one_pos, fun v => by rw [gsize_zero]; simp [Expr.eval]⟩
  | .unit i, x, hr, h => by
      simp only [Expr.expo] at h
      simp only [Expr.refs, Nat.blt_eq] at hr
      exact ⟨hl i x h, hu i x hr h⟩
  | .mul a b, x, hr, h => by
      simp only [Expr.refs, Bool.and_eq_true] at hr
      simp only [Expr.expo] at h
      rcases ha : a.expo dims with _ | y
      · simp [ha] at h
      · rcases hb : b.expo dims with _ | z
        · simp [ha, hb] at h
        · rw [ha, hb] at h
          simp only [Option.some.injEq] at h
          subst h
          obtain ⟨la, c, c0, hc⟩ := expr_size w key n hu hl a y hr.1 ha
          obtain ⟨lb, d, d0, hd⟩ := expr_size w key n hu hl b z hr.2 hb
          refine ⟨by simp [la, lb], c * d, mul_pos c0 d0, fun v => ?_⟩
          rw [gsize_add v.pos _ _ _ (by rw [la, baseKeys_length]) (by rw [lb, baseKeys_length]), Expr.eval, dsize_mul v.pos, hc v, hd v]
          ring
  | .div a b, x, hr, h => by
      simp only [Expr.refs, Bool.and_eq_true] at hr
      simp only [Expr.expo] at h
      rcases ha : a.expo dims with _ | y
      · simp [ha] at h
      · rcases hb : b.expo dims with _ | z
        · simp [ha, hb] at h
        · rw [ha, hb] at h
          simp only [Option.some.injEq] at h
          subst h
          obtain ⟨la, c, c0, hc⟩ := expr_size w key n hu hl a y hr.1 ha
          obtain ⟨lb, d, d0, hd⟩ := expr_size w key n hu hl b z hr.2 hb
          refine ⟨by simp [la, lb], c / d, div_pos c0 d0, fun v => ?_⟩
          rw [gsize_sub v.pos _ _ _ (by rw [la, baseKeys_length]) (by rw [lb, baseKeys_length]), Expr.eval, dsize_div v.pos, hc v, hd v]
          have := (gsize_pos v.pos baseKeys z).ne'
          field_simp
  | .pow a m d, x, hr, h => by
      simp only [Expr.refs] at hr
      simp only [Expr.expo] at h
      rcases ha : a.expo dims with _ | y
      · simp [ha] at h
      · rw [ha] at h
        simp only at h
        split at h
        · rename_i hcond
          simp only [Bool.and_eq_true, Nat.blt_eq, List.all_eq_true, decide_eq_true_eq] at hcond
          simp only [Option.some.injEq] at h
          subst h
          obtain ⟨la, c, c0, hc⟩ := expr_size w key n hu hl a y hr ha
          refine ⟨by simp [la], rpow c ((m : ℚ) / d), rpow_pos _ _ c0, fun v => ?_⟩
          rw [gsize_scale v.pos _ _ hcond.1 _ _ (by rw [la, baseKeys_length]) hcond.2, Expr.eval]
          simp only
          rw [dsize_pow v.pos, hc v, mul_rpow _ _ _ c0 (gsize_pos v.pos _ _)]
        · cases h
  | .add a b, x, hr, h => by
      simp only [Expr.refs, Bool.and_eq_true] at hr
      simp only [Expr.expo] at h
      rcases ha : a.expo dims with _ | y
      · simp [ha] at h
      · rcases hb : b.expo dims with _ | z
        · simp [ha, hb] at h
        · rw [ha, hb] at h
          simp only at h
          split at h
          · simp only [Option.some.injEq] at h
            subst h
            exact expr_size w key n hu hl a y hr.1 ha
          · cases h
  | .quantity p q u, x, hr, h => by
      simp only [Expr.refs] at hr
      simp only [Expr.expo] at h
      exact expr_size w key n hu hl u x hr h

theorem dims_get {i : Nat} {r : Row} (hr : table[i]? = some r) : ∃ x, dims[i]? = some x ∧ x.length = 8 ∧
      match r.definition with
      | none => if r.cls = .dimensionless then x = List.replicate 8 0
          else i ∈ baseRows ∧ x = baseRows.map (fun j => if j = i then 2 else 0)
      | some e => e.expo dims = some x := by
  have := expoFrom_get dims table dims 0 i r table_expo hr
  rw [Nat.zero_add] at this
  exact this

theorem dims_length : dims.length = table.length := by
  have : ∀ (rs : List Row) (xs : List (List Int)) (n : Nat), expoFrom dims n rs xs = true → xs.length = rs.length := by
    intro rs
    induction rs with
    | nil => intro xs n h; rcases xs with _ | _ <;> simp [expoFrom] at h ⊢
    | cons r rs ih =>
      intro xs n h
      rcases xs with _ | ⟨x, xs⟩
      · simp [expoFrom] at h
      · rw [expoFrom, Bool.and_eq_true] at h
        simp [ih xs _ h.2]
  exact this _ _ _ table_expo

theorem dims_len8 (j : Nat) (x : List Int) (h : dims[j]? = some x) : x.length = 8 := by
  have hj : j < table.length := by
    rw [← dims_length]; exact (List.getElem?_eq_some_iff.1 h).1
  obtain ⟨y, hy, l, -⟩ := dims_get (List.getElem?_eq_getElem hj)
  rw [h] at hy; cases hy; exact l

/-- Size of one base unit. -/
theorem gsize_single (val : UKey → K) (n : Nat) : ∀ (js : List Nat), js.Nodup → n ∈ js →
    gsize val (js.map (keyAt table)) (js.map (fun j => if j = n then 2 else 0)) = val (keyAt table n)
  | [], _, h => by simp at h
  | j :: js, hn, h => by
      rw [List.nodup_cons] at hn
      simp only [gsize, List.map_cons, List.zipWith_cons_cons, List.prod_cons]
      by_cases hj : j = n
      · subst hj
        have : js.map (fun i => if i = j then (2 : Int) else 0) = List.replicate js.length 0 := by
          rw [List.eq_replicate_iff]
          refine ⟨by simp, fun b hb => ?_⟩
          obtain ⟨i, hi, rfl⟩ := List.mem_map.1 hb
          rw [if_neg]; rintro rfl; exact hn.1 hi
        have hz := gsize_zero val (js.map (keyAt table)) js.length
        rw [gsize] at hz
        rw [this, hz]
        simp [rpow_one]
      · have ih := gsize_single val n js hn.2 (by simpa [Ne.symm hj] using h)
        rw [gsize] at ih
        rw [ih]
        simp [hj, rpow_zero]

theorem row_size (hw : Reachable h (loaded saneTable π h)) (i : Nat) : ∀ (r : Row) (x : List Int),
    table[i]? = some r → dims[i]? = some x → r.positive = true → ∃ c : K, 0 < c ∧
      ∀ v : Valuation (loaded saneTable π h), dsize v.val (unitDim r.key) = c * gsize v.val baseKeys x := by
  induction i using Nat.strong_induction_on with
  | _ i ih =>
    intro r x hr hx hp
    obtain ⟨y, hy, hl, hdef⟩ := dims_get hr
    rw [hx] at hy
    simp only [Option.some.injEq] at hy
    subst hy
    have hmem : r ∈ saneTable := List.mem_filter.2 ⟨List.mem_of_getElem? hr, hp⟩
    obtain ⟨inf, i1, i2, -⟩ := load_info h (π := π) saneTable_sub hmem
    rcases hd : r.definition with _ | e
    · rw [hd] at hdef
      simp only at hdef
      split at hdef
      · rename_i hc
        subst hdef
        refine ⟨1, one_pos, fun v => ?_⟩
        have : r.key.cls = .dimensionless := hc
        rw [gsize_zero]
        simp [unitDim, this]
      · rename_i hc
        refine ⟨1, one_pos, fun v => ?_⟩
        have hc' : ¬ r.key.cls = .dimensionless := hc
        rw [hdef.2, baseKeys, gsize_single v.val i baseRows (by decide) hdef.1, keyAt_get hr]
        simp [unitDim, hc', dsize_cons, rpow_one]
    · rw [hd] at hdef
      simp only at hdef
      obtain ⟨r1, r2, r3⟩ := sub_refs hr hd
      -- references are to units before row `i`
      have hrefs : e.refs (min i nUnits) = true := by
        rcases le_total i nUnits with hle | hle
        · rwa [min_eq_left hle]
        · rwa [min_eq_right hle]
      obtain ⟨-, c, c0, hc⟩ := expr_size (π := π) (loaded saneTable π h) (keyAt saneTable) (min i nUnits)
        (fun j z hj hz => by
          have hjn : j < nUnits := lt_of_lt_of_le hj (min_le_right _ _)
          obtain ⟨r', t1, -, t3⟩ := table_get_unit hjn
          rw [keyAt_sane hjn, ← keyAt_table hjn, keyAt_get t1]
          exact ih j (lt_of_lt_of_le hj (min_le_left _ _)) r' z t1 hz t3) dims_len8 e x hrefs hdef
      have hpos : 0 < (e.eval (keyAt saneTable) π).mag := by
        have := hw.wf.defOK r.key inf (e.eval (keyAt saneTable) π) i1 (by rw [i2, hd]; rfl)
        exact this.1
      refine ⟨(e.eval (keyAt saneTable) π).mag * c, mul_pos hpos c0, fun v => ?_⟩
      have hk : r.key.cls ≠ .dimensionless := r3
      have := v.defined r.key inf (e.eval (keyAt saneTable) π) i1 (by rw [i2, hd]; rfl)
      simp only [unitDim, hk, if_false, dsize_cons, rpow_one, dsize_nil, mul_one]
      rw [this, hc v, mul_assoc]

end
end Shipped
end PQ
