import Verif.Lemmas.ShippedRounded

/-! # The state after importing the library with rounded arithmetic -/

namespace PQ

open Dict World LawfulRPow

namespace Shipped

variable {A : Arith} {lit : Int → Nat → Fl A} {pf : Fl A} {π : ℝ}

attribute [local irreducible] table unitTable constTable dims rowErrs

/-- The state after importing a part of the library with rounded arithmetic. -/
noncomputable def loadedWith (lit : Int → Nat → Fl A) (t : List Row) (pf : Fl A) (h : Hasher) : World (Fl A) :=
  (loadWith lit t pf (World.init h)).2

theorem sub_fresh_with {t : List Row} (hs : t.Sublist table) (t' : List Row) (h : Hasher) :
    ((t.map (Row.toNewWith lit t' pf)).map nkey).Nodup ∧
    (∀ a ∈ t.map (Row.toNewWith lit t' pf), (World.init h : World (Fl A)).info (nkey a) = none) ∧
    ((t.map (Row.toNewWith lit t' pf)).flatMap nlabels).Nodup ∧
    (∀ a ∈ t.map (Row.toNewWith lit t' pf), ∀ l ∈ nlabels a, get? (World.init h : World (Fl A)).registry l = none) := by
  refine ⟨?_, fun a _ => rfl, ?_, fun a _ l _ => rfl⟩
  · rw [List.map_map]
    exact keys_nodup.sublist (hs.map Row.key)
  · rw [List.flatMap_map]
    have : t.flatMap (fun r => nlabels (Row.toNewWith lit t' pf r)) = t.flatMap Row.labels :=
      List.flatMap_congr fun r hr => labelsOf_row (K := ℝ) t' 1 (hs.subset hr)
    rw [this]
    exact labels_nodup.sublist (hs.flatMap _)

/-- A unit of a table is stored with its definition. -/
theorem loadWith_info {t : List Row} (hs : t.Sublist table) (h : Hasher) {r : Row} (hr : r ∈ t) :
    ∃ i, (loadedWith lit t pf h).info r.key = some i ∧
      i.definition = r.definition.map (fun e => e.evalWith lit (keyAt t) pf) ∧
      (i.convRef = none ↔ r.definition = none) := by
  obtain ⟨f1, f2, f3, f4⟩ := sub_fresh_with hs t h (lit := lit) (pf := pf)
  obtain ⟨i, g1, g2, g3, g4⟩ := (runAll_info _ _ f1 f2 f3 f4).2.1 (Row.toNewWith lit t pf r) (List.mem_map.2 ⟨r, hr, rfl⟩)
  refine ⟨i, g1, ?_, ?_⟩
  · rw [g2]; simp only [Row.toNewWith]; rcases r.definition <;> rfl
  · rw [g3]; simp only [Row.toNewWith]; rcases r.definition with _ | e <;> simp [DefArg.toDef]

theorem loadWith_row {t : List Row} (hs : t.Sublist table) (h : Hasher) {u : UKey}
    (hu : u ∈ (loadedWith lit t pf h).units.map Prod.fst) : ∃ r ∈ t, u = r.key := by
  obtain ⟨f1, f2, f3, f4⟩ := sub_fresh_with hs t h (lit := lit) (pf := pf)
  have := (runAll_fresh _ _ f1 f2 f3 f4).2.2.1
  rw [loadedWith, loadWith, this] at hu
  simp only [World.init, List.map_nil, List.nil_append, List.map_map] at hu
  obtain ⟨r, hr, rfl⟩ := List.mem_map.1 hu
  exact ⟨r, hr, rfl⟩

theorem loadWith_returns {t : List Row} (hs : t.Sublist table) (h : Hasher) :
    (loadWith lit t pf (World.init h)).1 = none := by
  obtain ⟨f1, f2, f3, f4⟩ := sub_fresh_with hs t h (lit := lit) (pf := pf)
  exact (runAll_fresh _ _ f1 f2 f3 f4).1

theorem loadWith_reachable (hl : RoundedLiterals A lit pf π) (hπ : 0 < π) (h : Hasher) (T t' : List Row)
    (hs : T.Sublist table) (ht : T = unitTable ++ t')
    (hp : ∀ r ∈ T, r.positive = true) : Reachable h (loadedWith lit T pf h) := by
  obtain ⟨f1, f2, f3, f4⟩ := sub_fresh_with hs T h (lit := lit) (pf := pf)
  refine runAll_reachable (T.map (Row.toNewWith lit T pf)) _ Reachable.init f1 f2 f3 f4 ?_
  intro pre a post e
  have hlen := congrArg (fun l : List (NewUnit (Fl A)) => l[pre.length]?) e
  simp only [List.getElem?_append_right (le_refl _), Nat.sub_self, List.getElem?_cons_zero,
    List.getElem?_map, Option.map_eq_some_iff] at hlen
  obtain ⟨r, hr, rfl⟩ := hlen
  have hmem : r ∈ T := List.mem_of_getElem? hr
  have hpos : r.positive = true := hp r hmem
  obtain ⟨i, hi⟩ := List.getElem?_of_mem (hs.subset hmem)
  have hbound : ∀ e, r.definition = some e → e.refs pre.length = true ∨ (e.refs nUnits = true ∧ nUnits ≤ pre.length) := by
    intro e he
    by_cases hm : pre.length < nUnits
    · left
      obtain ⟨r', t1, t2, t3⟩ := table_get_unit hm
      rw [ht, List.getElem?_append_left (by rw [unitTable_length]; exact hm), t2] at hr
      cases hr
      exact (sub_refs t1 he).1
    · exact Or.inr ⟨(sub_refs hi he).2.1, by omega⟩
  have hpre : ∀ j, j < pre.length → keyAt T j ∈ pre.map nkey := by
    intro j hj
    have h1 := congrArg (fun l : List (NewUnit (Fl A)) => (l.map nkey)[j]?) e
    simp only [List.map_map, List.map_append] at h1
    rw [List.getElem?_append_left (by simpa using hj)] at h1
    unfold keyAt
    have h2 : (List.map (nkey ∘ Row.toNewWith lit T pf) T) = List.map Row.key T :=
      List.map_congr_left fun r _ => rfl
    rw [← h2, h1]
    rw [List.getElem?_eq_getElem (by simpa using hj)]
    simp only [Option.getD_some]
    exact List.getElem_mem _
  refine ⟨fun q hq => ?_, fun hc => ?_⟩
  · simp only [Row.toNewWith] at hq
    rcases hd : r.definition with _ | ex
    · rw [hd] at hq; cases hq
    · rw [hd] at hq
      simp only [DefArg.toDef, Option.some.injEq] at hq
      subst hq
      have hp' : ex.positive = true := by unfold Row.positive at hpos; rw [hd] at hpos; exact hpos
      refine ⟨(Expr.evalWith_mag hl hπ _ ex hp').pos (Expr.eval_pos _ hπ _ hp'), ?_⟩
      rw [Expr.evalWith_dim (π := π)]
      rcases hbound ex hd with hb | ⟨hb, hle⟩
      · obtain ⟨c1, c2⟩ := Expr.eval_dim (keyAt T) π _ ex hb
        refine ⟨c1, fun kv hkv => ?_⟩
        obtain ⟨d1, j, hj, d2⟩ := c2 kv hkv
        exact ⟨d1, Or.inr (d2 ▸ hpre j hj)⟩
      · obtain ⟨c1, c2⟩ := Expr.eval_dim (keyAt T) π _ ex hb
        refine ⟨c1, fun kv hkv => ?_⟩
        obtain ⟨d1, j, hj, d2⟩ := c2 kv hkv
        exact ⟨d1, Or.inr (d2 ▸ hpre j (by omega))⟩
  · rcases hd : r.definition with _ | ex
    · simp only [Row.toNewWith, hd]; rfl
    · exact absurd hc (sub_refs hi hd).2.2

theorem errFrom_get (ts : List (Nat × Nat)) : ∀ (rs : List Row) (xs : List (Nat × Nat)) (i : Nat) (r : Row),
    errFrom ts rs xs = true → rs[i]? = some r → ∃ x, xs[i]? = some x ∧ ∀ e, r.definition = some e →
      e.magErr + e.dimErr ts ≤ x.1 ∧ 1 + e.refErr ts ≤ x.2
  | [], _, _, _, _, h => by simp at h
  | r' :: rs, [], _, _, h, _ => by simp [errFrom] at h
  | r' :: rs, x :: xs, 0, r, h, hr => by
      simp only [List.getElem?_cons_zero, Option.some.injEq] at hr
      subst hr
      refine ⟨x, by simp, fun e he => ?_⟩
      rw [errFrom, he] at h
      simp only [Bool.and_eq_true, Nat.ble_eq] at h
      exact h.1
  | r' :: rs, x :: xs, i + 1, r, h, hr => by
      simp only [List.getElem?_cons_succ] at hr
      rw [errFrom, Bool.and_eq_true] at h
      simpa using errFrom_get ts rs xs i r h.2 hr

theorem zip_fst_sublist {α β : Type _} : ∀ (a : List α) (b : List β), ((a.zip b).map Prod.fst).Sublist a
  | [], _ => by simp
  | _ :: _, [] => by simp
  | x :: a, y :: b => by simpa using zip_fst_sublist a b

/-- The listed errors of the unit with a given key. -/
def errsOf (u : UKey) : Nat × Nat := (get? ((table.map Row.key).zip rowErrs) u).getD (0, 0)

theorem errsOf_row {i : Nat} {r : Row} (hr : table[i]? = some r) : ∃ x, rowErrs[i]? = some x ∧ errsOf r.key = x ∧
    ∀ e, r.definition = some e → e.magErr + e.dimErr rowErrs ≤ x.1 ∧ 1 + e.refErr rowErrs ≤ x.2 := by
  obtain ⟨x, hx, h⟩ := errFrom_get rowErrs table rowErrs i r table_errs hr
  refine ⟨x, hx, ?_, h⟩
  have hm : (r.key, x) ∈ (table.map Row.key).zip rowErrs := by
    apply List.mem_of_getElem? (i := i)
    rw [List.getElem?_zip_eq_some]
    exact ⟨by rw [List.getElem?_map, hr]; rfl, hx⟩
  have hn : Dict.Nodup ((table.map Row.key).zip rowErrs) := by
    unfold Dict.Nodup
    exact keys_nodup.sublist (zip_fst_sublist _ _)
  unfold errsOf
  rw [get?_of_mem_nodup hn hm]; rfl

theorem errsOf_at {j : Nat} (hj : j < nUnits) : errsOf (keyAt saneTable j) = (rowErrs[j]?).getD (0, 0) := by
  obtain ⟨r', t1, -, -⟩ := table_get_unit hj
  obtain ⟨x, h1, h2, -⟩ := errsOf_row t1
  rw [keyAt_sane hj, ← keyAt_table hj, keyAt_get t1, h2, h1]; rfl

theorem sane_with (hl : RoundedLiterals A lit pf π) (hπ : 0 < π) (h : Hasher) :
    Reachable h (loadedWith lit saneTable pf h) :=
  loadWith_reachable hl hπ h saneTable _ saneTable_sub saneTable_eq (fun _ hr => (List.mem_filter.1 hr).2)

theorem budget_with (h : Hasher) :
    ErrorBudget (loadedWith lit saneTable pf h) (fun u => ((errsOf u).2 : ℝ)) := by
  refine ⟨fun u => Nat.cast_nonneg _, fun u i q hi hq => ?_⟩
  obtain ⟨r, hr, rfl⟩ := loadWith_row saneTable_sub h (known_of_info hi)
  obtain ⟨i', h1, h2, -⟩ := loadWith_info saneTable_sub h hr (lit := lit) (pf := pf)
  rw [h1] at hi; cases hi
  rw [h2, Option.map_eq_some_iff] at hq
  obtain ⟨e, he, rfl⟩ := hq
  obtain ⟨k, hk⟩ := List.getElem?_of_mem (saneTable_sub.subset hr)
  obtain ⟨x, -, x2, x3⟩ := errsOf_row hk
  obtain ⟨-, x4⟩ := x3 e he
  obtain ⟨-, r2, -⟩ := sub_refs hk he
  rw [Expr.evalWith_dim (π := 1), x2]
  have := Expr.eval_cost (cost := fun u => ((errsOf u).2 : ℝ)) (keyAt saneTable) rowErrs (fun u => Nat.cast_nonneg _) nUnits
    (fun j hj => by rw [errsOf_at hj]) (π := 1) e r2
  have h4 : ((1 + e.refErr rowErrs : ℕ) : ℝ) ≤ x.2 := by exact_mod_cast x4
  push_cast at h4
  linarith

/-- The stored value of a unit is its defined value, up to the listed number of errors. -/
theorem row_off (hl : RoundedLiterals A lit pf π) (hπ : 0 < π) (h : Hasher) (v : FlValuation (loadedWith lit saneTable pf h))
    (V : Valuation (loaded saneTable π h)) (hb : ∀ r ∈ saneTable, r.definition = none → r.cls ≠ .dimensionless →
      v.val r.key = V.val r.key) (i : Nat) : ∀ (r : Row), table[i]? = some r → r.positive = true →
      OffL A ((errsOf r.key).1 : ℝ) (v.val r.key) (V.val r.key) := by
  induction i using Nat.strong_induction_on with
  | _ i ih =>
    intro r hr hp
    have hmem : r ∈ saneTable := List.mem_filter.2 ⟨List.mem_of_getElem? hr, hp⟩
    rcases hd : r.definition with _ | e
    · by_cases hc : r.cls = .dimensionless
      · rw [v.dimless _ hc, V.dimless _ hc]; exact OffL.refl (Nat.cast_nonneg _) _
      · rw [hb r hmem hd hc]; exact OffL.refl (Nat.cast_nonneg _) _
    · obtain ⟨inf, i1, i2, -⟩ := load_info h (π := π) saneTable_sub hmem
      obtain ⟨inf', j1, j2, -⟩ := loadWith_info saneTable_sub h hmem (lit := lit) (pf := pf)
      obtain ⟨x, -, x2, x3⟩ := errsOf_row hr
      obtain ⟨x4, -⟩ := x3 e hd
      obtain ⟨r1, r2, r3⟩ := sub_refs hr hd
      have hrefs : e.refs (min i nUnits) = true := by
        rcases le_total i nUnits with hle | hle
        · rwa [min_eq_left hle]
        · rwa [min_eq_right hle]
      have hp' : e.positive = true := by unfold Row.positive at hp; rw [hd] at hp; exact hp
      rw [V.defined r.key inf (e.eval (keyAt saneTable) π) i1 (by rw [i2, hd]; rfl),
        v.defined r.key inf' (e.evalWith lit (keyAt saneTable) pf) j1 (by rw [j2, hd]; rfl), Expr.evalWith_dim (π := π)]
      have h1 := Expr.evalWith_mag hl hπ (keyAt saneTable) e hp'
      have h2 := Expr.eval_dsize (A := A) (π := π) (keyAt saneTable) rowErrs v.pos V.pos (min i nUnits) (fun j hj => by
        have hjn : j < nUnits := lt_of_lt_of_le hj (min_le_right _ _)
        obtain ⟨r', t1, -, t3⟩ := table_get_unit hjn
        have := ih j (lt_of_lt_of_le hj (min_le_left _ _)) r' t1 t3
        rw [← errsOf_at hjn]
        rw [keyAt_sane hjn, ← keyAt_table hjn, keyAt_get t1]
        exact this) e hrefs
      refine (h1.times h2).mono ?_
      rw [x2]
      exact_mod_cast x4

/-- The sizes of compound units. -/
theorem size_off {n : UKey → ℝ} {v V : UKey → ℝ} (hV : ∀ u, 0 < V u) : ∀ (d : Dim),
    (∀ kv ∈ d, OffL A (n kv.1) (v kv.1) (V kv.1)) →
    OffL A ((d.map (fun kv => |(kv.2 : ℝ)| * n kv.1)).sum) (dsize v d) (dsize V d)
  | [], _ => by simpa using OffL.refl (A := A) le_rfl (1 : ℝ)
  | kv :: d, h => by
      rw [dsize_cons, dsize_cons, List.map_cons, List.sum_cons, real_rpow_def, real_rpow_def]
      exact ((h kv (by simp)).rpow (hV _) kv.2).times (size_off hV d fun kv' hk => h kv' (by simp [hk]))

end Shipped
end PQ
