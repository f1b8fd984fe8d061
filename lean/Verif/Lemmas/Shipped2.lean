import Verif.Lemmas.ShippedCheck
import Verif.Lemmas.Quantity

/-!
# What the state is after loading the table
-/

namespace PQ

open Dict World Shipped LawfulRPow

section
variable {K : Type _} [Zero K] [One K] [Mul K] [Div K] [RPow K] [LT K] [DecidableEq K]

/-- Every created unit is stored with its arguments, and nothing stored before changes. -/
theorem runAll_info : ∀ (as : List (NewUnit K)) (w : World K),
    (as.map nkey).Nodup → (∀ a ∈ as, w.info (nkey a) = none) →
    (as.flatMap nlabels).Nodup → (∀ a ∈ as, ∀ l ∈ nlabels a, get? w.registry l = none) →
    (∀ u i, w.info u = some i → (runAll w as).2.info u = some i) ∧
    (∀ a ∈ as, ∃ i, (runAll w as).2.info (nkey a) = some i ∧ i.definition = a.definition.toDef ∧
      (i.convRef = none ↔ a.definition.toDef = none) ∧
      i.symbol = a.symbol ∧ i.uSymbol = a.uSymbol ∧ i.aliases = a.aliases) ∧
    (∀ c, (runAll w as).2.defaults c = match w.defaults c with
      | some d => some d
      | none => (as.find? (fun a => a.cls.irreducible && decide (a.cls = c))).map (fun a => unitDim (nkey a)))
  | [], w, _, _, _, _ => by
      refine ⟨fun u i h => by simpa [runAll] using h, by simp, fun c => ?_⟩
      simp only [runAll, List.find?_nil, Option.map_none]
      rcases w.defaults c with _ | d <;> rfl
  | a :: as, w, hk, hkf, hl, hlf => by
      rw [List.map_cons, List.nodup_cons] at hk
      rw [List.flatMap_cons, List.nodup_append] at hl
      obtain ⟨h1, h2, ⟨n, h3⟩, h4, h5⟩ := newUnit_fresh w a (hkf a (by simp)) hl.1 (hlf a (by simp))
      rcases hw : w.newUnit a with ⟨e, w'⟩
      rw [hw] at h1 h2 h3 h4 h5
      simp only at h1 h2 h3 h4 h5
      subst h1
      rw [runAll, hw]
      simp only
      have hinfo := fun u => info_append (u := u) h3 (hkf a (by simp))
      obtain ⟨g1, g2, g3⟩ := runAll_info as w' hk.2 (by
          intro b hb
          rw [hinfo]
          rw [if_neg]
          · exact hkf b (by simp [hb])
          · intro e; exact hk.1 (List.mem_map.2 ⟨b, hb, e⟩)) hl.2.1 (by
          intro b hb l hlb
          rw [h4, get?_append, hlf b (by simp [hb]) l hlb]
          simp only [Option.orElse_none]
          rw [get?_none_iff]
          simp only [List.map_map, List.mem_map, Function.comp, not_exists, not_and]
          rintro l' hl' rfl
          exact hl.2.2 l' hl' l' (List.mem_flatMap.2 ⟨b, hb, hlb⟩) rfl)
      refine ⟨fun u i hi => g1 u i ?_, fun b hb => ?_, fun c => ?_⟩
      · rw [hinfo, if_neg]
        · exact hi
        · rintro rfl; rw [hkf a (by simp)] at hi; cases hi
      · rcases List.mem_cons.1 hb with rfl | hb
        · refine ⟨_, g1 _ _ (by rw [hinfo, if_pos rfl]), rfl, ?_, rfl, rfl, rfl⟩
          simp
        · exact g2 b hb
      · rw [g3 c, h5, List.find?_cons]
        by_cases hc : a.cls = c
        · subst hc
          rcases hi : a.cls.irreducible with _ | _
          · simp [hi]
          · rcases hd : w.defaults a.cls with _ | d
            · simp [hi]
            · simp [hd]
        · have : ¬ (a.cls.irreducible = true ∧ c = a.cls ∧ w.defaults a.cls = none) := fun h => hc h.2.1.symm
          simp [hc, this]

end

variable {K : Type _} [Field K] [LinearOrder K] [IsStrictOrderedRing K] [RPow K] [LawfulRPow K]

/-! ## Definition expressions -/

omit [LinearOrder K] [IsStrictOrderedRing K] [LawfulRPow K] in
theorem Shipped.Expr.eval_dim (key : Nat → UKey) (π : K) (n : Nat) : ∀ e : Expr, e.refs n = true →
    Canon (e.eval key π).dim ∧
      ∀ kv ∈ (e.eval key π).dim, kv.1.cls ≠ .dimensionless ∧ ∃ j, j < n ∧ kv.1 = key j
  | .num _ _, _ => ⟨Canon.nil, by simp [Expr.eval]⟩
  | .pi, _ => ⟨Canon.nil, by simp [Expr.eval]⟩
  | .unit i, h => by
      simp only [Expr.refs, Nat.blt_eq] at h
      simp only [Expr.eval, unitDim]
      split
      · exact ⟨Canon.nil, by simp⟩
      · rename_i hd
        refine ⟨⟨by simp [Dict.Nodup], by simp⟩, ?_⟩
        simp only [List.mem_singleton]
        rintro kv rfl
        exact ⟨hd, i, h, rfl⟩
  | .mul a b, h => by
      simp only [Expr.refs, Bool.and_eq_true] at h
      obtain ⟨a1, a2⟩ := Expr.eval_dim key π n a h.1
      obtain ⟨b1, b2⟩ := Expr.eval_dim key π n b h.2
      refine ⟨canon_mul a1 b1.nonzero, ?_⟩
      rw [forall_key (P := fun u => u.cls ≠ .dimensionless ∧ ∃ j, j < n ∧ u = key j)] at a2 b2 ⊢
      intro u hu
      rcases mem_keys_mul hu with h | h
      · exact a2 u h
      · exact b2 u h
  | .div a b, h => by
      simp only [Expr.refs, Bool.and_eq_true] at h
      obtain ⟨a1, a2⟩ := Expr.eval_dim key π n a h.1
      obtain ⟨b1, b2⟩ := Expr.eval_dim key π n b h.2
      refine ⟨canon_div a1 b1.nonzero, ?_⟩
      rw [forall_key (P := fun u => u.cls ≠ .dimensionless ∧ ∃ j, j < n ∧ u = key j)] at a2 b2 ⊢
      intro u hu
      rcases mem_keys_div hu with h | h
      · exact a2 u h
      · exact b2 u h
  | .pow a m d, h => by
      simp only [Expr.refs] at h
      obtain ⟨a1, a2⟩ := Expr.eval_dim key π n a h
      refine ⟨canon_pow a1 _, ?_⟩
      rw [forall_key (P := fun u => u.cls ≠ .dimensionless ∧ ∃ j, j < n ∧ u = key j)] at a2 ⊢
      intro u hu
      exact a2 u (mem_keys_pow hu)
  | .add a b, h => by
      simp only [Expr.refs, Bool.and_eq_true] at h
      exact Expr.eval_dim key π n a h.1
  | .quantity p q u, h => by
      simp only [Expr.refs] at h
      exact Expr.eval_dim key π n u h

theorem Shipped.Expr.eval_pos (key : Nat → UKey) {π : K} (hπ : 0 < π) : ∀ e : Expr,
    e.positive = true → 0 < (e.eval key π).mag
  | .num p q, h => by
      simp only [Expr.positive, Bool.and_eq_true, decide_eq_true_eq, Nat.blt_eq] at h
      exact div_pos (Int.cast_pos.2 h.1) (Nat.cast_pos.2 h.2)
  | .pi, _ => hπ
  | .unit _, _ => one_pos
  | .mul a b, h => by
      simp only [Expr.positive, Bool.and_eq_true] at h
      exact mul_pos (Expr.eval_pos key hπ a h.1) (Expr.eval_pos key hπ b h.2)
  | .div a b, h => by
      simp only [Expr.positive, Bool.and_eq_true] at h
      exact div_pos (Expr.eval_pos key hπ a h.1) (Expr.eval_pos key hπ b h.2)
  | .pow a m d, h => by
      simp only [Expr.positive] at h
      exact rpow_pos _ _ (Expr.eval_pos key hπ a h)
  | .add a b, h => by
      simp only [Expr.positive, Bool.and_eq_true] at h
      exact add_pos (Expr.eval_pos key hπ a h.1) (Expr.eval_pos key hπ b h.2)
  | .quantity p q u, h => by
      simp only [Expr.positive, Bool.and_eq_true, decide_eq_true_eq, Nat.blt_eq] at h
      exact div_pos (Int.cast_pos.2 h.1) (Nat.cast_pos.2 h.2)

namespace Shipped

omit [LinearOrder K] [IsStrictOrderedRing K] [LawfulRPow K] in
/-- A definition depends on the names of the units it refers to only. -/
theorem Expr.eval_congr {key key' : Nat → UKey} (π : K) {n : Nat} (hk : ∀ j, j < n → key j = key' j) :
    ∀ e : Expr, e.refs n = true → e.eval key π = e.eval key' π
  | .num _ _, _ => rfl
  | .pi, _ => rfl
  | .unit i, h => by
      simp only [Expr.refs, Nat.blt_eq] at h
      simp [Expr.eval, hk i h]
  | .mul a b, h => by
      simp only [Expr.refs, Bool.and_eq_true] at h
      simp [Expr.eval, Expr.eval_congr π hk a h.1, Expr.eval_congr π hk b h.2]
  | .div a b, h => by
      simp only [Expr.refs, Bool.and_eq_true] at h
      simp [Expr.eval, Expr.eval_congr π hk a h.1, Expr.eval_congr π hk b h.2]
  | .pow a m d, h => by
      simp only [Expr.refs] at h
      simp [Expr.eval, Expr.eval_congr π hk a h]
  | .add a b, h => by
      simp only [Expr.refs, Bool.and_eq_true] at h
      simp [Expr.eval, Expr.eval_congr π hk a h.1, Expr.eval_congr π hk b h.2]
  | .quantity p q u, h => by
      simp only [Expr.refs] at h
      simp [Expr.eval, Expr.eval_congr π hk u h]

/-! ## Facts about the table, from the checks -/

theorem refsFrom_get (b : Nat) : ∀ (rs : List Row) (n i : Nat) (r : Row) (e : Expr), refsFrom b n rs = true →
    rs[i]? = some r → r.definition = some e →
    e.refs (n + i) = true ∧ e.refs b = true ∧ r.cls ≠ .dimensionless
  | [], _, _, _, _, _, h, _ => by simp at h
  | r' :: rs, n, 0, r, e, h, hr, he => by
      simp only [List.getElem?_cons_zero, Option.some.injEq] at hr
      subst hr
      rw [refsFrom, he] at h
      simp only [Bool.and_eq_true, Bool.not_eq_true', decide_eq_false_iff_not] at h
      exact ⟨h.1.1.1, h.1.1.2, h.1.2⟩
  | r' :: rs, n, i + 1, r, e, h, hr, he => by
      simp only [List.getElem?_cons_succ] at hr
      rw [refsFrom, Bool.and_eq_true] at h
      have := refsFrom_get b rs (n + 1) i r e h.2 hr he
      rwa [show n + 1 + i = n + (i + 1) by omega] at this

theorem expoFrom_get (ds : List (List Int)) : ∀ (rs : List Row) (xs : List (List Int)) (n i : Nat) (r : Row),
    expoFrom ds n rs xs = true → rs[i]? = some r → ∃ x, xs[i]? = some x ∧ x.length = 8 ∧
      match r.definition with
      | none => if r.cls = .dimensionless then x = List.replicate 8 0
          else n + i ∈ baseRows ∧ x = baseRows.map (fun j => if j = n + i then 2 else 0)
      | some e => e.expo ds = some x
  | [], xs, _, _, _, _, h => by simp at h
  | r' :: rs, [], _, _, _, h, _ => by simp [expoFrom] at h
  | r' :: rs, x :: xs, n, 0, r, h, hr => by
      simp only [List.getElem?_cons_zero, Option.some.injEq] at hr
      subst hr
      rw [expoFrom] at h
      simp only [Bool.and_eq_true, decide_eq_true_eq] at h
      refine ⟨x, by simp, h.1.1, ?_⟩
      have h2 := h.1.2
      rcases hdf : r'.definition with _ | e <;> rw [hdf] at h2
      · simp only at h2 ⊢
        split
        · rename_i hc; rw [if_pos hc] at h2; simpa using h2
        · rename_i hc; rw [if_neg hc] at h2; simpa using h2
      · simpa using h2
  | r' :: rs, x :: xs, n, i + 1, r, h, hr => by
      simp only [List.getElem?_cons_succ] at hr
      rw [expoFrom, Bool.and_eq_true] at h
      have := expoFrom_get ds rs xs (n + 1) i r h.2 hr
      rw [show n + 1 + i = n + (i + 1) by omega] at this
      simpa using this

theorem classFrom_get : ∀ (rs : List Row) (xs : List (List Int)) (n i : Nat) (r : Row) (x : List Int),
    classFrom n rs xs = true → rs[i]? = some r → xs[i]? = some x → r.cls.irreducible = true →
    n + i ≠ statampereRow → x = baseClasses.map (fun c => if c = r.cls then 2 else 0)
  | [], _, _, _, _, _, _, h, _, _, _ => by simp at h
  | r' :: rs, [], _, _, _, _, h, _, _, _, _ => by simp [classFrom] at h
  | r' :: rs, x' :: xs, n, 0, r, x, h, hr, hx, hi, hn => by
      simp only [List.getElem?_cons_zero, Option.some.injEq] at hr hx
      subst hr hx
      rw [classFrom] at h
      simp only [Bool.and_eq_true, Bool.or_eq_true, hi, decide_eq_true_eq] at h
      rcases h.1 with (h | h) | h
      · simp at h
      · rw [Nat.beq_eq] at h; exact absurd h hn
      · exact h
  | r' :: rs, x' :: xs, n, i + 1, r, x, h, hr, hx, hi, hn => by
      simp only [List.getElem?_cons_succ] at hr hx
      rw [classFrom, Bool.and_eq_true] at h
      exact classFrom_get rs xs (n + 1) i r x h.2 hr hx hi (by omega)

theorem keys_nodup : (table.map Row.key).Nodup := by
  have h := nodupQ_sound 60 _ keyCodes_nodup
  rw [keys_eq]
  have hv := List.all_eq_true.1 keyCodes_valid
  refine List.Nodup.of_map (fun k : UKey => packNat ((classNo k.cls + 1) :: k.name.toList.map Char.toNat)) ?_
  rw [List.map_map]
  have e : keyCodes.map ((fun k : UKey => packNat ((classNo k.cls + 1) :: k.name.toList.map Char.toNat)) ∘ decodeKey)
      = keyCodes.map (fun k => packNat ((k.1 + 1) :: k.2)) := by
    refine List.map_congr_left fun k hk => ?_
    have hk' := hv k hk
    simp only [Bool.and_eq_true, Nat.blt_eq] at hk'
    simp only [Function.comp, decodeKey, decodeStr, String.toList_ofList, List.map_map]
    congr 1
    have c1 : classNo (classAt k.1) = k.1 := by
      have : ∀ m, m < 13 → classNo (classAt m) = m := by decide
      exact this _ hk'.1
    have : k.2.map (Char.toNat ∘ Char.ofNat) = k.2.map id := by
      refine List.map_congr_left fun n hn => ?_
      have := List.all_eq_true.1 hk'.2 n hn
      exact char_ofNat_toNat (by simpa [Nat.blt_eq] using this)
    rw [this, List.map_id, c1]
  rw [e]
  exact h

theorem labels_nodup : (table.flatMap Row.labels).Nodup := by
  rw [labels_eq]; exact decodeStr_nodup 60 _ labelCodes_valid labelCodes_nodup

theorem labels_nonempty : ∀ l ∈ table.flatMap Row.labels, l ≠ "" := by
  rw [labels_eq]
  intro l hl
  obtain ⟨ns, hns, rfl⟩ := List.mem_map.1 hl
  have := List.all_eq_true.1 labelCodes_nonempty ns hns
  intro h
  have h2 : (decodeStr ns).toList = "".toList := by rw [h]
  simp only [decodeStr, String.toList_ofList] at h2
  rcases ns with _ | ⟨n, ns⟩
  · simp at this
  · simp at h2

/-- The labels of a row of the table are those the constructor registers. -/
theorem labelsOf_row (t : List Row) (π : K) {r : Row} (hr : r ∈ table) :
    nlabels (Row.toNew t π r) = r.labels := by
  have h := fun l hl => labels_nonempty l (List.mem_flatMap.2 ⟨r, hr, hl⟩)
  unfold nlabels labelsOf Row.labels at *
  simp only [Row.toNew] at *
  rcases hs : r.symbol with _ | s
  · rcases r.cls <;> rfl
  · rcases hc : r.cls <;> simp only [hs, hc] at h ⊢ <;> rw [if_neg (h s (by simp))]

omit [LinearOrder K] [IsStrictOrderedRing K] [LawfulRPow K] in
@[simp] theorem nkey_row (t : List Row) (π : K) (r : Row) : nkey (Row.toNew t π r) = r.key := rfl

/-- Rows with a positive value: all units, and all constants but 31. -/
def saneTable : List Row := table.filter Row.positive

theorem saneTable_eq : saneTable = unitTable ++ constTable.filter Row.positive := by
  unfold saneTable table
  rw [List.filter_append, List.filter_eq_self.2 (List.all_eq_true.1 units_positive)]

theorem saneTable_sub : saneTable.Sublist table := List.filter_sublist

/-- A table whose first rows are the unit rows names the units as the whole table does. -/
theorem keyAt_prefix (t : List Row) {j : Nat} (hj : j < nUnits) : keyAt (unitTable ++ t) j = keyAt unitTable j := by
  unfold keyAt
  rw [List.map_append, List.getElem?_append_left]
  rw [List.length_map, unitTable_length]; exact hj

theorem keyAt_table {j : Nat} (hj : j < nUnits) : keyAt table j = keyAt unitTable j := keyAt_prefix _ hj

theorem keyAt_sane {j : Nat} (hj : j < nUnits) : keyAt saneTable j = keyAt unitTable j := by
  rw [saneTable_eq]; exact keyAt_prefix _ hj

theorem keyAt_get {t : List Row} {j : Nat} {r : Row} (h : t[j]? = some r) : keyAt t j = r.key := by
  unfold keyAt; simp [h]

theorem table_get_unit {j : Nat} (hj : j < nUnits) : ∃ r, table[j]? = some r ∧ unitTable[j]? = some r ∧
    r.positive = true := by
  have h : j < unitTable.length := by rw [unitTable_length]; exact hj
  refine ⟨unitTable[j], ?_, by simp, ?_⟩
  · unfold table; rw [List.getElem?_append_left h]; simp
  · exact List.all_eq_true.1 units_positive _ (List.getElem_mem h)

/-- Hypotheses shared by the lemmas about `runAll`, for a part of the table. -/
theorem sub_fresh {t : List Row} (hs : t.Sublist table) (t' : List Row) (π : K) (h : Hasher) :
    ((t.map (Row.toNew t' π)).map nkey).Nodup ∧
    (∀ a ∈ t.map (Row.toNew t' π), (World.init h : World K).info (nkey a) = none) ∧
    ((t.map (Row.toNew t' π)).flatMap nlabels).Nodup ∧
    (∀ a ∈ t.map (Row.toNew t' π), ∀ l ∈ nlabels a, get? (World.init h : World K).registry l = none) := by
  refine ⟨?_, fun a _ => rfl, ?_, fun a _ l _ => rfl⟩
  · rw [List.map_map]
    exact keys_nodup.sublist (hs.map Row.key)
  · rw [List.flatMap_map]
    have : t.flatMap (fun r => nlabels (Row.toNew t' π r)) = t.flatMap Row.labels :=
      List.flatMap_congr fun r hr => labelsOf_row t' π (hs.subset hr)
    rw [this]
    exact labels_nodup.sublist (hs.flatMap _)

/-- Every row of a part of the table that keeps the units refers to earlier rows. -/
theorem sub_refs {i : Nat} {r : Row} {e : Expr} (hr : table[i]? = some r)
    (he : r.definition = some e) : e.refs i = true ∧ e.refs nUnits = true ∧ r.cls ≠ .dimensionless := by
  have := refsFrom_get nUnits table 0 i r e table_refs hr he
  simpa using this

end Shipped
end PQ
