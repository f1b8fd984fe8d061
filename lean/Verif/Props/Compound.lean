import Verif.Lemmas.Compound

/-!
# C125: compound units
-/

namespace PQ

open Dict World LawfulRPow

section
variable {K : Type _} [Field K] [LinearOrder K] [IsStrictOrderedRing K] [RPow K] [LawfulRPow K]
  {h : Hasher} {w w' : World K}

/-- The world after creating a compound unit of a new name. -/
theorem compoundUnit_fresh (P : List Char → Py PyAST) (F : PyOps K) (hw : WF w) {name : String} {e : UX}
    (ht : CompoundText w name e) (hf : w.info (compoundKey name) = none) :
    ∃ q, compoundDef P F w name = .ok q ∧ q.mag = e.factor ∧ DimOK w q.dim ∧
      (∀ u, expo q.dim u = e.exponent w u) ∧
      (Op.newUnit { cls := .compound, name := name, definition := .quantity q } : Op K).Valid w ∧
      w.compoundUnit P F name =
        (Op.newUnit { cls := .compound, name := name, definition := .quantity q } : Op K).run w ∧
      (w.compoundUnit P F name).1 = none ∧
      (w.compoundUnit P F name).2.registry = w.registry ∧
      (w.compoundUnit P F name).2.defaults = w.defaults ∧
      ∃ n, (w.compoundUnit P F name).2.units = w.units ++ [(compoundKey name,
        { definition := some q, convRef := some (w.reference q), symbol := none, uSymbol := none,
          aliases := [], order := n })] := by
  obtain ⟨q, h1, h2, h3, h4, -⟩ := compoundDef_text (P := P) (F := F) hw ht
  have hrun : w.compoundUnit P F name =
      w.newUnit { cls := .compound, name := name, definition := .quantity q } := by
    unfold World.compoundUnit; rw [h1]
  have hnew : w.newUnit { cls := .compound, name := name, definition := .quantity q } =
      (none, w.construct { cls := .compound, name := name, definition := .quantity q }) := rfl
  refine ⟨q, h1, h2, h3, h4, ⟨?_, ?_⟩, hrun, ?_, ?_, ?_, ?_⟩
  · intro q' hq'
    have : q = q' := by simpa [DefArg.toDef] using hq'
    subst this
    exact ⟨by rw [h2]; exact ht.positive, h3⟩
  · intro hc; exact absurd hc (by simp)
  · rw [hrun, hnew]
  · rw [hrun, hnew]; rfl
  · rw [hrun, hnew]; rfl
  · rw [hrun, hnew]
    refine ⟨(UClass.compound.primaryOrder, w.counter .compound), ?_⟩
    have hf' : w.info ⟨.compound, name⟩ = none := hf
    simp only [World.construct, hf']
    exact set_fresh hf

/-- C125: `CompoundUnit(name)` for a new name that writes a sensible expression with a positive factor
raises nothing; it registers no label, leaves the default units and every other unit alone, and the
new unit has, for any sizes of the units, the physical value of the expression. -/
theorem C125_create (P : List Char → Py PyAST) (F : PyOps K) (hw : Reachable h w) (name : String) (e : UX)
    (ht : CompoundText w name e) (hf : w.info (compoundKey name) = none) :
    (w.compoundUnit P F name).1 = none ∧
    Reachable h (w.compoundUnit P F name).2 ∧
    (w.compoundUnit P F name).2.registry = w.registry ∧
    (w.compoundUnit P F name).2.defaults = w.defaults ∧
    (∀ u, u ≠ compoundKey name → (w.compoundUnit P F name).2.info u = w.info u) ∧
    DimOK (w.compoundUnit P F name).2 (unitDim (compoundKey name)) ∧
    ∀ v : Valuation (w.compoundUnit P F name).2, v.size (unitDim (compoundKey name)) = e.value v := by
  obtain ⟨q, h1, h2, h3, h4, h5, h6, h7, h8, h9, n, h10⟩ := compoundUnit_fresh P F hw.wf ht hf
  have hreach : Reachable h (w.compoundUnit P F name).2 := by
    rw [h6]; exact Reachable.step _ hw h5
  have hinfo := fun u => info_append h10 hf u
  refine ⟨h7, hreach, h8, h9, fun u hu => by rw [hinfo, if_neg hu], unitDim_ok ?_, fun v => ?_⟩
  · rw [h10]; simp
  · have hs : e.Sensible (w.compoundUnit P F name).2 :=
      UX.Sensible.mono (fun s u hs => by unfold World.named; rw [h8]; exact hs) e ht.sensible
    obtain ⟨d, d1, d2, d3⟩ := e.value_eq v hs
    have hd := v.defined (compoundKey name) _ q (by rw [hinfo, if_pos rfl]) rfl
    have hsz : v.size (unitDim (compoundKey name)) = v.val (compoundKey name) := by
      simp [Valuation.size, unitDim, compoundKey, dsize, rpow_one]
    have hex : ∀ u, expo q.dim u = expo d u := fun u => by
      rw [h4, d2, e.exponent_congr (fun s => by unfold World.named; rw [h8])]
    rw [hsz, hd, d3, h2]
    congr 1
    exact size_of_expo v h3.canon d1 hex

/-- C125: creating a compound unit is all or nothing: when it raises, nothing has changed. -/
theorem C125_all_or_nothing (P : List Char → Py PyAST) (F : PyOps K) (w : World K) (name : String)
    (he : (w.compoundUnit P F name).1 ≠ none) : (w.compoundUnit P F name).2 = w := by
  unfold World.compoundUnit at he ⊢
  rcases hc : compoundDef P F w name with x | q
  · rfl
  · rw [hc] at he; exact absurd rfl he

/-- C125: a name that cannot be looked up is refused, with the exception of the lookup. -/
theorem C125_refused (P : List Char → Py PyAST) (F : PyOps K) (w : World K) (name : String) (x : PyErr)
    (hx : w.lookup P F name.toList = .error x) : w.compoundUnit P F name = (some x, w) := by
  have : compoundDef P F w name = .error x := by unfold compoundDef; rw [hx]
  unfold World.compoundUnit; rw [this]

/-- C125: the compound unit converts to the units of its expression, and back, by the expression's
numerical factor (unless the two dimensionalities happen to have the same hash). -/
theorem C125_rescale (P : List Char → Py PyAST) (F : PyOps K) (hw : Reachable h w) (name : String) (e : UX)
    (ht : CompoundText w name e) (hf : w.info (compoundKey name) = none) (d : Dim)
    (hd : Canon d) (hde : ∀ u, expo d u = e.exponent w u) (x : NDArr K)
    (hs : NoColl (w.compoundUnit P F name).2 (unitDim (compoundKey name)) d) :
    (∃ r, (⟨x, unitDim (compoundKey name)⟩ : Quantity K).rescale (w.compoundUnit P F name).2 d = .ok r ∧
      r.mag = x.map (fun t => e.factor * t) ∧ SameContent r.dim d) ∧
    (∃ r, (⟨x, d⟩ : Quantity K).rescale (w.compoundUnit P F name).2 (unitDim (compoundKey name)) = .ok r ∧
      r.mag = x.map (fun t => t / e.factor) ∧ SameContent r.dim (unitDim (compoundKey name))) := by
  obtain ⟨-, hreach, hreg, -, -, hok, hval⟩ := C125_create P F hw name e ht hf
  have hnamed : ∀ s, (w.compoundUnit P F name).2.named s = w.named s := fun s => by
    unfold World.named; rw [hreg]
  generalize (w.compoundUnit P F name).2 = w1 at *
  have hsens : e.Sensible w1 := UX.Sensible.mono (fun s u hs => by rw [hnamed]; exact hs) e ht.sensible
  have hdOK : DimOK w1 d := by
    refine ⟨hd, fun kv hk => ?_, fun kv hk => ?_⟩
    all_goals
      have hne : expo d kv.1 ≠ 0 := by
        rw [expo, get?_of_mem hd.nodup hk]; exact hd.nonzero kv hk
      rw [hde, ← e.exponent_congr hnamed] at hne
      obtain ⟨s, h1, h2⟩ := e.exponent_named kv.1 hne
    · exact hreach.wf.registered _ _ h1
    · exact h2
  have hsize : ∀ v : Valuation w1, v.size (unitDim (compoundKey name)) = e.factor * v.size d := fun v => by
    obtain ⟨d', d1, d2, d3⟩ := e.value_eq v hsens
    rw [hval, d3, size_of_expo v d1 hd (fun u => by rw [d2, hde, e.exponent_congr hnamed])]
  have hpos := ht.positive
  have hs : HashSafe w1 (unitDim (compoundKey name)) d :=
    ⟨hs, fun _ => (compatible_iff hreach.wf hok hdOK).1 ⟨_, hsize⟩⟩
  obtain ⟨v⟩ := exists_valuation hreach.wf
  have hvd : v.size d ≠ 0 := (dsize_pos v.pos d).ne'
  constructor
  · obtain ⟨r, hr⟩ := (C10_compatible_converts hreach ⟨x, unitDim (compoundKey name)⟩ d hok hdOK).1
      ⟨_, hsize⟩
    obtain ⟨-, h2, -, -, cf, -, h5, h6⟩ := rescale_ok hreach.wf hok hdOK hs hr
    refine ⟨r, hr, ?_, h2⟩
    have : cf = e.factor := mul_right_cancel₀ hvd ((h6 v).symm.trans (hsize v))
    rw [h5, this]
  · have hsize' : ∀ v : Valuation w1, v.size d = (e.factor)⁻¹ * v.size (unitDim (compoundKey name)) :=
      fun v => by rw [hsize, inv_mul_cancel_left₀ hpos.ne']
    obtain ⟨r, hr⟩ := (C10_compatible_converts hreach ⟨x, d⟩ (unitDim (compoundKey name)) hdOK hok).1
      ⟨_, hsize'⟩
    obtain ⟨-, h2, -, -, cf, -, h5, h6⟩ := rescale_ok hreach.wf hdOK hok hs.symm hr
    refine ⟨r, hr, ?_, h2⟩
    have hvk : v.size (unitDim (compoundKey name)) ≠ 0 := (dsize_pos v.pos _).ne'
    have : cf = (e.factor)⁻¹ := mul_right_cancel₀ hvk ((h6 v).symm.trans (hsize' v))
    rw [h5, this]
    congr 1; funext t; rw [div_eq_mul_inv, mul_comm]

/-- C125: creating the compound unit a second time, however much later, raises nothing and changes no
unit, label or default; and so does copying it. -/
theorem C125_again (P : List Char → Py PyAST) (F : PyOps K) (hw : Reachable h w) (name : String) (e : UX)
    (ht : CompoundText w name e) (hf : w.info (compoundKey name) = none)
    (he : Evolves (w.compoundUnit P F name).2 w') :
    (w'.compoundUnit P F name).1 = none ∧
    (w'.compoundUnit P F name).2.units = w'.units ∧
    (w'.compoundUnit P F name).2.registry = w'.registry ∧
    (w'.compoundUnit P F name).2.defaults = w'.defaults ∧
    w'.copyCompound P F (compoundKey name) = w'.compoundUnit P F name := by
  obtain ⟨-, hreach, hreg, -, -, -, -⟩ := C125_create P F hw name e ht hf
  obtain ⟨q, -, -, -, -, -, -, -, -, -, n, h10⟩ := compoundUnit_fresh P F hw.wf ht hf
  have hinfo := info_append h10 hf (compoundKey name)
  rw [if_pos rfl] at hinfo
  obtain ⟨-, k2, k3⟩ := evolves_keeps he
  have ht' : CompoundText w' name e :=
    { ht with sensible := UX.Sensible.mono (fun s u hs => k3 _ _ (by rw [hreg]; exact hs)) e ht.sensible }
  obtain ⟨q', h1, -⟩ := compoundDef_text (P := P) (F := F) (hreach.evolves he).wf ht'
  have hi' : w'.info ⟨.compound, name⟩ = some _ := k2 _ _ hinfo
  have hrun : w'.compoundUnit P F name =
      (none, w'.construct { cls := .compound, name := name, definition := .quantity q' }) := by
    unfold World.compoundUnit; rw [h1]; rfl
  refine ⟨by rw [hrun], ?_, by rw [hrun]; rfl, by rw [hrun]; rfl, rfl⟩
  rw [hrun]
  simp only [World.construct, hi']

/-- C125: a printed dimensionality may contain compound units: if every unit's printed text stands for
the unit (an identifier, or the parenthesised name of a compound unit), then looking the printed
dimensionality up gives a quantity with its physical value. -/
theorem C125_printed (P : List Char → Py PyAST) (F : PyOps K) (w : World K) (fr : ℚ → List Char) (d : PDim)
    (hsym : ∀ kv ∈ d, ∃ e, SymbolReads w kv.1 e) (hexp : ∀ kv ∈ d, PrintsExp fr kv.2)
    (hdl : ∃ u, Dict.get? w.registry "dimensionless" = some u ∧ u.cls = .dimensionless) :
    ∃ x q, w.lookup P F (formatUnits w fr false d) = .ok x ∧ x.asQty = some q ∧
      ∀ v : Valuation w, v.scalar q = v.size d.toDim := by
  suffices hr : Reading w .term (formatUnits w fr false d) (fun v => v.size d.toDim) by
    obtain ⟨hi, e, w1, s1, n1, -, v1⟩ := hr
    obtain ⟨x, q, h1, h2, h3⟩ := C92_physical P F w e (formatUnits w fr false d) [] w1 ex_blank0
      (by rwa [List.append_nil]) s1 n1
    rw [List.append_nil] at h1
    exact ⟨x, q, h1, h2, fun v => by rw [h3, v1]⟩
  have hperm := sorted_perm w d
  set items := PDim.sorted w d with hitems
  have hmem : ∀ {kv}, kv ∈ items → kv ∈ d := fun h => hperm.mem_iff.1 h
  have negval : ∀ e : PyNum, e.neg.val = - e.val := by
    intro e; cases e <;> simp [PyNum.neg, PyNum.val]
  let pos := items.filter (fun kv => decide (0 < kv.2.val))
  let neg := items.filter (fun kv => decide (kv.2.val < 0))
  have rPos : ∀ kv ∈ pos, Reading w .factor (fmtItem w fr false kv.1 kv.2)
      (fun v => rpow (v.val kv.1) kv.2.val) := by
    intro kv hk
    obtain ⟨h1, h2⟩ := List.mem_filter.1 hk
    obtain ⟨e, he⟩ := hsym kv (hmem h1)
    refine reading_item he ?_
    rcases hexp kv (hmem h1) with ⟨-, h⟩ | ⟨h, -⟩
    · exact h
    · exact absurd (by simpa using h2) (not_lt.2 h.le)
  have rNeg : ∀ kv ∈ neg, Reading w .factor (fmtItem w fr false kv.1 kv.2.neg)
      (fun v => rpow (v.val kv.1) (- kv.2.val)) := by
    intro kv hk
    obtain ⟨h1, h2⟩ := List.mem_filter.1 hk
    obtain ⟨e, he⟩ := hsym kv (hmem h1)
    have := reading_item (d := kv.2.neg) (fr := fr) he (by
      rcases hexp kv (hmem h1) with ⟨h, -⟩ | ⟨-, h⟩
      · exact absurd (by simpa using h2) (not_lt.2 h.le)
      · exact h)
    rwa [negval] at this
  -- the size of the dimensionality
  have hsize : ∀ v : Valuation w, v.size d.toDim =
      (pos.map (fun kv => rpow (v.val kv.1) kv.2.val)).prod /
      (neg.map (fun kv => rpow (v.val kv.1) (- kv.2.val))).prod := by
    intro v
    have e1 : v.size d.toDim = (items.map (fun kv => rpow (v.val kv.1) kv.2.val)).prod := by
      rw [(hperm.map _).prod_eq]
      simp [Valuation.size, dsize, PDim.toDim, List.map_map, Function.comp_def]
    rw [e1]
    have hz : ∀ kv ∈ items, 0 < kv.2.val ∨ kv.2.val < 0 := fun kv hk => by
      rcases hexp kv (hmem hk) with ⟨h, -⟩ | ⟨h, -⟩
      · exact Or.inl h
      · exact Or.inr h
    change _ = ((items.filter (fun kv => decide (0 < kv.2.val))).map
      (fun kv => rpow (v.val kv.1) kv.2.val)).prod /
      ((items.filter (fun kv => decide (kv.2.val < 0))).map
      (fun kv => rpow (v.val kv.1) (- kv.2.val))).prod
    clear_value items
    clear hitems hperm hmem pos neg rPos rNeg e1
    induction items with
    | nil => simp
    | cons kv l ih =>
      have ih := ih (fun x hx => hz x (by simp [hx]))
      rcases hz kv (by simp) with h | h
      · rw [List.filter_cons_of_pos (by simpa using h), List.filter_cons_of_neg (by simpa using h.le)]
        simp only [List.map_cons, List.prod_cons]
        rw [ih, mul_div_assoc]
      · rw [List.filter_cons_of_neg (by simpa using h.le), List.filter_cons_of_pos (by simpa using h)]
        simp only [List.map_cons, List.prod_cons]
        have e2 : rpow (v.val kv.1) (- kv.2.val) * rpow (v.val kv.1) kv.2.val = 1 := by
          rw [← rpow_add _ _ _ (v.pos _), neg_add_cancel, rpow_zero]
        have e3 : rpow (v.val kv.1) (- kv.2.val) = (rpow (v.val kv.1) kv.2.val)⁻¹ :=
          eq_inv_of_mul_eq_one_left e2
        have := (rpow_pos (v.val kv.1) kv.2.val (v.pos _)).ne'
        rw [ih, e3, div_mul_eq_div_div, div_inv_eq_mul, mul_comm, mul_div_assoc, mul_comm]
        ring
  have hX : (fun v : Valuation w => v.size d.toDim) = fun v => _ / _ := funext hsize
  rw [hX]
  have eNum : fmtNum w fr false items = pos.map (fun kv => fmtItem w fr false kv.1 kv.2) := rfl
  have eDen : fmtDen w fr false items = neg.map (fun kv => fmtItem w fr false kv.1 kv.2.neg) := rfl
  have hfmt : formatUnits w fr false d =
      (let res := joinStar (fmtNum w fr false items)
       let res := if (fmtDen w fr false items).length = 0 then res
         else (if res = [] then ['1'] else res) ++ '/' ::
           (if 1 < (fmtDen w fr false items).length
            then '(' :: joinStar (fmtDen w fr false items) ++ [')']
            else joinStar (fmtDen w fr false items))
       if res = [] then "dimensionless".toList else res) := rfl
  rw [hfmt, eNum, eDen]
  clear_value pos neg
  clear hfmt eNum eDen hX hsize
  -- the denominator as one factor
  have hden : neg ≠ [] → Reading w .factor
      (if 1 < (neg.map (fun kv => fmtItem w fr false kv.1 kv.2.neg)).length
        then '(' :: joinStar (neg.map (fun kv => fmtItem w fr false kv.1 kv.2.neg)) ++ [')']
        else joinStar (neg.map (fun kv => fmtItem w fr false kv.1 kv.2.neg)))
      (fun v => (neg.map (fun kv => rpow (v.val kv.1) (- kv.2.val))).prod) := by
    intro hne
    have hl := reading_list (fun kv : UKey × PyNum => fmtItem w fr false kv.1 kv.2.neg)
      (fun kv v => rpow (v.val kv.1) (- kv.2.val)) neg rNeg hne
    by_cases h1 : 1 < (neg.map (fun kv => fmtItem w fr false kv.1 kv.2.neg)).length
    · rw [if_pos h1]; exact reading_paren hl
    · rw [if_neg h1]
      rcases neg with _ | ⟨kv, _ | ⟨kv', l⟩⟩
      · exact absurd rfl hne
      · have := rNeg kv (by simp)
        simpa [joinStar] using this
      · exact absurd (by simp) h1
  rcases eq_or_ne neg [] with hn | hn
  · subst hn
    rcases eq_or_ne pos [] with hp | hp
    · subst hp
      obtain ⟨u, hu, huc⟩ := hdl
      have hid : IsIdent "dimensionless".toList :=
        ⟨by simp, fun c hc => by
          have : c = 'd' := by simpa using hc.symm
          subst this; decide, by decide, by decide⟩
      have hnm : w.named "dimensionless".toList = some u := hu
      change Reading w .term "dimensionless".toList _
      refine ⟨by unfold LooksLikeIn; decide +kernel, .name "dimensionless".toList,
        .factor (.atom (.name hid)), ?_, rfl, ?_, fun v => ?_⟩
      · show (w.named _).isSome; rw [hnm]; rfl
      · exact one_pos
      · simp only [UX.value, hnm, Option.map_some, Option.getD_some, v.dimless u huc]; simp
    · have hl := reading_list (fun kv : UKey × PyNum => fmtItem w fr false kv.1 kv.2)
        (fun kv v => rpow (v.val kv.1) kv.2.val) pos rPos hp
      have hne : joinStar (pos.map (fun kv => fmtItem w fr false kv.1 kv.2)) ≠ [] := by
        obtain ⟨-, e, w1, -⟩ := hl
        exact writes_ne_nil w1
      simp only [List.map_nil, List.length_nil, if_true, if_neg hne, List.prod_nil, div_one]
      exact hl
  · have hl0 : ¬ (neg.map (fun kv => fmtItem w fr false kv.1 kv.2.neg)).length = 0 := by simpa using hn
    simp only [if_neg hl0]
    rw [if_neg (by simp)]
    rcases eq_or_ne pos [] with hp | hp
    · subst hp
      have := reading_inv (hden hn)
      simpa [joinStar] using this
    · have hl := reading_list (fun kv : UKey × PyNum => fmtItem w fr false kv.1 kv.2)
        (fun kv v => rpow (v.val kv.1) kv.2.val) pos rPos hp
      have hne : joinStar (pos.map (fun kv => fmtItem w fr false kv.1 kv.2)) ≠ [] := by
        obtain ⟨-, e, w1, -⟩ := hl
        exact writes_ne_nil w1
      rw [if_neg hne]
      exact reading_div hl (hden hn)

/-- C125: a registered unit whose symbol is an identifier, and a compound unit, both read as
themselves. -/
theorem C125_symbol_reads (P : List Char → Py PyAST) (F : PyOps K) (hw : Reachable h w) (name : String)
    (e : UX) (ht : CompoundText w name e) (hf : w.info (compoundKey name) = none)
    (he : Evolves (w.compoundUnit P F name).2 w') :
    SymbolReads w' (compoundKey name) e ∧
    ∀ (u : UKey), IsIdent (w'.unitSymbol false u) → ¬ LooksLikeIn (w'.unitSymbol false u) →
      Dict.get? w'.registry (String.ofList (w'.unitSymbol false u)) = some u →
      SymbolReads w' u (.name (w'.unitSymbol false u)) := by
  constructor
  · obtain ⟨-, hreach, hreg, -, -, -, hval⟩ := C125_create P F hw name e ht hf
    obtain ⟨q, -, g2, g3, g4, -, -, -, -, -, n, h10⟩ := compoundUnit_fresh P F hw.wf ht hf
    have hinfo := info_append h10 hf (compoundKey name)
    rw [if_pos rfl] at hinfo
    obtain ⟨-, k2, k3⟩ := evolves_keeps he
    have hi' := k2 _ _ hinfo
    have hkeep : ∀ s u, w.named s = some u → w'.named s = some u := fun s u hs =>
      k3 _ _ (by rw [hreg]; exact hs)
    have hsens : e.Sensible w' := UX.Sensible.mono hkeep e ht.sensible
    have hsym : w'.unitSymbol false (compoundKey name) = '(' :: name.toList ++ [')'] := by
      unfold World.unitSymbol
      rw [hi']
      rfl
    obtain ⟨s, b, hn, w1, hb⟩ := ht.written
    refine ⟨?_, ?_, hsens, ht.mentions, ht.positive, fun v => ?_⟩
    · rw [hsym, hn]
      simpa using Writes.paren (b₁ := []) ex_blank0 w1 hb
    · rw [hsym]; exact not_looksLikeIn (c := '(') (by simp) (Or.inr (Or.inr rfl))
    · obtain ⟨d, d1, d2, d3⟩ := e.value_eq v hsens
      rw [v.defined _ _ q hi' rfl, d3, g2]
      congr 1
      refine size_of_expo v d1 g3.canon fun u => ?_
      rw [d2, g4, UX.exponent_keep hkeep ht.sensible]
  · intro u h1 h2 h3
    have hnm : w'.named (w'.unitSymbol false u) = some u := h3
    refine ⟨.name h1, h2, ?_, rfl, one_pos, fun v => ?_⟩
    · show (w'.named _).isSome; rw [hnm]; rfl
    · simp only [UX.value, hnm, Option.map_some, Option.getD_some]

end

/-! ## Non-vacuity -/

/-- `1000*m`. -/
def exThousand : UX := .mul (.num 1000) (.name ['m'])

theorem exThousand_text : CompoundText exWorld "1000*m" exThousand where
  written := ⟨"1000*m".toList, [], by simp, .mul (b₁ := []) (b₂ := []) (s := "1000".toList)
    (.factor (.atom (.num ⟨1000, Or.inl ⟨by decide +kernel, by norm_num⟩⟩))) ex_blank0 (Or.inl rfl) ex_blank0
    (.atom (.name ex_ident.2.2)), ex_blank0⟩
  notInch := by unfold LooksLikeIn; decide +kernel
  sensible := by
    have h3 : exWorld.named ['m'] = some uM := by
      change get? exWorld.registry (String.ofList ['m']) = some uM; decide +kernel
    refine ⟨trivial, ?_⟩
    show (exWorld.named ['m']).isSome
    rw [h3]; rfl
  mentions := rfl
  positive := by simp [exThousand, UX.factor]

theorem exCompound_fresh (name : String) : exWorld.info (compoundKey name) = none := by
  rcases hi : exWorld.info (compoundKey name) with _ | i
  · rfl
  · have := known_of_info hi
    rw [exKeys] at this
    simp [compoundKey, uM, uKm, uS, uHz] at this

/-- `CompoundUnit("1000*m")` is worth a kilometre. -/
example (P : List Char → Py PyAST) (F : PyOps ℝ)
    (v : Valuation (exWorld.compoundUnit P F "1000*m").2) :
    v.size (unitDim (compoundKey "1000*m")) = exThousand.value v :=
  (C125_create P F exWorld_reachable "1000*m" exThousand exThousand_text (exCompound_fresh _)).2.2.2.2.2.2 v

/-- It converts to metres by a factor of 1000. -/
example (P : List Char → Py PyAST) (F : PyOps ℝ) (x : NDArr ℝ) :
    ∃ r, (⟨x, unitDim (compoundKey "1000*m")⟩ : Quantity ℝ).rescale (exWorld.compoundUnit P F "1000*m").2 dM
      = .ok r ∧ r.mag = x.map (fun t => 1000 * t) := by
  have h3 : exWorld.named ['m'] = some uM := by
    change get? exWorld.registry (String.ofList ['m']) = some uM; decide +kernel
  obtain ⟨⟨r, h1, h2, -⟩, -⟩ := C125_rescale P F exWorld_reachable "1000*m" exThousand exThousand_text
    (exCompound_fresh _) dM (canon_single uM one_ne_zero) (fun u => by
      simp only [exThousand, UX.exponent, h3, dM, expo_cons, expo_nil, zero_add, Option.some.injEq]
      by_cases hu : uM = u
      · subst hu; simp [uM]
      · simp [hu]) x (fun hd => by
      have hh : (exWorld.compoundUnit P F "1000*m").2.hasher = exH := by
        obtain ⟨q, -, -, -, -, h5, h6, -⟩ := compoundUnit_fresh P F exWorld_wf exThousand_text
          (exCompound_fresh _)
        rw [h6]
        exact (evolves_keeps (Evolves.step _ .refl h5)).1
      exfalso; revert hd
      have hu : unitDim (compoundKey "1000*m") = [(compoundKey "1000*m", 1)] := rfl
      rw [hu]
      simp only [World.deq, Dim.eq, dM]
      rw [hh, exHash1, exHash1]
      decide)
  exact ⟨r, h1, by rw [h2]; simp [exThousand, UX.factor]⟩

/-- A longer one: `2.5*km/(s^-1 · m)**2`. -/
example : CompoundText exWorld "2.5*km/(s^-1 · m)**2" exText where
  written := ⟨_, [], by simp, ex_writes, ex_blank0⟩
  notInch := by unfold LooksLikeIn; decide +kernel
  sensible := ex_sensible
  mentions := rfl
  positive := by
    have hr : (rpow (1 : ℝ) ((Option.map (fun x : ℚ => - x) (some 1)).getD 0) * 1) = 1 := by
      rw [rpow_one_left, one_mul]
    simp only [exText, UX.factor, UX.number, hr]
    rw [rpow_one_left]; norm_num

/-- `(1000*m)**2/s` printed in a world with that compound unit: the symbols read as the units. -/
example (P : List Char → Py PyAST) (F : PyOps ℝ) :
    SymbolReads (exWorld.compoundUnit P F "1000*m").2 (compoundKey "1000*m") exThousand :=
  (C125_symbol_reads P F exWorld_reachable "1000*m" exThousand exThousand_text (exCompound_fresh _) .refl).1

end PQ
