import Verif.Lemmas.Rounding

/-! # The invariant of rounded worlds is kept -/

namespace PQ

open Dict World

variable {A : Arith}

/-- A valuation of a larger world is one of the smaller world. -/
def FlValuation.restrict {w w' : World (Fl A)} (h : ∀ u i, w.info u = some i → w'.info u = some i)
    (v : FlValuation w') : FlValuation w :=
  ⟨v.val, v.pos, v.dimless, fun u i q hi hq => v.defined u i q (h u i hi) hq⟩

theorem ErrorBudget.restrict {w w' : World (Fl A)} {cost : UKey → ℝ}
    (h : ∀ u i, w.info u = some i → w'.info u = some i) (hb : ErrorBudget w' cost) : ErrorBudget w cost :=
  ⟨hb.nonneg, fun u i q hi hq => hb.defined u i q (h u i hi) hq⟩

/-- The exact factor of a new unit. -/
noncomputable def newκ (w w' : World (Fl A)) (κ : UKey → ℝ) (u : UKey) : ℝ :=
  match w.info u with
  | some _ => κ u
  | none =>
    match (w'.info u).bind UnitInfo.definition with
    | some q => kap κ q.dim * q.mag.val
    | none => 1

/-- The exact size of a new unit. -/
noncomputable def newVal (w w' : World (Fl A)) (b val : UKey → ℝ) (u : UKey) : ℝ :=
  match w.info u with
  | some _ => val u
  | none =>
    match (w'.info u).bind UnitInfo.definition with
    | some q => q.mag.val * dsize val q.dim
    | none => if u.cls = .dimensionless then 1 else b u

theorem FlWF.extend {w w' : World (Fl A)} {κ cost : UKey → ℝ} (hw : FlWF w κ cost) (key : UKey)
    (hbud : ErrorBudget w' cost)
    (hinfo : ∀ u i, w.info u = some i → w'.info u = some i)
    (hnew : ∀ u i, w'.info u = some i → w.info u = some i ∨ (u = key ∧
      i.convRef = i.definition.map w.reference ∧
      (∀ q, i.definition = some q → 0 < q.mag ∧ DimOK w q.dim) ∧
      (u.cls = .dimensionless → i.definition = none)))
    (hnodup : Dict.Nodup w'.units)
    (hdef : ∀ c d, w'.defaults c = some d → DimOK w' d)
    (hreg : ∀ l u, Dict.get? w'.registry l = some u → u ∈ w'.units.map Prod.fst) :
    FlWF w' (newκ w w' κ) cost := by
  have hcost := hbud.nonneg
  have hkeys : ∀ u, u ∈ w.units.map Prod.fst → u ∈ w'.units.map Prod.fst := by
    intro u hu
    obtain ⟨i, hi⟩ := info_known hu
    exact known_of_info (hinfo u i hi)
  have hconv : ∀ u, u ∈ w.units.map Prod.fst → w'.convRef u = w.convRef u := by
    intro u hu
    obtain ⟨i, hi⟩ := info_known hu
    rw [convRef_of_info hi, convRef_of_info (hinfo u i hi)]
  have href : ∀ d, DimOK w d → w'.refUnits d = w.refUnits d := fun d hd =>
    refUnits_congr fun kv hk => hconv _ (hd.known kv hk)
  have hrefq : ∀ q : SQ (Fl A), DimOK w q.dim → w'.reference q = w.reference q := by
    intro q hq; simp only [World.reference, href _ hq]
  have hbase : ∀ d, BaseDim w d → BaseDim w' d := fun d hd =>
    ⟨hd.toDimOK.mono hkeys, fun kv hk => by rw [hconv _ (hd.known kv hk)]; exact hd.base kv hk⟩
  have hold : ∀ u i, w.info u = some i → newκ w w' κ u = κ u := by
    intro u i hi; unfold newκ; rw [hi]
  have hnewdef : ∀ u i q, w.info u = none → w'.info u = some i → i.definition = some q →
      newκ w w' κ u = kap κ q.dim * q.mag.val := by
    intro u i q h0 hi hq
    unfold newκ; rw [h0, hi]; simp only [Option.bind_some, hq]
  -- a stored reference is an old one or that of a new definition
  have hconvnew : ∀ u r, w'.convRef u = some r →
      (w.convRef u = some r ∧ newκ w w' κ u = κ u) ∨
      ∃ q i, 0 < q.mag ∧ DimOK w q.dim ∧ r = w.reference q ∧ u.cls ≠ .dimensionless ∧
        w'.info u = some i ∧ i.definition = some q ∧ newκ w w' κ u = kap κ q.dim * q.mag.val := by
    intro u r hr
    rcases hi : w'.info u with _ | i
    · simp [World.convRef, hi] at hr
    · rw [convRef_of_info hi] at hr
      rcases h0 : w.info u with _ | j
      · rcases hnew u i hi with h | ⟨_, h2, h3, h4⟩
        · rw [h0] at h; exact absurd h (by simp)
        · right
          rw [h2] at hr
          rcases hq : i.definition with _ | q
          · simp [hq] at hr
          · rw [hq] at hr
            simp only [Option.map_some, Option.some.injEq] at hr
            obtain ⟨p1, p2⟩ := h3 q hq
            refine ⟨q, i, p1, p2, hr.symm, ?_, rfl, hq, hnewdef u i q h0 hi hq⟩
            intro hc; rw [h4 hc] at hq; exact absurd hq (by simp)
      · left
        have : i = j := by
          have := hinfo u j h0
          rw [hi] at this; simpa using this
        subst this
        exact ⟨by rw [convRef_of_info h0, hr], hold u i h0⟩
  refine ⟨?_, hnodup, ?_, ?_, ?_, ?_, ?_, ?_, ?_, hdef, hreg, ?_⟩
  · intro u
    unfold newκ
    rcases h0 : w.info u with _ | j
    · simp only
      rcases hd : (w'.info u).bind UnitInfo.definition with _ | q
      · exact one_pos
      · simp only
        rcases hi : w'.info u with _ | i
        · rw [hi] at hd; simp at hd
        · rw [hi, Option.bind_some] at hd
          rcases hnew u i hi with h | ⟨_, _, h3, _⟩
          · rw [h0] at h; exact absurd h (by simp)
          · exact mul_pos (dsize_pos hw.κpos _) (h3 q hd).1
    · exact hw.κpos u
  · intro u i hi
    rcases hnew u i hi with h | ⟨_, h2, h3, _⟩
    · rw [hw.conv u i h]
      rcases hq : i.definition with _ | q
      · rfl
      · simp only [Option.map_some]; rw [hrefq q (hw.defOK u i q h hq).2]
    · rw [h2]
      rcases hq : i.definition with _ | q
      · rfl
      · simp only [Option.map_some]; rw [hrefq q (h3 q hq).2]
  · intro u i q hi hq
    rcases hnew u i hi with h | ⟨_, _, h3, _⟩
    · obtain ⟨p1, p2⟩ := hw.defOK u i q h hq
      exact ⟨p1, p2.mono hkeys⟩
    · obtain ⟨p1, p2⟩ := h3 q hq
      exact ⟨p1, p2.mono hkeys⟩
  · intro u r hr
    rcases hconvnew u r hr with ⟨h, -⟩ | ⟨q, i, p1, p2, rfl, _⟩
    · obtain ⟨p1, p2⟩ := hw.refBase u r h
      exact ⟨p1, hbase _ p2⟩
    · obtain ⟨r1, r2, _⟩ := hw.reference hcost p2 p1
      exact ⟨r1, hbase _ r2⟩
  · intro u hu
    unfold newκ
    rcases h0 : w.info u with _ | j
    · simp only
      rcases hd : (w'.info u).bind UnitInfo.definition with _ | q
      · rfl
      · exfalso
        rcases hi : w'.info u with _ | i
        · rw [hi] at hd; simp at hd
        · rw [hi, Option.bind_some] at hd
          rcases hnew u i hi with h | ⟨_, h2, _, _⟩
          · rw [h0] at h; exact absurd h (by simp)
          · rw [convRef_of_info hi, h2, hd] at hu; simp at hu
    · simp only
      refine hw.κbase u ?_
      rw [← hconv u (known_of_info h0)]; exact hu
  · intro u r v hr
    let v0 : FlValuation w := v.restrict hinfo
    rcases hconvnew u r hr with ⟨h, e⟩ | ⟨q, i, p1, p2, rfl, _, hi, hq, e⟩
    · rw [e]; exact hw.refSize u r v0 h
    · obtain ⟨-, r2, r3, -⟩ := hw.refUnits hcost p2
      have h1 : kap κ q.dim * dsize v.val (w.refUnits q.dim).dim = dsize v.val q.dim := r3 v0
      have h2 := v.defined u i q hi hq
      rw [e, h2, ← h1]
      change _ = kap κ q.dim * q.mag.val * dsize v.val (w.refUnits q.dim).dim
      ring
  · intro u r hr
    rcases hconvnew u r hr with ⟨h, e⟩ | ⟨q, i, p1, p2, rfl, _, hi, hq, e⟩
    · rw [e]; exact hw.err u r h
    · obtain ⟨-, -, r3⟩ := hw.reference hcost p2 p1
      rw [e]
      exact r3.trans (mul_le_mul_of_nonneg_right (hbud.defined u i q hi hq) A.L_nonneg)
  · intro u hu
    rcases h : w'.convRef u with _ | r
    · rfl
    · rcases hconvnew u r h with ⟨h, -⟩ | ⟨q, i, _, _, _, hc, _⟩
      · rw [hw.dimless u hu] at h; exact absurd h (by simp)
      · exact absurd hu hc
  · intro b hb
    obtain ⟨v, hv⟩ := hw.free b hb
    have hsame : ∀ q : SQ (Fl A), DimOK w q.dim →
        dsize (newVal w w' b v.val) q.dim = dsize v.val q.dim := by
      intro q hq
      refine dsize_congr fun kv hkv => ?_
      obtain ⟨i, hi⟩ := info_known (hq.known kv hkv)
      unfold newVal; rw [hi]
    refine ⟨⟨newVal w w' b v.val, ?_, ?_, ?_⟩, ?_⟩
    · intro u
      unfold newVal
      rcases h0 : w.info u with _ | j
      · simp only
        rcases hd : (w'.info u).bind UnitInfo.definition with _ | q
        · simp only; split
          · exact one_pos
          · exact hb u
        · simp only
          rcases hi : w'.info u with _ | i
          · rw [hi] at hd; simp at hd
          · rw [hi, Option.bind_some] at hd
            rcases hnew u i hi with h | ⟨_, _, h3, _⟩
            · rw [h0] at h; exact absurd h (by simp)
            · exact mul_pos (h3 q hd).1 (dsize_pos v.pos _)
      · exact v.pos u
    · intro u hu
      unfold newVal
      rcases h0 : w.info u with _ | j
      · simp only
        rcases hd : (w'.info u).bind UnitInfo.definition with _ | q
        · simp [hu]
        · exfalso
          rcases hi : w'.info u with _ | i
          · rw [hi] at hd; simp at hd
          · rw [hi, Option.bind_some] at hd
            rcases hnew u i hi with h | ⟨_, _, _, h4⟩
            · rw [h0] at h; exact absurd h (by simp)
            · rw [h4 hu] at hd; exact absurd hd (by simp)
      · exact v.dimless u hu
    · intro u i q hi hq
      rcases h0 : w.info u with _ | j
      · rcases hnew u i hi with h | ⟨_, _, h3, _⟩
        · rw [h0] at h; exact absurd h (by simp)
        · rw [hsame q (h3 q hq).2]
          unfold newVal
          rw [h0, hi]; simp only [Option.bind_some, hq]
      · have hij : i = j := by
          have := hinfo u j h0
          rw [hi] at this; simpa using this
        subst hij
        rw [hsame q (hw.defOK u i q h0 hq).2]
        unfold newVal
        rw [h0]
        exact v.defined u i q h0 hq
    · intro u hu hd
      show newVal w w' b v.val u = b u
      unfold newVal
      rcases h0 : w.info u with _ | j
      · simp only
        rcases hdq : (w'.info u).bind UnitInfo.definition with _ | q
        · simp [hd]
        · exfalso
          rcases hi : w'.info u with _ | i
          · rw [hi] at hdq; simp at hdq
          · rw [hi, Option.bind_some] at hdq
            rcases hnew u i hi with h | ⟨_, h2, _, _⟩
            · rw [h0] at h; exact absurd h (by simp)
            · rw [convRef_of_info hi, h2, hdq] at hu; simp at hu
      · simp only
        refine hv u ?_ hd
        rw [← hconv u (known_of_info h0)]; exact hu

theorem FlWF.init (h : Hasher) (cost : UKey → ℝ) : FlWF (World.init h : World (Fl A)) (fun _ => 1) cost := by
  have hi : ∀ u, (World.init h : World (Fl A)).info u = none := fun _ => rfl
  have hc : ∀ u, (World.init h : World (Fl A)).convRef u = none := fun _ => rfl
  refine ⟨fun _ => one_pos, by simp [World.init, Dict.Nodup], ?_, ?_, ?_, fun _ _ => rfl, ?_, ?_,
    fun u _ => hc u, ?_, ?_, ?_⟩
  · intro u i h; rw [hi] at h; exact absurd h (by simp)
  · intro u i q h; rw [hi] at h; exact absurd h (by simp)
  · intro u r h; rw [hc] at h; exact absurd h (by simp)
  · intro u r v h; rw [hc] at h; exact absurd h (by simp)
  · intro u r h; rw [hc] at h; exact absurd h (by simp)
  · intro c d h; simp [World.init] at h
  · intro l u h; simp [World.init] at h
  · intro b hb
    refine ⟨⟨fun u => if u.cls = .dimensionless then 1 else b u, ?_, ?_, ?_⟩, ?_⟩
    · intro u; show 0 < ite _ _ _; split
      · exact one_pos
      · exact hb u
    · intro u hu; exact if_pos hu
    · intro u i q h; rw [hi] at h; exact absurd h (by simp)
    · intro u _ hd; exact if_neg hd

/-- Old units keep their attributes, new ones have the attributes of the constructor's arguments. -/
theorem newUnit_info (w : World (Fl A)) (a : NewUnit (Fl A)) :
    (∀ u i, w.info u = some i → (w.newUnit a).2.info u = some i) ∧
    (∀ u i, (w.newUnit a).2.info u = some i → w.info u = some i ∨ (u = ⟨a.cls, a.name⟩ ∧
      w.info u = none ∧ i.definition = a.definition.toDef ∧
      i.convRef = a.definition.toDef.map w.reference)) := by
  obtain ⟨_, h2, -⟩ := newUnit_spec w a
  constructor
  · intro u i hi
    rcases h2 with h2 | ⟨hn, n, h2⟩
    · rw [World.info, h2]; exact hi
    · rw [info_append h2 hn]
      split
      · rename_i e; subst e; rw [hn] at hi; exact absurd hi (by simp)
      · exact hi
  · intro u i hi
    rcases h2 with h2 | ⟨hn, n, h2⟩
    · left; rw [World.info, h2] at hi; exact hi
    · rw [info_append h2 hn] at hi
      split at hi
      · rename_i e
        right
        simp only [Option.some.injEq] at hi
        subst hi; subst e
        exact ⟨rfl, hn, rfl, rfl⟩
      · exact Or.inl hi

theorem FlWF.newUnit {w : World (Fl A)} {κ cost : UKey → ℝ} (hw : FlWF w κ cost) (a : NewUnit (Fl A))
    (hv : (Op.newUnit a).Valid w) (hbud : ErrorBudget (w.newUnit a).2 cost) :
    FlWF (w.newUnit a).2 (newκ w (w.newUnit a).2 κ) cost := by
  obtain ⟨_, h2, h3, _, h5, _⟩ := newUnit_spec w a
  obtain ⟨v1, v2⟩ := hv
  obtain ⟨i1, i2⟩ := newUnit_info w a
  have hkeys : ∀ u, u ∈ w.units.map Prod.fst → u ∈ (w.newUnit a).2.units.map Prod.fst := by
    intro u hu
    obtain ⟨i, hi⟩ := info_known hu
    exact known_of_info (i1 u i hi)
  refine FlWF.extend hw ⟨a.cls, a.name⟩ hbud i1 ?_ ?_ ?_ ?_
  · intro u i hi
    rcases i2 u i hi with h | ⟨rfl, -, e1, e2⟩
    · exact .inl h
    · exact .inr ⟨rfl, by rw [e1, e2], fun q hq => v1 q (by rw [← e1]; exact hq), fun hc => by rw [e1]; exact v2 hc⟩
  · rcases h2 with h2 | ⟨hn, n, h2⟩
    · rw [h2]; exact hw.nodup
    · rw [h2, ← set_fresh hn]; exact nodup_set hw.nodup _ _
  · intro c d hd
    rcases h5 c d hd with h | ⟨_, _, rfl, hk⟩
    · exact (hw.defaultsOK c d h).mono hkeys
    · exact unitDim_ok hk
  · intro l u hu
    rcases h3 l u hu with h | ⟨rfl, _, hk⟩
    · exact hkeys _ (hw.registered l u h)
    · exact hk

theorem FlWF.setDefault {w : World (Fl A)} {κ cost : UKey → ℝ} (hw : FlWF w κ cost) (c : UClass)
    (a : Option (DefaultArg (Fl A))) (hv : (Op.setDefault c a).Valid w)
    (hbud : ErrorBudget (w.setDefault c a).2 cost) : ∃ κ', FlWF (w.setDefault c a).2 κ' cost := by
  rcases setDefault_spec w c a with h | ⟨x, cur, cf, ha, _, _, _, _, h⟩
  · rw [h]; exact ⟨κ, hw⟩
  · rw [h] at hbud ⊢
    refine ⟨_, FlWF.extend hw ⟨.length, ""⟩ hbud (fun u i hi => hi) (fun u i hi => Or.inl hi) hw.nodup ?_ ?_⟩
    · intro c' d hd
      simp only at hd
      split at hd
      · simp only [Option.some.injEq] at hd; subst hd
        exact ⟨(hv x ha).canon, (hv x ha).known, (hv x ha).notDimless⟩
      · have := hw.defaultsOK c' d hd
        exact ⟨this.canon, this.known, this.notDimless⟩
    · exact hw.registered

theorem setDefault_info (w : World (Fl A)) (c : UClass) (a : Option (DefaultArg (Fl A))) (u : UKey) :
    (w.setDefault c a).2.info u = w.info u := by
  rcases setDefault_spec w c a with h | ⟨x, cur, cf, ha, _, _, _, _, h⟩ <;> rw [h]
  rfl

/-- Every world reached with rounded arithmetic satisfies the invariant, for every budget. -/
theorem Reachable.flWF {h : Hasher} {w : World (Fl A)} (hr : Reachable h w) (cost : UKey → ℝ)
    (hb : ErrorBudget w cost) : ∃ κ, FlWF w κ cost := by
  induction hr with
  | init => exact ⟨_, FlWF.init h cost⟩
  | @step w op hr' hv ih =>
    cases op with
    | newUnit a =>
      obtain ⟨κ, hκ⟩ := ih (hb.restrict (newUnit_info w a).1)
      exact ⟨_, hκ.newUnit a hv hb⟩
    | setDefault c a =>
      obtain ⟨κ, hκ⟩ := ih (hb.restrict (fun u i hi => (setDefault_info w c a u).trans hi))
      exact hκ.setDefault c a hv hb

/-- The cost of a new unit. -/
noncomputable def newCost (w w' : World (Fl A)) (cost : UKey → ℝ) (u : UKey) : ℝ :=
  match w.info u with
  | some _ => cost u
  | none =>
    match (w'.info u).bind UnitInfo.definition with
    | some q => 1 + dimCost cost q.dim
    | none => 0

theorem dimCost_congr {c c' : UKey → ℝ} {d : Dim} (h : ∀ kv ∈ d, c kv.1 = c' kv.1) :
    dimCost c d = dimCost c' d := by
  unfold dimCost
  rw [List.map_congr_left (fun kv hkv => by rw [h kv hkv])]

/-- Every reachable world has a budget. -/
theorem exists_budget {h : Hasher} {w : World (Fl A)} (hr : Reachable h w) :
    ∃ cost, ErrorBudget w cost := by
  induction hr with
  | init =>
    refine ⟨fun _ => 0, fun _ => le_rfl, fun u i q hi => ?_⟩
    have : (World.init h : World (Fl A)).info u = none := rfl
    rw [this] at hi; exact absurd hi (by simp)
  | @step w op hr' hv ih =>
    obtain ⟨cost, hc⟩ := ih
    cases op with
    | setDefault c a =>
      exact ⟨cost, hc.nonneg, fun u i q hi hq => hc.defined u i q ((setDefault_info w c a u).symm.trans hi) hq⟩
    | newUnit a =>
      obtain ⟨κ, hκ⟩ := hr'.flWF cost hc
      obtain ⟨i1, i2⟩ := newUnit_info w a
      have hsame : ∀ q : SQ (Fl A), DimOK w q.dim →
          dimCost (newCost w (w.newUnit a).2 cost) q.dim = dimCost cost q.dim := by
        intro q hq
        refine dimCost_congr fun kv hkv => ?_
        obtain ⟨i, hi⟩ := info_known (hq.known kv hkv)
        unfold newCost; rw [hi]
      refine ⟨newCost w (w.newUnit a).2 cost, ?_, ?_⟩
      · intro u
        unfold newCost
        rcases w.info u with _ | j
        · simp only
          rcases ((w.newUnit a).2.info u).bind UnitInfo.definition with _ | q
          · exact le_rfl
          · have := dimCost_nonneg hc.nonneg q.dim
            simp only; linarith
        · exact hc.nonneg u
      · intro u i q hi hq
        rcases i2 u i hi with h | ⟨-, h0, e, -⟩
        · rw [hsame q (hκ.defOK u i q h hq).2]
          have := hc.defined u i q h hq
          unfold newCost
          rw [h]; exact this
        · rw [hsame q (hv.1 q (by rw [← e]; exact hq)).2]
          unfold newCost
          change (w.newUnit a).2.info u = some i at hi
          rw [h0, hi]
          simp only [Option.bind_some, hq, le_refl]

end PQ
