import Verif.Spec.PrintOrder
import Verif.Lemmas.Orders
import Verif.Props.History
import Verif.Props.Typeset
import Verif.Props.Simplified

/-!
# C135: the order of units in print; C08: the number of base dimensions
-/

namespace PQ

open Dict World

variable {K : Type _} [Field K] [LinearOrder K] [IsStrictOrderedRing K] [RPow K] [LawfulRPow K]
variable {h : Hasher} {w : World K}

omit [LinearOrder K] [RPow K] [IsStrictOrderedRing K] [LawfulRPow K] in
theorem rank_primary (c d : UClass) (hlt : c.primaryOrder < d.primaryOrder) :
    classesInPrintOrder.idxOf c < classesInPrintOrder.idxOf d := by
  cases c <;> cases d <;> first | decide | (exact absurd hlt (by decide))

omit [Field K] [LinearOrder K] [RPow K] [IsStrictOrderedRing K] [LawfulRPow K] in
theorem info_iff_known (w : World K) (u : UKey) : u ∈ w.units.map Prod.fst ↔ ∃ i, w.info u = some i := by
  constructor
  · intro hu
    rcases hi : w.info u with _ | i
    · exact absurd hu (by
        have := hi
        unfold World.info at this
        rw [Dict.get?_eq_none_iff] at this
        exact this)
    · exact ⟨i, rfl⟩
  · rintro ⟨i, hi⟩; exact known_of_info hi

/-- A unit that appears is the one being created, and its number is larger than those of its class. -/
theorem appears (hn : Numbered w) (op : Op K) {u : UKey} {i : UnitInfo K} (h0 : w.info u = none)
    (hi : (op.run w).2.info u = some i) :
    (∀ v j, w.info v = some j → v.cls = u.cls → j.order.2 < i.order.2) ∧
    (∀ v j, w.info v = none → (op.run w).2.info v = some j → v = u) := by
  cases op with
  | newUnit a =>
    simp only [Op.run] at hi ⊢
    obtain ⟨-, h2 | h2⟩ := newUnit_counters w a
    · have hinfo : ∀ v, (w.newUnit a).2.info v = (w.construct a).info v := fun v => by
        unfold World.info; rw [h2]
      rw [hinfo] at hi
      rcases hk : w.info ⟨a.cls, a.name⟩ with _ | i0
      · have hc : ∀ v, (w.construct a).info v = if v = ⟨a.cls, a.name⟩ then
            some { definition := a.definition.toDef, convRef := a.definition.toDef.map w.reference,
                   symbol := a.symbol, uSymbol := a.uSymbol, aliases := a.aliases,
                   order := (a.cls.primaryOrder, if decide (a.cls = .dimensionless) then
                     w.counter a.cls + 1 else w.counter a.cls) } else w.info v := by
          intro v
          simp only [World.info, World.construct] at hk ⊢
          simp only [hk, get?_set]
          by_cases e : (⟨a.cls, a.name⟩ : UKey) = v
          · rw [if_pos e, if_pos e.symm]
          · rw [if_neg e, if_neg (fun h => e h.symm)]
        have hu : u = ⟨a.cls, a.name⟩ := by
          by_contra hne
          rw [hc, if_neg hne, h0] at hi; cases hi
        subst hu
        rw [hc, if_pos rfl, Option.some.injEq] at hi
        subst hi
        refine ⟨fun v j hv hcl => ?_, fun v j hv hj => ?_⟩
        · obtain ⟨n, m, h1, h3, h4⟩ := hn.bound v j hv
          rw [hcl] at h3
          have : w.counter a.cls = m := by simp only [World.counter, h3]
          rw [h1]
          simp only
          split <;> omega
        · by_contra hne
          rw [hinfo, hc, if_neg hne, hv] at hj; cases hj
      · have : (w.construct a).info u = w.info u := by
          simp only [World.info, World.construct] at hk ⊢
          simp only [hk]
        rw [this, h0] at hi; cases hi
    · have : (w.newUnit a).2.info u = w.info u := by unfold World.info; rw [h2]
      rw [this, h0] at hi; cases hi
  | setDefault c a =>
    simp only [Op.run] at hi
    rcases setDefault_spec w c a with e | ⟨x, cur, cf, -, -, -, -, -, e⟩
    · rw [e, h0] at hi; cases hi
    · rw [e] at hi
      have hi : w.info u = some i := hi
      rw [h0] at hi; cases hi

/-- Two units of one class: the one with the smaller number is the older one. -/
theorem older_of_lt (hw : Reachable h w) : ∀ u v i j, w.info u = some i → w.info v = some j → u.cls = v.cls →
    i.order.2 < j.order.2 → OlderUnit h w u v := by
  induction hw with
  | init => intro u v i j hi; simp [World.info, World.init] at hi
  | step op hr hv ih =>
    rename_i w0
    intro u v i j hi hj hc hlt
    have hn := hr.numbered
    obtain ⟨-, k2, -⟩ := run_keeps w0 op
    rcases hu0 : w0.info u with _ | i0
    · obtain ⟨p1, p2⟩ := appears hn op hu0 hi
      rcases hv0 : w0.info v with _ | j0
      · have := p2 v j hv0 hj
        subst this
        rw [hi] at hj; cases hj
        exact absurd hlt (lt_irrefl _)
      · have e2 := k2 _ _ hv0
        rw [hj] at e2; cases e2
        exact absurd (p1 v j hv0 hc.symm) (by omega)
    · rcases hv0 : w0.info v with _ | j0
      · exact ⟨w0, hr, .step op .refl hv, known_of_info hu0, fun hk => by
          obtain ⟨j, hj⟩ := (info_iff_known w0 v).mp hk; rw [hv0] at hj; cases hj⟩
      · have e1 := k2 _ _ hu0
        have e2 := k2 _ _ hv0
        rw [hi] at e1; rw [hj] at e2; cases e1; cases e2
        obtain ⟨w1, a1, a2, a3, a4⟩ := ih u v i j hu0 hv0 hc hlt
        exact ⟨w1, a1, .step op a2 hv, a3, a4⟩

/-- Conversely, an older unit has the smaller number. -/
theorem lt_of_older {w0 : World K} (hr : Reachable h w0) (he : Evolves w0 w) :
    ∀ u v i j, u ∈ w0.units.map Prod.fst → v ∉ w0.units.map Prod.fst → w.info u = some i → w.info v = some j →
      u.cls = v.cls → i.order.2 < j.order.2 := by
  induction he with
  | refl =>
    intro u v i j _ hv _ hj
    exact absurd (known_of_info hj) hv
  | step op he hval ih =>
    rename_i w1
    intro u v i j hu hv hi hj hc
    have hn := (hr.evolves he).numbered
    obtain ⟨-, k2, -⟩ := run_keeps w1 op
    obtain ⟨i0, hi0⟩ := (info_iff_known w0 u).mp hu
    have hi1 := (evolves_keeps he).2.1 _ _ hi0
    have e1 := k2 _ _ hi1
    rw [hi] at e1; cases e1
    rcases hv1 : w1.info v with _ | j1
    · exact (appears hn op hv1 hj).1 u i hi1 hc
    · have e2 := k2 _ _ hv1
      rw [hj] at e2; cases e2
      exact ih u v i j hu hv hi1 hv1 hc

omit [Field K] [LinearOrder K] [RPow K] [IsStrictOrderedRing K] [LawfulRPow K] in
theorem rank_inj {c d : UClass} (e : classesInPrintOrder.idxOf c = classesInPrintOrder.idxOf d) : c = d := by
  cases c <;> cases d <;> first | rfl | (exact absurd e (by decide))

/-- Of two different units exactly one is printed before the other, whatever dimensionality they occur in. -/
theorem C135_order (hw : Reachable h w) (u v : UKey) (hu : u ∈ w.units.map Prod.fst)
    (hv : v ∈ w.units.map Prod.fst) (hne : u ≠ v) : PrintedBefore h w u v ↔ ¬ PrintedBefore h w v u := by
  obtain ⟨i, hi⟩ := (info_iff_known w u).mp hu
  obtain ⟨j, hj⟩ := (info_iff_known w v).mp hv
  by_cases hc : u.cls = v.cls
  · have key : ∀ u v i j, w.info u = some i → w.info v = some j → u.cls = v.cls →
        (PrintedBefore h w u v ↔ i.order.2 < j.order.2) := by
      intro u v i j hi hj hc
      unfold PrintedBefore
      rw [hc]
      simp only [lt_irrefl, false_or, true_and]
      exact ⟨fun ⟨w0, a1, a2, a3, a4⟩ => lt_of_older a1 a2 u v i j a3 a4 hi hj hc,
        fun hlt => older_of_lt hw u v i j hi hj hc hlt⟩
    rw [key u v i j hi hj hc, key v u j i hj hi hc.symm, not_lt]
    obtain ⟨n, m, h1, -, -⟩ := hw.numbered.bound _ _ hi
    obtain ⟨n', m', h1', -, -⟩ := hw.numbered.bound _ _ hj
    have hord : i.order ≠ j.order := fun e => hne (hw.numbered.inj _ _ _ _ hi hj e)
    rw [h1, h1', hc] at hord
    simp only [ne_eq, Prod.mk.injEq, true_and] at hord
    rw [h1, h1']
    simp only
    omega
  · have hr : classesInPrintOrder.idxOf u.cls ≠ classesInPrintOrder.idxOf v.cls := fun e => hc (rank_inj e)
    unfold PrintedBefore
    constructor
    · rintro (hlt | ⟨e, -⟩) (hlt' | ⟨e', -⟩)
      · omega
      · exact hc e'.symm
      · exact hc e
      · exact hc e
    · intro hh
      left
      have : ¬ classesInPrintOrder.idxOf v.cls < classesInPrintOrder.idxOf u.cls := fun hl => hh (.inl hl)
      omega

/-- The four printed forms of a dimensionality list its units class by class in the documented order and, within
a class, the older first; both above and below the line. -/
theorem C135_forms {fr : ℚ → List Char} {uni : Bool} {d : PDim} (hw : Reachable h w) (hd : (d.map Prod.fst).Nodup)
    (hk : ∀ kv ∈ d, kv.1 ∈ w.units.map Prod.fst) (ht : Typesettable (symbolOf w uni) fr d) :
    ∃ items : List (UKey × PyNum), items.Perm d ∧ items.Pairwise (fun a b => PrintedBefore h w a.1 b.1) ∧
      let A := above (symbolOf w uni) items
      let B := below (symbolOf w uni) items
      formatUnits w fr uni d = asciiStyle.typeset A B ∧
      formatUnitsUnicode w fr uni d = unicodeStyle.typeset A B ∧
      formatUnitsHtml w fr uni d = htmlStyle.typeset A B ∧
      formatUnitsLatex w fr uni d = "$\\mathrm{".toList ++ latexStyle.typeset A B ++ "}$".toList := by
  obtain ⟨items, hp, hs, hf⟩ := C57_forms ht
  refine ⟨items, hp, ?_, hf⟩
  have hnd : (items.map Prod.fst).Nodup := (hp.map _).nodup_iff.mpr hd
  have hne : items.Pairwise (fun a b => a.1 ≠ b.1) := List.pairwise_map.mp hnd
  refine (List.Pairwise.and hs hne).imp_of_mem ?_
  rintro a b ha hb ⟨hle, hab⟩
  obtain ⟨i, hi⟩ := (info_iff_known w a.1).mp (hk a (hp.mem_iff.mp ha))
  obtain ⟨j, hj⟩ := (info_iff_known w b.1).mp (hk b (hp.mem_iff.mp hb))
  obtain ⟨n, m, h1, -, -⟩ := hw.numbered.bound _ _ hi
  obtain ⟨n', m', h1', -, -⟩ := hw.numbered.bound _ _ hj
  have oa : w.order a.1 = i.order := by unfold World.order; rw [hi]
  have ob : w.order b.1 = j.order := by unfold World.order; rw [hj]
  have hord : i.order ≠ j.order := fun e => hab (hw.numbered.inj _ _ _ _ hi hj e)
  rw [oa, ob, h1, h1'] at hle
  rw [h1, h1'] at hord
  simp only [orderLE] at hle
  by_cases hc : a.1.cls = b.1.cls
  · refine .inr ⟨hc, older_of_lt hw _ _ _ _ hi hj hc ?_⟩
    rw [h1, h1']
    rw [hc] at hord hle
    simp only [ne_eq, Prod.mk.injEq, true_and] at hord
    simp at hle
    simp only
    omega
  · refine .inl (rank_primary _ _ ?_)
    have : a.1.cls.primaryOrder ≠ b.1.cls.primaryOrder := fun e => hc (primaryOrder_inj e)
    simp at hle
    omega

/-- `km**2*m/(s**3*Hz)`: in the example world the metre is older than the kilometre and lengths come before
times, so the statement fixes the printed text. -/
example : PrintedBefore exH exWorld uM uKm ∧ PrintedBefore exH exWorld uKm uS ∧ PrintedBefore exH exWorld uS uHz ∧
    ∃ items : List (UKey × PyNum), items.Perm [(uHz, .int (-1)), (uKm, .int 2), (uM, .int 1), (uS, .int (-3))] ∧
      items.Pairwise (fun a b => PrintedBefore exH exWorld a.1 b.1) ∧
      formatUnits exWorld exFr false [(uHz, .int (-1)), (uKm, .int 2), (uM, .int 1), (uS, .int (-3))] =
        asciiStyle.typeset (above (symbolOf exWorld false) items) (below (symbolOf exWorld false) items) := by
  have hall : ∀ u ∈ [uM, uKm, uS, uHz], u ∈ exWorld.units.map Prod.fst := by rw [exKeys]; simp
  refine ⟨?_, .inl (by decide), .inl (by decide), ?_⟩
  · refine .inr ⟨rfl, ?_⟩
    obtain ⟨i, hi⟩ := (info_iff_known exWorld uM).mp (hall uM (by simp))
    obtain ⟨j, hj⟩ := (info_iff_known exWorld uKm).mp (hall uKm (by simp))
    refine older_of_lt exWorld_reachable uM uKm i j hi hj rfl ?_
    have h1 : exWorld.order uM = (2, 0) := by decide +kernel
    have h2 : exWorld.order uKm = (2, 1) := by decide +kernel
    have oa : exWorld.order uM = i.order := by unfold World.order; rw [hi]
    have ob : exWorld.order uKm = j.order := by unfold World.order; rw [hj]
    rw [← oa, ← ob, h1, h2]
    decide
  · obtain ⟨items, h1, h2, h3, -⟩ := C135_forms exWorld_reachable (by decide) (by
      intro kv hkv
      refine hall _ ?_
      simp only [List.mem_cons, List.not_mem_nil, or_false] at hkv
      rcases hkv with rfl | rfl | rfl | rfl <;> simp) exTypesettable
    exact ⟨items, h1, h2, h3⟩

/-! ## C08: the number of base dimensions -/

/-- C08: the number by which dimensionalities are ordered is the sum of the absolute exponents of the expression
of the dimensionality in default units. -/
theorem C08_count (hw : Reachable h w) (hds : DefaultsSafe w) (fuel : Nat) (a : Dim) (ha : DimOK w a) (n : ℚ)
    (hn : Dim.ndims w fuel a = .ok n) : ∃ b : Dim, DimOK w b ∧ (∀ u ∈ b.map Prod.fst, IsDefaultUnit w u) ∧
      Compatible w a b ∧ n = (b.map (fun kv => |kv.2|)).sum := by
  unfold Dim.ndims Dim.simplified at hn
  cases a with
  | nil =>
    refine ⟨[], ha, by simp, ⟨1, fun v => (one_mul _).symm⟩, ?_⟩
    have : Dim.absSum [] = n := by simpa [Except.map] using hn
    rw [← this]; rfl
  | cons kv d =>
    rw [if_neg (by simp)] at hn
    rcases hl : simplifiedLoop w fuel ⟨1, []⟩ (kv :: d) with e | rq
    · rw [hl] at hn; simp [Except.map] at hn
    · rw [hl] at hn
      obtain ⟨h1, h2, h3, h4, -⟩ := simplifiedLoop_spec hw.wf hds ha hl
      refine ⟨rq.dim, h2, h4, ⟨rq.mag, fun v => (h3 v).symm⟩, ?_⟩
      have : Dim.absSum rq.dim = n := by simpa [Except.map] using hn
      rw [← this]; rfl

/-- In the example world the kilometre counts one base dimension. -/
example : ∃ b : Dim, (∀ u ∈ b.map Prod.fst, IsDefaultUnit exWorld u) ∧ Compatible exWorld dKm b ∧
    (1 : ℚ) = (b.map (fun kv => |kv.2|)).sum := by
  obtain ⟨b, -, h2, h3, h4⟩ := C08_count exWorld_reachable ex_defaultsSafe 3 dKm (ex_dimOK _ (by simp)) 1 exNdims_km
  exact ⟨b, h2, h3, h4⟩

end PQ
