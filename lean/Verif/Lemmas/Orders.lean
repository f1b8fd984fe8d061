import Verif.Lemmas.Reach
import Verif.Model.Markup

/-! # Units are numbered injectively -/

namespace PQ

open Dict World

variable {K : Type _}

/-- Orders are issued by increasing counters. -/
structure Numbered (w : World K) : Prop where
  bound : ∀ u i, w.info u = some i → ∃ n m, i.order = (u.cls.primaryOrder, n) ∧
    w.counters u.cls = some m ∧ n < m
  inj : ∀ u v i j, w.info u = some i → w.info v = some j → i.order = j.order → u = v

theorem primaryOrder_inj {c d : UClass} (h : c.primaryOrder = d.primaryOrder) : c = d := by
  cases c <;> cases d <;> first | rfl | (exact absurd h (by decide))

section
variable [One K] [Mul K] [RPow K] [Div K] [DecidableEq K]

theorem newUnit_counters (w : World K) (a : NewUnit K) :
    (w.newUnit a).2.counters = (w.construct a).counters ∧
    ((w.newUnit a).2.units = (w.construct a).units ∨ (w.newUnit a).2.units = w.units) := by
  obtain ⟨reg, e1, -, -⟩ := registryAll_spec (w.construct a) ⟨a.cls, a.name⟩
    (labelsOf a.cls a.name a.symbol a.aliases)
  unfold World.newUnit
  rcases hr : (w.construct a).registryAll ⟨a.cls, a.name⟩
    (labelsOf a.cls a.name a.symbol a.aliases) with ⟨_ | e, w2⟩ <;>
    (rw [hr] at e1; simp only at e1; subst e1; simp only [hr])
  · by_cases hc : (a.cls.irreducible && ((w.construct a).defaults a.cls).isNone) = true <;>
      simp [hc]
  · by_cases hc : (reg.any fun kv => decide (kv.2 = (⟨a.cls, a.name⟩ : UKey))) = true
    · rw [if_pos hc]; exact ⟨rfl, Or.inl rfl⟩
    · rw [if_neg hc]; exact ⟨rfl, Or.inr rfl⟩

omit [Div K] [DecidableEq K] in
theorem Numbered.mono {w w' : World K} (h : Numbered w)
    (hu : w'.units = w.units)
    (hc : ∀ c m, w.counters c = some m → ∃ m', w'.counters c = some m' ∧ m ≤ m') : Numbered w' := by
  have hi : ∀ u, w'.info u = w.info u := fun u => by simp [World.info, hu]
  refine ⟨fun u i hx => ?_, fun u v i j hx hy => h.inj u v i j (by rw [← hi, hx]) (by rw [← hi, hy])⟩
  rw [hi] at hx
  obtain ⟨n, m, h1, h2, h3⟩ := h.bound u i hx
  obtain ⟨m', h4, h5⟩ := hc _ _ h2
  exact ⟨n, m', h1, h4, by omega⟩

omit [Div K] [DecidableEq K] in
theorem construct_counters (w : World K) (a : NewUnit K) (c : UClass) (m : Nat)
    (h : w.counters c = some m) : ∃ m', (w.construct a).counters c = some m' ∧ m ≤ m' := by
  simp only [World.construct]
  split
  · rename_i e
    subst e
    refine ⟨_, rfl, ?_⟩
    simp only [World.counter, h]
    split <;> omega
  · exact ⟨m, h, le_refl _⟩

omit [Div K] [DecidableEq K] in
theorem Numbered.construct {w : World K} (h : Numbered w) (a : NewUnit K) :
    Numbered (w.construct a) := by
  rcases hk : w.info ⟨a.cls, a.name⟩ with _ | i0
  · have hinfo : ∀ u, (w.construct a).info u = if u = ⟨a.cls, a.name⟩ then
        some { definition := a.definition.toDef, convRef := a.definition.toDef.map w.reference,
               symbol := a.symbol, uSymbol := a.uSymbol, aliases := a.aliases,
               order := (a.cls.primaryOrder, if decide (a.cls = .dimensionless) then
                 w.counter a.cls + 1 else w.counter a.cls) } else w.info u := by
      intro u
      simp only [World.info, World.construct] at hk ⊢
      simp only [hk, get?_set]
      by_cases e : (⟨a.cls, a.name⟩ : UKey) = u
      · rw [if_pos e, if_pos e.symm]
      · rw [if_neg e, if_neg (fun h => e h.symm)]
    have key : ∀ v j, w.info v = some j → v.cls = a.cls → ∃ n, j.order = (a.cls.primaryOrder, n) ∧
        n < w.counter a.cls := by
      intro v j hv hc
      obtain ⟨n, m, h1, h2, h3⟩ := h.bound v j hv
      rw [hc] at h1 h2
      exact ⟨n, h1, by simp only [World.counter, h2]; exact h3⟩
    refine ⟨?_, ?_⟩
    · intro u i hi
      rw [hinfo] at hi
      split at hi
      · rename_i e
        subst e
        simp only [Option.some.injEq] at hi
        subst hi
        refine ⟨_, if decide (a.cls = .dimensionless) then w.counter a.cls + 2 else
          w.counter a.cls + 1, rfl, by simp only [World.construct, if_true], ?_⟩
        split <;> omega
      · obtain ⟨n, m, h1, h2, h3⟩ := h.bound u i hi
        obtain ⟨m', h4, h5⟩ := construct_counters w a _ _ h2
        exact ⟨n, m', h1, h4, by omega⟩
    · have clash : ∀ v j, w.info v = some j → (a.cls.primaryOrder,
          if decide (a.cls = .dimensionless) then w.counter a.cls + 1 else w.counter a.cls) = j.order →
          False := by
        intro v j hv ho
        obtain ⟨n, m, h1, -, -⟩ := h.bound v j hv
        have hc : v.cls = a.cls := by
          rw [h1] at ho; exact (primaryOrder_inj (Prod.ext_iff.1 ho).1).symm
        obtain ⟨n', h1', h2'⟩ := key v j hv hc
        rw [h1'] at ho
        have ho := (Prod.ext_iff.1 ho).2
        simp only at ho
        split at ho <;> omega
      intro u v i j hi hj ho
      rw [hinfo] at hi hj
      split at hi <;> split at hj
      · rename_i e1 e2; rw [e1, e2]
      · simp only [Option.some.injEq] at hi; subst hi
        exact absurd (clash v j hj ho) id
      · simp only [Option.some.injEq] at hj; subst hj
        exact absurd (clash u i hi ho.symm) id
      · exact h.inj u v i j hi hj ho
  · refine h.mono ?_ (fun c m hm => construct_counters w a c m hm)
    simp only [World.construct, hk]

theorem Numbered.newUnit {w : World K} (h : Numbered w) (a : NewUnit K) :
    Numbered (w.newUnit a).2 := by
  obtain ⟨h1, h2 | h2⟩ := newUnit_counters w a
  · refine (h.construct a).mono h2 (fun c m hm => ⟨m, by rw [h1]; exact hm, le_refl _⟩)
  · refine h.mono h2 (fun c m hm => ?_)
    rw [h1]; exact construct_counters w a c m hm

end

theorem Reachable.numbered [Field K] [LinearOrder K] [RPow K] {h : Hasher} {w : World K}
    (hr : Reachable h w) : Numbered w := by
  induction hr with
  | init =>
    exact ⟨fun u i hi => by simp [World.info, World.init] at hi,
      fun u v i j hi => by simp [World.info, World.init] at hi⟩
  | step op _ hv ih =>
    cases op with
    | newUnit a => exact ih.newUnit a
    | setDefault c a =>
      rcases setDefault_spec _ c a with h' | ⟨x, cur, cf, _, _, _, _, _, h'⟩
      · simp only [Op.run]; rw [h']; exact ih
      · simp only [Op.run]; rw [h']; exact ih.mono rfl (fun c m hm => ⟨m, hm, le_refl _⟩)

/-- Two created units with the same `format_order` are the same unit. -/
theorem order_inj [Field K] [LinearOrder K] [RPow K] {h : Hasher} {w : World K}
    (hr : Reachable h w) {u v : UKey} (hu : u ∈ w.units.map Prod.fst)
    (hv : v ∈ w.units.map Prod.fst) (ho : w.order u = w.order v) : u = v := by
  obtain ⟨i, hi⟩ := info_known hu
  obtain ⟨j, hj⟩ := info_known hv
  simp only [World.order, hi, hj] at ho
  exact hr.numbered.inj u v i j hi hj ho

/-! ## Sorting by an injective key forgets the insertion order -/

theorem orderLE_trans (a b c : Nat × Nat) (h1 : orderLE a b = true) (h2 : orderLE b c = true) :
    orderLE a c = true := by
  simp only [orderLE, Bool.or_eq_true, Bool.and_eq_true, decide_eq_true_eq, beq_iff_eq] at *
  omega

theorem orderLE_total (a b : Nat × Nat) : (orderLE a b || orderLE b a) = true := by
  simp only [orderLE, Bool.or_eq_true, Bool.and_eq_true, decide_eq_true_eq, beq_iff_eq]
  omega

theorem orderLE_antisymm (a b : Nat × Nat) (h1 : orderLE a b = true) (h2 : orderLE b a = true) :
    a = b := by
  simp only [orderLE, Bool.or_eq_true, Bool.and_eq_true, decide_eq_true_eq, beq_iff_eq] at *
  exact Prod.ext (by omega) (by omega)

theorem sorted_eq_of_perm (w : World K) {d e : PDim} (hp : d.Perm e) (hn : Dict.Nodup d)
    (hinj : ∀ kv ∈ d, ∀ kv' ∈ d, w.order kv.1 = w.order kv'.1 → kv.1 = kv'.1) :
    PDim.sorted w d = PDim.sorted w e := by
  have key : ∀ x ∈ d, ∀ y ∈ d, x.1 = y.1 → x = y := by
    intro x hx y hy hk
    have h1 := get?_of_mem hn hx
    have h2 := get?_of_mem hn hy
    rw [hk, h2] at h1
    exact Prod.ext hk (Option.some.inj h1).symm
  have P1 : (PDim.sorted w d).Perm d := List.perm_insertionSort _ _
  have P2 : (PDim.sorted w e).Perm e := List.perm_insertionSort _ _
  have S : ∀ x : PDim, (PDim.sorted w x).Pairwise
      (fun a b => orderLE (w.order a.1) (w.order b.1) = true) := fun x =>
    haveI : IsTrans (UKey × PyNum) (fun a b => orderLE (w.order a.1) (w.order b.1) = true) :=
      ⟨fun _ _ _ => orderLE_trans _ _ _⟩
    haveI : Std.Total (α := UKey × PyNum) (fun a b => orderLE (w.order a.1) (w.order b.1) = true) :=
      ⟨fun a b => by simpa using orderLE_total (w.order a.1) (w.order b.1)⟩
    List.pairwise_insertionSort _ x
  refine List.Perm.eq_of_pairwise (le := fun a b => orderLE (w.order a.1) (w.order b.1) = true)
    ?_ (S d) (S e)
    (P1.trans (hp.trans P2.symm))
  intro a b ha hb h1 h2
  have ha := P1.mem_iff.1 ha
  have hb := hp.mem_iff.2 (P2.mem_iff.1 hb)
  exact key _ ha _ hb (hinj _ ha _ hb (orderLE_antisymm _ _ h1 h2))

end PQ
