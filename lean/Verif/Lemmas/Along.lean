import Verif.Spec.Along
import Verif.Lemmas.Positions

/-! # Lemmas about reducing along axes -/

namespace PQ.NDArr

theorem normAxes_ok {nd : Nat} {as : List Int} {ns : List Nat} :
    normAxes nd as = .ok ns ↔ List.Forall₂ (NamesAxis nd) as ns ∧ ns.Nodup := by
  induction as generalizing ns with
  | nil =>
    rw [normAxes]
    constructor
    · rintro h; cases h; exact ⟨.nil, List.nodup_nil⟩
    · rintro ⟨h, -⟩; cases h; rfl
  | cons a as ih =>
    rw [normAxes]
    rcases hn : normAxis nd a with e | n
    · simp only [reduceCtorEq, false_iff]
      rintro ⟨h, -⟩
      cases h with
      | cons h1 h2 => rw [normAxis_ok.mpr h1] at hn; cases hn
    · rcases hs : normAxes nd as with e | ns'
      · simp only [reduceCtorEq, false_iff]
        rintro ⟨h, hd⟩
        cases h with
        | cons h1 h2 => rw [ih.mpr ⟨h2, (List.nodup_cons.mp hd).2⟩] at hs; cases hs
      · obtain ⟨f, nd'⟩ := ih.mp hs
        simp only
        constructor
        · intro h
          split at h
          · cases h
          · rename_i hm; cases h
            exact ⟨.cons (normAxis_ok.mp hn) f, List.nodup_cons.mpr ⟨hm, nd'⟩⟩
        · rintro ⟨h, hd⟩
          cases h with
          | cons h1 h2 =>
            rw [normAxis_ok.mpr h1] at hn; cases hn
            rw [ih.mpr ⟨h2, (List.nodup_cons.mp hd).2⟩] at hs; cases hs
            rw [if_neg (List.nodup_cons.mp hd).1]

/-- The flags of the axes `S`. -/
def flags (nd : Nat) (S : List Nat) : List Bool := (List.range nd).map (fun j => decide (j ∈ S))

theorem axisMask_ok {nd : Nat} {ax : Axis} {m : List Bool} :
    axisMask nd ax = .ok m ↔ ∃ S, NamesAxes nd ax S ∧ m = flags nd S := by
  cases ax with
  | all =>
    simp only [axisMask, Except.ok.injEq, NamesAxes, exists_eq_left, flags]
    have : (List.range nd).map (fun j => decide (j ∈ List.range nd)) = List.replicate nd true := by
      rw [List.eq_replicate_iff]
      refine ⟨by simp, fun b hb => ?_⟩
      obtain ⟨x, hx, rfl⟩ := List.mem_map.1 hb
      simpa using hx
    rw [this]; exact ⟨Eq.symm, Eq.symm⟩
  | one a =>
    simp only [axisMask, NamesAxes]
    rcases hn : normAxis nd a with e | n
    · simp only [reduceCtorEq, false_iff]
      rintro ⟨S, ⟨n, h, -⟩, -⟩
      rw [normAxis_ok.mpr h] at hn; cases hn
    · simp only [Except.ok.injEq]
      constructor
      · rintro rfl
        exact ⟨[n], ⟨n, normAxis_ok.mp hn, rfl⟩, by simp [flags]⟩
      · rintro ⟨S, ⟨n', h, rfl⟩, rfl⟩
        rw [normAxis_ok.mpr h] at hn; cases hn
        simp [flags]
  | many as =>
    simp only [axisMask, NamesAxes]
    rcases hn : normAxes nd as with e | ns
    · simp only [reduceCtorEq, false_iff]
      rintro ⟨S, h, -⟩
      rw [normAxes_ok.mpr h] at hn; cases hn
    · simp only [Except.ok.injEq]
      constructor
      · rintro rfl
        exact ⟨ns, normAxes_ok.mp hn, rfl⟩
      · rintro ⟨S, h, rfl⟩
        rw [normAxes_ok.mpr h] at hn; cases hn; rfl

theorem pick_false_flags (j : List Nat) (f : Nat → Bool) :
    pick false ((List.range j.length).map f) j =
      ((List.range j.length).filter (fun k => !f k)).map (fun k => j.getD k 0) := by
  induction j generalizing f with
  | nil => rfl
  | cons x j ih =>
    rw [List.length_cons, List.range_succ_eq_map, List.map_cons, List.map_map, List.filter_cons]
    have := ih (f ∘ Nat.succ)
    have tail : ((List.map Nat.succ (List.range j.length)).filter (fun k => !f k)).map
        (fun k => (x :: j).getD k 0) = pick false ((List.range j.length).map (f ∘ Nat.succ)) j := by
      rw [this, List.filter_map, List.map_map]
      rfl
    simp only [pick]
    rcases h0 : f 0 with _ | _
    · rw [if_pos rfl, if_pos (by simp), List.map_cons, tail]; rfl
    · rw [if_neg (by simp), if_neg (by simp), tail]

theorem pick_flags {nd : Nat} {j S : List Nat} (h : j.length = nd) :
    pick false (flags nd S) j = without S j := by
  subst h
  rw [flags, pick_false_flags, without]
  congr 1
  apply List.filter_congr
  intro k _
  simp

theorem flatMap_single {β : Type _} {n k : Nat} (hk : k < n) (L : List β) :
    (List.range n).flatMap (fun j => if j = k then L else []) = L := by
  induction n with
  | zero => omega
  | succ n ih =>
    rw [List.range_succ, List.flatMap_append, List.flatMap_singleton]
    by_cases h : n = k
    · subst h
      rw [if_pos rfl]
      have : (List.range n).flatMap (fun j => if j = n then L else []) = [] := by
        rw [List.flatMap_eq_nil_iff]
        intro j hj
        rw [if_neg (by have := List.mem_range.mp hj; omega)]
      rw [this, List.nil_append]
    · rw [if_neg h, List.append_nil, ih (by omega)]

/-- The places that lie over `i`, in row-major order. -/
theorem merge_places {m : List Bool} {s i : List Nat} (hl : m.length = s.length) (hi : InB (pick false m s) i) :
    (indices (pick true m s)).map (merge m i) = (indices s).filter (fun j => pick false m j = i) := by
  induction m generalizing s i with
  | nil =>
    cases s with
    | nil => cases hi; rfl
    | cons => simp at hl
  | cons b m ih =>
    cases s with
    | nil => simp at hl
    | cons n s =>
      have hl' : m.length = s.length := by simpa using hl
      cases b with
      | true =>
        simp only [pick, Bool.true_eq_false, if_false] at hi
        simp only [pick, if_true, indices, List.map_flatMap, List.filter_flatMap, List.map_map, List.filter_map]
        congr 1
        funext j
        rw [show (merge (true :: m) i ∘ fun r => j :: r) = (fun r => j :: r) ∘ merge m i from rfl,
          ← List.map_map, ih hl' hi]
        rfl
      | false =>
        simp only [pick, if_true] at hi
        cases hi with
        | @cons k _ i' _ hk hi' =>
          have e1 : pick true (false :: m) (n :: s) = pick true m s := rfl
          rw [e1, show merge (false :: m) (k :: i') = (fun r => k :: r) ∘ merge m i' from rfl, ← List.map_map,
            ih hl' hi']
          simp only [indices, List.filter_flatMap, List.filter_map]
          have : (fun j => ((indices s).filter ((fun j' => decide (pick false (false :: m) j' = k :: i')) ∘
                fun r => j :: r)).map (fun r => j :: r)) =
              (fun j => if j = k then ((indices s).filter (fun j' => decide (pick false m j' = i'))).map
                (fun r => k :: r) else []) := by
            funext j
            by_cases hj : j = k
            · subst hj
              rw [if_pos rfl]
              congr 1
              apply List.filter_congr
              intro j' _
              simp [pick]
            · rw [if_neg hj, List.map_eq_nil_iff, List.filter_eq_nil_iff]
              intro j' _
              simp [pick, hj]
          rw [this, flatMap_single hk]

theorem reduceMask_over {α β : Type _} (f : List α → β) (S : List Nat) (a : NDArr α) :
    Along (fun l x => x = f l) S a (reduceMask f (flags a.shape.length S) a) := by
  have hl : (flags a.shape.length S).length = a.shape.length := by simp [flags]
  refine ⟨pick_flags rfl, ?_⟩
  intro i hi
  simp only [reduceMask, over] at hi ⊢
  congr 1
  have := merge_places hl hi
  rw [show (fun r => a.elem (merge (flags a.shape.length S) i r)) = a.elem ∘ merge (flags a.shape.length S) i from rfl,
    ← List.map_map, this]
  congr 1
  apply List.filter_congr
  intro j hj
  rw [pick_flags (mem_indices.mp hj).length]

theorem reduce_along {α β : Type _} {f : List α → β} {ax : Axis} {a : NDArr α} {r : NDArr β}
    (h : reduce f ax a = .ok r) :
    ∃ S, NamesAxes a.shape.length ax S ∧ Along (fun l x => x = f l) S a r := by
  unfold reduce at h
  rcases hm : axisMask a.shape.length ax with e | m
  · rw [hm] at h; cases h
  · rw [hm] at h; cases h
    obtain ⟨S, hS, rfl⟩ := axisMask_ok.mp hm
    exact ⟨S, hS, reduceMask_over f S a⟩

theorem reduce_returns {α β : Type _} (f : List α → β) (ax : Axis) (a : NDArr α) :
    Returns (reduce f ax a) ↔ ∃ S, NamesAxes a.shape.length ax S := by
  unfold reduce
  rcases hm : axisMask a.shape.length ax with e | m
  · simp only
    refine ⟨fun h => absurd h (not_returns_error _), ?_⟩
    rintro ⟨S, hS⟩
    rw [axisMask_ok.mpr ⟨S, hS, rfl⟩] at hm; cases hm
  · obtain ⟨S, hS, -⟩ := axisMask_ok.mp hm
    exact ⟨fun _ => ⟨S, hS⟩, fun _ => ⟨_, rfl⟩⟩

theorem axisMask_error {nd : Nat} {ax : Axis} {e : PyErr} (h : axisMask nd ax = .error e) : e = .valueError := by
  have many : ∀ (as : List Int) e, normAxes nd as = .error e → e = .valueError := by
    intro as
    induction as with
    | nil => intro e h; cases h
    | cons a as ih =>
      intro e h
      rw [normAxes] at h
      rcases hn : normAxis nd a with e' | n
      · rw [hn] at h; cases h; exact (normAxis_error hn).1
      · rw [hn] at h
        rcases hs : normAxes nd as with e' | ns
        · rw [hs] at h; cases h; exact ih _ hs
        · rw [hs] at h
          simp only at h
          split at h
          · cases h; rfl
          · cases h
  cases ax with
  | all => cases h
  | one a =>
    rw [axisMask] at h
    rcases hn : normAxis nd a with e' | n
    · rw [hn] at h; cases h; exact (normAxis_error hn).1
    · rw [hn] at h; cases h
  | many as =>
    rw [axisMask] at h
    rcases hn : normAxes nd as with e' | n
    · rw [hn] at h; cases h; exact many as _ hn
    · rw [hn] at h; cases h

/-- The axes named are determined, up to order. -/
theorem NamesAxes.unique {nd : Nat} {ax : Axis} {S S' : List Nat} (h : NamesAxes nd ax S)
    (h' : NamesAxes nd ax S') : S = S' := by
  have one : ∀ a n n', NamesAxis nd a n → NamesAxis nd a n' → n = n' := by
    rintro a n n' ⟨h1, h2⟩ ⟨h3, h4⟩; omega
  cases ax with
  | all => exact h.trans h'.symm
  | one a =>
    obtain ⟨n, hn, rfl⟩ := h
    obtain ⟨n', hn', rfl⟩ := h'
    rw [one a n n' hn hn']
  | many as =>
    obtain ⟨h, -⟩ := h
    obtain ⟨h', -⟩ := h'
    induction as generalizing S S' with
    | nil => cases h; cases h'; rfl
    | cons a as ih =>
      cases h with
      | cons h1 h2 =>
        cases h' with
        | cons h3 h4 => rw [one _ _ _ h1 h3, ih h2 h4]

theorem indices_eq_nil {s : List Nat} : indices s = [] ↔ 0 ∈ s := by
  rw [← List.length_eq_zero_iff, indices_length, List.prod_eq_zero_iff]

theorem inb_mem_indices {s i : List Nat} : i ∈ indices s ↔ InB s i := mem_indices

theorem Along.mono {α β : Type _} {R R' : List α → β → Prop} {S : List Nat} {a : NDArr α} {r : NDArr β}
    (h : Along R S a r) (hR : ∀ i, InB r.shape i → R (over a S i) (r.elem i) → R' (over a S i) (r.elem i)) :
    Along R' S a r := ⟨h.shape, fun i hi => hR i hi (h.elem i hi)⟩

/-- A reduction without identity: refused exactly when some element of the result would combine nothing. -/
theorem reduceNE_along {α β : Type _} {f : List α → β} {ax : Axis} {a : NDArr α} :
    (∀ r, reduceNE f ax a = .ok r → ∃ S, NamesAxes a.shape.length ax S ∧ Along (fun l x => l ≠ [] ∧ x = f l) S a r) ∧
    (Returns (reduceNE f ax a) ↔ ∃ S, NamesAxes a.shape.length ax S ∧
      ∀ i, InB (without S a.shape) i → over a S i ≠ []) ∧
    (∀ e, reduceNE f ax a = .error e → e = .valueError) := by
  unfold reduceNE
  rcases hm : axisMask a.shape.length ax with e | m
  · refine ⟨fun r h => (by cases h), ⟨fun h => absurd h (not_returns_error _), ?_⟩, ?_⟩
    · rintro ⟨S, hS, -⟩
      rw [axisMask_ok.mpr ⟨S, hS, rfl⟩] at hm; cases hm
    · intro e' h; cases h; exact axisMask_error hm
  · obtain ⟨S, hS, rfl⟩ := axisMask_ok.mp hm
    simp only
    have al := reduceMask_over f S a
    have hl : (flags a.shape.length S).length = a.shape.length := by simp [flags]
    have hsh : pick false (flags a.shape.length S) a.shape = without S a.shape := pick_flags rfl
    -- when nothing is combined
    have hov : ∀ i, InB (without S a.shape) i → (over a S i = [] ↔ a.size = 0) := by
      intro i hi
      have e : over a S i = ((indices (pick true (flags a.shape.length S) a.shape)).map
          (merge (flags a.shape.length S) i)).map a.elem := by
        rw [merge_places hl (by rw [hsh]; exact hi), over]
        congr 1
        apply List.filter_congr
        intro j hj
        rw [pick_flags (mem_indices.mp hj).length]
      rw [e, List.map_eq_nil_iff, List.map_eq_nil_iff]
      constructor
      · intro h0
        rw [indices_eq_nil] at h0
        have : ∀ (m : List Bool) (s : List Nat), 0 ∈ pick true m s → 0 ∈ s := by
          intro m
          induction m with
          | nil => intro s h; cases s <;> simp [pick] at h
          | cons b m ih =>
            intro s h
            cases s with
            | nil => simp [pick] at h
            | cons n s =>
              simp only [pick] at h
              split at h
              · rcases List.mem_cons.mp h with h | h
                · rw [← h]; simp
                · exact List.mem_cons_of_mem _ (ih s h)
              · exact List.mem_cons_of_mem _ (ih s h)
        exact List.prod_eq_zero (this _ _ h0)
      · intro h0
        by_contra hne
        obtain ⟨r, hr⟩ := List.exists_mem_of_ne_nil _ hne
        have : merge (flags a.shape.length S) i r ∈ indices a.shape := by
          have h2 := merge_places hl (by rw [hsh]; exact hi)
          have h3 : merge (flags a.shape.length S) i r ∈ (indices a.shape).filter
              (fun j => pick false (flags a.shape.length S) j = i) := by
            rw [← h2]; exact List.mem_map.mpr ⟨r, hr, rfl⟩
          exact (List.mem_filter.mp h3).1
        have : indices a.shape ≠ [] := List.ne_nil_of_mem this
        rw [Ne, indices_eq_nil] at this
        exact this (List.prod_eq_zero_iff.mp h0)
    have hex : (without S a.shape).prod ≠ 0 ↔ ∃ i, InB (without S a.shape) i := by
      rw [Ne, List.prod_eq_zero_iff, ← indices_eq_nil]
      constructor
      · intro h
        obtain ⟨i, hi⟩ := List.exists_mem_of_ne_nil _ h
        exact ⟨i, mem_indices.mp hi⟩
      · rintro ⟨i, hi⟩; exact List.ne_nil_of_mem (mem_indices.mpr hi)
    rw [hsh]
    by_cases hz : a.size = 0 ∧ (without S a.shape).prod ≠ 0
    · rw [if_pos hz]
      refine ⟨fun r h => (by cases h), ⟨fun h => absurd h (not_returns_error _), ?_⟩, fun e h => by cases h; rfl⟩
      rintro ⟨S', hS', h⟩
      cases hS.unique hS'
      obtain ⟨i, hi⟩ := hex.mp hz.2
      exact absurd ((hov i hi).mpr hz.1) (h i hi)
    · rw [if_neg hz]
      have hne : ∀ i, InB (without S a.shape) i → over a S i ≠ [] := by
        intro i hi h0
        exact hz ⟨(hov i hi).mp h0, hex.mpr ⟨i, hi⟩⟩
      refine ⟨?_, ⟨fun _ => ⟨S, hS, hne⟩, fun _ => ⟨_, rfl⟩⟩, fun e h => by cases h⟩
      intro r hr; cases hr
      exact ⟨S, hS, al.mono (fun i hi h => ⟨hne i (by rw [← al.shape]; exact hi), h⟩)⟩

end PQ.NDArr
