import Verif.Model.Rearrange
import Verif.Spec.Rearrange
import Verif.Lemmas.Calculus
import Verif.Lemmas.Subscript
import Verif.Lemmas.Along2
import Verif.Lemmas.Programs
import Verif.Lemmas.Assign

/-! # Rearranging elements -/

namespace PQ

open NDArr

theorem ravel_eq (s i : List Nat) : ravel s i = rowMajor s i := by
  induction s generalizing i with
  | nil => rfl
  | cons n s ih =>
    cases i with
    | nil => rfl
    | cons j i => simp only [ravel, rowMajor, ih]

theorem unflat_rowMajor {s i : List Nat} (hi : InB s i) : unflat s (rowMajor s i) = i := by
  unfold unflat; rw [indices_rowMajor hi]; rfl

theorem unflat_spec {s : List Nat} {p : Nat} (hp : p < s.prod) :
    InB s (unflat s p) ∧ rowMajor s (unflat s p) = p := by
  have hl : p < (indices s).length := by rw [indices_length]; exact hp
  have := rowMajor_of_getElem? (List.getElem?_eq_getElem hl)
  unfold unflat
  rw [List.getElem?_eq_getElem hl]
  exact this

theorem getElem?_indices {s : List Nat} {p : Nat} (hp : p < s.prod) : (indices s)[p]? = some (unflat s p) := by
  have hl : p < (indices s).length := by rw [indices_length]; exact hp
  unfold unflat
  rw [List.getElem?_eq_getElem hl]; rfl

theorem indices_eq_range (s : List Nat) : indices s = (List.range s.prod).map (unflat s) := by
  apply List.ext_getElem?
  intro p
  rw [List.getElem?_map]
  by_cases hp : p < s.prod
  · rw [getElem?_indices hp, List.getElem?_range hp]; rfl
  · rw [List.getElem?_eq_none (by rw [indices_length]; omega), List.getElem?_eq_none (by simp; omega)]; rfl

theorem reshape_toList {α : Type _} {s u : List Nat} (h : u.prod = s.prod) (g : List Nat → α) :
    (⟨u, fun i => g (unflat s (ravel u i))⟩ : NDArr α).toList = (indices s).map g := by
  unfold toList
  rw [indices_eq_range u, indices_eq_range s, h, List.map_map, List.map_map]
  apply List.map_congr_left
  intro p hp
  rw [List.mem_range] at hp
  simp only [Function.comp]
  rw [ravel_eq, (unflat_spec (by rw [h]; exact hp)).2]

/-! ## Shapes with a hole -/

theorem fill_none {t : List (Option Nat)} (h : t.count none = 0) {u : List Nat} :
    List.Forall₂ (fun x n => x = none ∨ x = some n) t u ↔ u = t.filterMap id := by
  induction t generalizing u with
  | nil => simp
  | cons x t ih =>
    cases x with
    | none => simp at h
    | some n =>
      have h' : t.count none = 0 := by simpa using h
      simp only [List.forall₂_cons_left_iff, ih h', List.filterMap_cons, id]
      constructor
      · rintro ⟨a, l, h1, rfl, rfl⟩
        rcases h1 with h1 | h1 <;> cases h1
        rfl
      · rintro rfl
        exact ⟨_, _, .inr rfl, rfl, rfl⟩

theorem fill_one {t : List (Option Nat)} (h : t.count none = 1) {u : List Nat} :
    List.Forall₂ (fun x n => x = none ∨ x = some n) t u ↔ ∃ y, u = t.map (fun x => x.getD y) := by
  induction t generalizing u with
  | nil => simp at h
  | cons x t ih =>
    cases x with
    | none =>
      have h' : t.count none = 0 := by simpa using h
      have hm : ∀ y, t.map (fun x => x.getD y) = t.filterMap id := by
        intro y
        clear ih h
        induction t with
        | nil => rfl
        | cons z t ih =>
          cases z with
          | none => simp at h'
          | some n => simp only [List.map_cons, List.filterMap_cons, id, Option.getD_some]; rw [ih (by simpa using h')]; rfl
      simp only [List.forall₂_cons_left_iff, fill_none h', List.map_cons, Option.getD_none, hm]
      constructor
      · rintro ⟨a, l, -, rfl, rfl⟩
        exact ⟨a, rfl⟩
      · rintro ⟨y, rfl⟩
        exact ⟨y, _, .inl trivial, rfl, rfl⟩
    | some n =>
      have h' : t.count none = 1 := by simpa using h
      simp only [List.forall₂_cons_left_iff, ih h', List.map_cons, Option.getD_some]
      constructor
      · rintro ⟨a, l, h1, ⟨y, rfl⟩, rfl⟩
        rcases h1 with h1 | h1 <;> cases h1
        exact ⟨y, rfl⟩
      · rintro ⟨y, rfl⟩
        exact ⟨_, _, .inr rfl, ⟨y, rfl⟩, rfl⟩

theorem fill_prod {t : List (Option Nat)} (h : t.count none = 1) (y : Nat) :
    (t.map (fun x => x.getD y)).prod = (t.filterMap id).prod * y := by
  induction t with
  | nil => simp at h
  | cons x t ih =>
    cases x with
    | none =>
      have h' : t.count none = 0 := by simpa using h
      have hm : t.map (fun x => x.getD y) = t.filterMap id := by
        clear ih h
        induction t with
        | nil => rfl
        | cons z t ih =>
          cases z with
          | none => simp at h'
          | some n => simp only [List.map_cons, List.filterMap_cons, id, Option.getD_some]; rw [ih (by simpa using h')]; rfl
      simp only [List.map_cons, List.prod_cons, Option.getD_none, List.filterMap_cons, id, hm]
      ring
    | some n =>
      simp only [List.map_cons, List.prod_cons, Option.getD_some, List.filterMap_cons, id, ih (by simpa using h)]
      ring

theorem fill_inj {t : List (Option Nat)} (h : t.count none = 1) {y z : Nat}
    (he : t.map (fun x => x.getD y) = t.map (fun x => x.getD z)) : y = z := by
  have hm : none ∈ t := List.count_pos_iff.mp (by omega)
  have := List.map_inj_left.mp he none hm
  simpa using this

theorem reshapeTo_ok {size : Nat} {t : List (Option Nat)} {u : List Nat} :
    reshapeTo size t = .ok u ↔ t.count none ≤ 1 ∧ FillsIn size t u ∧ ∀ u', FillsIn size t u' → u' = u := by
  unfold reshapeTo FillsIn
  rcases hc : t.count none with _ | _ | c
  · simp only [fill_none hc]
    constructor
    · intro h
      split at h
      · rename_i hp
        cases h
        exact ⟨by omega, ⟨rfl, hp⟩, fun u' h => h.1⟩
      · cases h
    · rintro ⟨-, ⟨rfl, hp⟩, -⟩
      rw [if_pos hp]
  · simp only [fill_one hc, Nat.zero_add]
    constructor
    · intro h
      split at h
      · cases h
      · rename_i hk
        push Not at hk
        cases h
        refine ⟨le_refl _, ⟨⟨_, rfl⟩, ?_⟩, ?_⟩
        · rw [fill_prod hc]; exact Nat.mul_div_cancel' (Nat.dvd_of_mod_eq_zero hk.2)
        · rintro u' ⟨⟨y, rfl⟩, hy⟩
          rw [fill_prod hc] at hy
          have : y = size / (t.filterMap id).prod := by
            rw [← hy, Nat.mul_div_cancel_left _ (Nat.pos_of_ne_zero hk.1)]
          rw [this]
    · rintro ⟨-, ⟨⟨y, rfl⟩, hy⟩, hu⟩
      rw [fill_prod hc] at hy
      by_cases hk : (t.filterMap id).prod = 0
      · exfalso
        have := hu (t.map (fun x => x.getD (y + 1))) ⟨⟨_, rfl⟩, by rw [fill_prod hc, ← hy, hk]; simp⟩
        exact absurd (fill_inj hc this) (by omega)
      · rw [if_neg (by
          push Not
          exact ⟨hk, by rw [← hy]; exact Nat.mul_mod_right _ _⟩)]
        have : size / (t.filterMap id).prod = y := by
          rw [← hy, Nat.mul_div_cancel_left _ (Nat.pos_of_ne_zero hk)]
        rw [this]
  · constructor
    · intro h; cases h
    · rintro ⟨h, -⟩; omega

theorem reshapeTo_error {size : Nat} {t : List (Option Nat)} {e : PyErr} (h : reshapeTo size t = .error e) :
    e = .valueError := by
  unfold reshapeTo at h
  split at h
  · split at h
    · cases h
    · injection h with h; exact h.symm
  · simp only at h
    split at h
    · injection h with h; exact h.symm
    · cases h
  · injection h with h; exact h.symm

/-! ## Permuting axes -/

theorem getD_map_range (n : Nat) (f : Nat → Nat) (k : Nat) (hk : k < n) :
    ((List.range n).map f).getD k 0 = f k := by
  rw [List.getD_eq_getElem?_getD, List.getElem?_map, List.getElem?_range hk]; rfl

theorem ext_getD {i j : List Nat} (hl : i.length = j.length) (h : ∀ k, k < i.length → i.getD k 0 = j.getD k 0) :
    i = j := by
  apply List.ext_getElem hl
  intro k h1 h2
  have := h k h1
  simpa [List.getD_eq_getElem?_getD, h1, h2] using this

theorem inB_of_getD {s i : List Nat} (hl : i.length = s.length) (h : ∀ k, k < s.length → i.getD k 0 < s.getD k 0) :
    InB s i := by
  unfold InB
  rw [List.forall₂_iff_get]
  refine ⟨hl, fun k h1 h2 => ?_⟩
  have := h k h2
  simpa [List.getD_eq_getElem?_getD, h1, h2] using this

/-- Distinct axes, one for every axis. -/
theorem axes_perm {nd : Nat} {as : List Int} {S : List Nat} (hl : as.length = nd)
    (h : List.Forall₂ (NamesAxis nd) as S ∧ S.Nodup) :
    S.length = nd ∧ (∀ k, k < nd → S.getD k 0 < nd) ∧ (∀ m, m < nd → S.idxOf m < nd ∧ S.getD (S.idxOf m) 0 = m) ∧
    (∀ k, k < nd → S.idxOf (S.getD k 0) = k) := by
  have hSl : S.length = nd := by rw [← hl]; exact h.1.length_eq.symm
  have hlt : ∀ x ∈ S, x < nd := by
    intro x hx
    obtain ⟨k, hk, rfl⟩ := List.getElem_of_mem hx
    have := (List.forall₂_iff_get.mp h.1).2 k (by rw [hl, ← hSl]; exact hk) hk
    exact this.1
  have hperm : S.Perm (List.range nd) := by
    refine List.Subperm.perm_of_length_le (List.subperm_of_subset h.2 (fun x hx => List.mem_range.mpr (hlt x hx))) ?_
    rw [List.length_range, hSl]
  refine ⟨hSl, fun k hk => ?_, fun m hm => ?_, fun k hk => ?_⟩
  · rw [List.getD_eq_getElem?_getD, List.getElem?_eq_getElem (by omega)]
    exact hlt _ (List.getElem_mem _)
  · have hmem : m ∈ S := hperm.mem_iff.mpr (List.mem_range.mpr hm)
    have := List.idxOf_lt_length_iff.mpr hmem
    refine ⟨by omega, ?_⟩
    rw [List.getD_eq_getElem?_getD, List.getElem?_eq_getElem this, Option.getD_some, List.getElem_idxOf]
  · rw [List.getD_eq_getElem?_getD, List.getElem?_eq_getElem (by omega), Option.getD_some]
    exact h.2.idxOf_getElem k (by omega)

theorem getD_map_lt {S : List Nat} {f : Nat → Nat} {k : Nat} (hk : k < S.length) :
    (S.map f).getD k 0 = f (S.getD k 0) := by
  simp [List.getD_eq_getElem?_getD, hk]

theorem exchange_length (n m : Nat) (l : List Nat) : (exchange n m l).length = l.length := by
  simp [exchange]

theorem exchange_getD {n m : Nat} {l : List Nat} (hn : n < l.length) (hm : m < l.length) (k : Nat) :
    (exchange n m l).getD k 0 = l.getD (if k = n then m else if k = m then n else k) 0 := by
  unfold exchange
  simp only [List.getD_eq_getElem?_getD, List.getElem?_set, List.length_set]
  by_cases h1 : k = m
  · subst h1
    by_cases h2 : k = n
    · subst h2; simp [hm]
    · simp [hm, h2]
  · rw [if_neg (Ne.symm h1)]
    by_cases h2 : k = n
    · subst h2; simp [hn]
    · rw [if_neg (Ne.symm h2), if_neg h2, if_neg h1]

/-! ## Taking elements -/

theorem wrapPos_spec {n : Nat} {z : Int} {x : Nat} (h : AxisItem n z x) : wrapPos n z = x := by
  obtain ⟨h1, h2⟩ := h
  unfold wrapPos
  split <;> omega

theorem itemOf_iff {n : Nat} {z : Int} : (∃ x, AxisItem n z x) ↔ (-(n : Int) ≤ z ∧ z < n) := by
  constructor
  · rintro ⟨x, h1, h2⟩; omega
  · rintro ⟨h1, h2⟩
    by_cases h : z < 0
    · exact ⟨(z + n).toNat, by omega, by omega⟩
    · exact ⟨z.toNat, by omega, by omega⟩

theorem all_positions {p : NDArr Int} {n : Nat} :
    p.toList.all (fun x => decide (-(n : Int) ≤ x ∧ x < n)) = true ↔
      ∀ i, InB p.shape i → ∃ x, AxisItem n (p.elem i) x := by
  rw [List.all_eq_true]
  constructor
  · intro h i hi
    exact itemOf_iff.mpr (by simpa using h _ (mem_toList.mpr ⟨i, hi, rfl⟩))
  · intro h x hx
    obtain ⟨i, hi, rfl⟩ := mem_toList.mp hx
    simpa using itemOf_iff.mp (h i hi)

theorem filter_range_true (c : List Bool) :
    ((List.range c.length).filter (fun j => c.getD j false)).length = c.count true ∧
    ∀ m x, ((List.range c.length).filter (fun j => c.getD j false))[m]? = some x ↔ NthTrue c m x := by
  induction c using List.reverseRecOn with
  | nil => simp [NthTrue]
  | append_singleton c b ih =>
    obtain ⟨ih1, ih2⟩ := ih
    have hf : (List.range (c ++ [b]).length).filter (fun j => (c ++ [b]).getD j false) =
        (List.range c.length).filter (fun j => c.getD j false) ++ (if b then [c.length] else []) := by
      rw [List.length_append, List.length_singleton, List.range_succ, List.filter_append]
      congr 1
      · apply List.filter_congr
        intro j hj
        rw [List.mem_range] at hj
        simp [List.getD_eq_getElem?_getD, List.getElem?_append_left hj]
      · cases b <;> simp [List.getD_eq_getElem?_getD]
    rw [hf]
    constructor
    · rw [List.length_append, ih1, List.count_append]
      cases b <;> simp
    · intro m x
      unfold NthTrue at ih2 ⊢
      by_cases hm : m < c.count true
      · rw [List.getElem?_append_left (by rw [ih1]; exact hm), ih2]
        constructor
        · rintro ⟨h1, h2⟩
          have hx : x < c.length := by
            by_contra hc; rw [List.getElem?_eq_none (by omega)] at h1; cases h1
          rw [List.getElem?_append_left hx, List.take_append_of_le_length (by omega)]
          exact ⟨h1, h2⟩
        · rintro ⟨h1, h2⟩
          by_cases hx : x < c.length
          · rw [List.getElem?_append_left hx] at h1
            rw [List.take_append_of_le_length (by omega)] at h2
            exact ⟨h1, h2⟩
          · exfalso
            rw [List.take_append, List.count_append] at h2
            have : c.take x = c := List.take_of_length_le (by omega)
            rw [this] at h2
            omega
      · have hx' : ∀ x, c[x]? = some true → (c.take x).count true < c.count true := by
          intro x h1
          have hx : x < c.length := by
            by_contra hc; rw [List.getElem?_eq_none (by omega)] at h1; cases h1
          have h3 : c[x] = true := by rw [List.getElem?_eq_getElem hx] at h1; simpa using h1
          have h2 : c = c.take x ++ c[x] :: c.drop (x + 1) := by
            rw [List.getElem_cons_drop, List.take_append_drop]
          conv_rhs => rw [h2]
          rw [List.count_append, h3, List.count_cons]
          simp
        have hlen : ((List.range c.length).filter (fun j => c.getD j false)).length = c.count true := ih1
        rw [List.getElem?_append_right (by omega), ih1]
        constructor
        · intro h
          cases b with
          | false => simp at h
          | true =>
            simp only [if_true] at h
            rcases hmm : m - c.count true with _ | k
            · rw [hmm] at h
              have : x = c.length := by simpa using h.symm
              subst this
              refine ⟨by simp, ?_⟩
              rw [List.take_left]
              omega
            · rw [hmm] at h; simp at h
        · rintro ⟨h1, h2⟩
          by_cases hx : x < c.length
          · exfalso
            rw [List.getElem?_append_left hx] at h1
            rw [List.take_append_of_le_length (by omega)] at h2
            have := hx' x h1
            omega
          · have hxe : x = c.length := by
              by_contra hne
              rw [List.getElem?_eq_none (by simp; omega)] at h1
              cases h1
            subst hxe
            rw [List.take_left] at h2
            have hb : b = true := by simpa using h1
            subst hb
            simp [h2]

theorem merge_picks {m : List Bool} {j : List Nat} (h : m.length = j.length) :
    merge m (pick false m j) (pick true m j) = j := by
  induction m generalizing j with
  | nil => cases j with
    | nil => rfl
    | cons => simp at h
  | cons b m ih =>
    cases j with
    | nil => simp at h
    | cons x j =>
      have := ih (j := j) (by simpa using h)
      cases b with
      | true => simp only [pick, Bool.true_eq_false, if_false, if_true, merge]; rw [this]
      | false => simp only [pick, if_true, Bool.false_eq_true, if_false, merge]; rw [this]

theorem pick_false_merge : ∀ (m : List Bool) (s i r : List Nat), m.length = s.length →
    InB (pick false m s) i → InB (pick true m s) r → pick false m (merge m i r) = i
  | [], [], i, _, _, hi, _ => by cases hi; rfl
  | [], _ :: _, _, _, h, _, _ => by simp at h
  | _ :: _, [], _, _, h, _, _ => by simp at h
  | true :: ms, n :: s, i, r, h, hi, hr => by
    have hl : ms.length = s.length := by simpa using h
    simp only [pick, if_true] at hr
    simp only [pick, Bool.true_eq_false, if_false] at hi
    cases hr with
    | cons h1 h2 =>
      simp only [merge, pick, Bool.true_eq_false, if_false]
      exact pick_false_merge ms s i _ hl hi h2
  | false :: ms, n :: s, i, r, h, hi, hr => by
    have hl : ms.length = s.length := by simpa using h
    simp only [pick, Bool.false_eq_true, if_false] at hr
    simp only [pick, if_true] at hi
    cases hi with
    | cons h1 h2 =>
      simp only [merge, pick, if_true]
      rw [pick_false_merge ms s _ r hl h2 hr]

theorem rowMajor_inj {s i j : List Nat} (hi : InB s i) (hj : InB s j) (h : rowMajor s i = rowMajor s j) : i = j := by
  rw [← unflat_rowMajor hi, ← unflat_rowMajor hj, h]

theorem unflat_inj {s : List Nat} {p q : Nat} (hp : p < s.prod) (hq : q < s.prod) (h : unflat s p = unflat s q) :
    p = q := by
  rw [← (unflat_spec hp).2, ← (unflat_spec hq).2, h]

theorem inB_reverse {s i : List Nat} (h : InB s i) : InB s.reverse i.reverse := by
  unfold InB at *; exact List.rel_reverse h

theorem reshape_basic (t : List (Option Nat)) : (Key.reshape t).Basic := by
  have key : ∀ s s' f, Key.reshape t s = .ok (s', f) → s'.prod = s.prod ∧ f = fun i => unflat s (ravel s' i) := by
    intro s s' f h
    unfold Key.reshape at h
    rcases hr : reshapeTo s.prod t with e | u
    · rw [hr] at h; cases h
    · rw [hr] at h; cases h
      exact ⟨(reshapeTo_ok.mp hr).2.1.2, rfl⟩
  constructor
  · intro s s' f h i hi
    obtain ⟨h1, rfl⟩ := key s s' f h
    simp only [ravel_eq]
    exact (unflat_spec (by rw [← h1]; exact rowMajor_lt hi)).1
  · intro s s' f h i j hi hj hij
    obtain ⟨h1, rfl⟩ := key s s' f h
    simp only [ravel_eq] at hij
    exact rowMajor_inj hi hj (unflat_inj (by rw [← h1]; exact rowMajor_lt hi) (by rw [← h1]; exact rowMajor_lt hj) hij)

theorem flatten_basic : Key.flatten.Basic := by
  constructor
  · intro s s' f h i hi
    cases h
    cases hi with
    | cons h1 h2 => exact (unflat_spec h1).1
  · intro s s' f h i j hi hj hij
    cases h
    cases hi with
    | cons h1 h2 => cases h2; cases hj with
      | cons h3 h4 => cases h4; rw [unflat_inj h1 h3 hij]

theorem transpose_basic (axes : Option (List Int)) : (Key.transpose axes).Basic := by
  cases axes with
  | none =>
    constructor
    · intro s s' f h i hi
      cases h
      have := inB_reverse hi
      rwa [List.reverse_reverse] at this
    · intro s s' f h i j hi hj hij
      cases h
      exact List.reverse_injective hij
  | some as =>
    have key : ∀ s s' f, Key.transpose (some as) s = .ok (s', f) → ∃ S, as.length = s.length ∧
        (List.Forall₂ (NamesAxis s.length) as S ∧ S.Nodup) ∧ s' = S.map (fun n => s.getD n 0) ∧
        f = fun i => (List.range s.length).map (fun m => i.getD (S.idxOf m) 0) := by
      intro s s' f h
      unfold Key.transpose at h
      simp only at h
      by_cases hl : as.length = s.length
      · rw [if_neg (by simpa using hl)] at h
        rcases hn : normAxes s.length as with e | S
        · rw [hn] at h; cases h
        · rw [hn] at h; cases h
          exact ⟨S, hl, normAxes_ok.mp hn, rfl, rfl⟩
      · rw [if_pos hl] at h; cases h
    constructor
    · intro s s' f h i hi
      obtain ⟨S, hl, hS, rfl, rfl⟩ := key s s' f h
      obtain ⟨p1, p2, p3, p4⟩ := axes_perm hl hS
      refine inB_of_getD (by simp) (fun m hm => ?_)
      rw [getD_map_range _ _ _ hm]
      have h1 := inB_getD hi (n := S.idxOf m) (by simp only [List.length_map]; rw [p1]; exact (p3 m hm).1)
      rw [getD_map_lt (by rw [p1]; exact (p3 m hm).1), (p3 m hm).2] at h1
      exact h1
    · intro s s' f h i j hi hj hij
      obtain ⟨S, hl, hS, rfl, rfl⟩ := key s s' f h
      obtain ⟨p1, p2, p3, p4⟩ := axes_perm hl hS
      have hil : i.length = S.length := by rw [hi.length]; simp
      have hjl : j.length = S.length := by rw [hj.length]; simp
      refine ext_getD (by omega) (fun k hk => ?_)
      have hk' : k < s.length := by omega
      have := congrArg (fun l => l.getD (S.getD k 0) 0) hij
      simp only at this
      rw [getD_map_range _ _ _ (p2 k hk'), getD_map_range _ _ _ (p2 k hk'), p4 k hk'] at this
      exact this

theorem exchange_exchange {n m : Nat} {l : List Nat} (hn : n < l.length) (hm : m < l.length) :
    exchange n m (exchange n m l) = l := by
  refine ext_getD (by simp only [exchange_length]) (fun k hk => ?_)
  rw [exchange_getD (by rwa [exchange_length]) (by rwa [exchange_length]), exchange_getD hn hm]
  congr 1
  by_cases h1 : k = n
  · subst h1
    by_cases h2 : m = k
    · simp [h2]
    · simp [h2]
  · by_cases h2 : k = m
    · subst h2; simp [h1]
    · simp [h1, h2]

theorem swapaxes_basic (a b : Int) : (Key.swapaxes a b).Basic := by
  have key : ∀ s s' f, Key.swapaxes a b s = .ok (s', f) → ∃ n m, n < s.length ∧ m < s.length ∧ s' = exchange n m s ∧
      f = exchange n m := by
    intro s s' f h
    unfold Key.swapaxes at h
    rcases ha : normAxis s.length a with e | n
    · rw [ha] at h; cases h
    · rcases hb : normAxis s.length b with e | m
      · rw [ha, hb] at h; cases h
      · rw [ha, hb] at h; cases h
        exact ⟨n, m, (normAxis_ok.mp ha).1, (normAxis_ok.mp hb).1, rfl, rfl⟩
  constructor
  · intro s s' f h i hi
    obtain ⟨n, m, hn, hm, rfl, rfl⟩ := key s s' f h
    have hil : i.length = s.length := by rw [hi.length, exchange_length]
    refine inB_of_getD (by rw [exchange_length, hil]) (fun k hk => ?_)
    rw [exchange_getD (by omega) (by omega)]
    have g : ∀ x, x < s.length → i.getD x 0 < s.getD (if x = n then m else if x = m then n else x) 0 := by
      intro x hx
      have := inB_getD hi (n := x) (by rw [exchange_length]; exact hx)
      rwa [exchange_getD hn hm] at this
    by_cases h1 : k = n
    · subst h1
      have := g m hm
      by_cases h2 : m = k
      · subst h2; simpa using this
      · simpa [h2] using this
    · by_cases h2 : k = m
      · subst h2
        have := g n hn
        simpa [h1] using this
      · have := g k hk
        simpa [h1, h2] using this
  · intro s s' f h i j hi hj hij
    obtain ⟨n, m, hn, hm, rfl, rfl⟩ := key s s' f h
    have hil : i.length = s.length := by rw [hi.length, exchange_length]
    have hjl : j.length = s.length := by rw [hj.length, exchange_length]
    rw [← exchange_exchange (l := i) (n := n) (m := m) (by omega) (by omega), hij,
      exchange_exchange (by omega) (by omega)]

theorem diagonal_basic (offset a b : Int) : (Key.diagonal offset a b).Basic := by
  have key : ∀ s s' f, Key.diagonal offset a b s = .ok (s', f) → ∃ n1 n2, n1 < s.length ∧ n2 < s.length ∧ n1 ≠ n2 ∧
      s' = pick false (two s.length n1 n2) s ++ [diagLen (s.getD n1 0) (s.getD n2 0) offset] ∧
      f = fun i => merge (two s.length n1 n2) i.dropLast
        (if n1 < n2 then [i.getLastD 0 + (max (-offset) 0).toNat, i.getLastD 0 + (max offset 0).toNat]
          else [i.getLastD 0 + (max offset 0).toNat, i.getLastD 0 + (max (-offset) 0).toNat]) := by
    intro s s' f h
    unfold Key.diagonal at h
    by_cases hl : s.length < 2
    · rw [if_pos hl] at h; cases h
    · rw [if_neg hl] at h
      rcases ha : normAxis s.length a with e | n
      · rw [ha] at h; cases h
      · rcases hb : normAxis s.length b with e | m
        · rw [ha, hb] at h; cases h
        · rw [ha, hb] at h
          simp only at h
          by_cases he : n = m
          · rw [if_pos he] at h; cases h
          · rw [if_neg he] at h; cases h
            exact ⟨n, m, (normAxis_ok.mp ha).1, (normAxis_ok.mp hb).1, he, rfl, rfl⟩
  have core : ∀ (s : List Nat) (n1 n2 : Nat), n1 < s.length → n2 < s.length → n1 ≠ n2 → ∀ i,
      InB (pick false (two s.length n1 n2) s ++ [diagLen (s.getD n1 0) (s.getD n2 0) offset]) i →
      ∃ i₀ k, i = i₀ ++ [k] ∧ InB (pick false (two s.length n1 n2) s) i₀ ∧
        InB (pick true (two s.length n1 n2) s)
          (if n1 < n2 then [k + (max (-offset) 0).toNat, k + (max offset 0).toNat]
            else [k + (max offset 0).toNat, k + (max (-offset) 0).toNat]) := by
    intro s n1 n2 h1 h2 hne i hi
    rcases List.eq_nil_or_concat i with rfl | ⟨i₀, k, rfl⟩
    · have := hi.length; simp at this
    · rw [List.concat_eq_append] at hi ⊢
      have hl := hi.length
      simp only [List.length_append, List.length_singleton, Nat.add_right_cancel_iff] at hl
      obtain ⟨g1, g2⟩ := (inB_append_iff hl).mp hi
      refine ⟨i₀, k, rfl, g1, ?_⟩
      have hk : k < diagLen (s.getD n1 0) (s.getD n2 0) offset := by cases g2; assumption
      unfold diagLen at hk
      by_cases hlt : n1 < n2
      · rw [if_pos hlt, pick_two rfl hlt h2]
        exact .cons (by omega) (.cons (by omega) .nil)
      · rw [if_neg hlt, two_comm, pick_two rfl (by omega) h1]
        exact .cons (by omega) (.cons (by omega) .nil)
  have hml : ∀ (s : List Nat) n1 n2, (two s.length n1 n2).length = s.length := fun s n1 n2 => by simp [two]
  constructor
  · intro s s' f h i hi
    obtain ⟨n1, n2, h1, h2, hne, rfl, rfl⟩ := key s s' f h
    obtain ⟨i₀, k, rfl, g1, g2⟩ := core s n1 n2 h1 h2 hne i hi
    simp only [List.dropLast_concat]
    have hlast : (i₀ ++ [k]).getLastD 0 = k := by simp
    rw [hlast]
    exact merge_inb _ _ _ _ (hml s n1 n2) g1 g2
  · intro s s' f h i j hi hj hij
    obtain ⟨n1, n2, h1, h2, hne, rfl, rfl⟩ := key s s' f h
    obtain ⟨i₀, k, rfl, g1, g2⟩ := core s n1 n2 h1 h2 hne i hi
    obtain ⟨j₀, l, rfl, g3, g4⟩ := core s n1 n2 h1 h2 hne j hj
    have hlast : ∀ (i₀ : List Nat) k, (i₀ ++ [k]).getLastD 0 = k := fun _ _ => by simp
    simp only [List.dropLast_concat, hlast] at hij
    have e1 := congrArg (pick false (two s.length n1 n2)) hij
    rw [pick_false_merge _ s _ _ (hml s n1 n2) g1 g2, pick_false_merge _ s _ _ (hml s n1 n2) g3 g4] at e1
    have e2 := congrArg (pick true (two s.length n1 n2)) hij
    rw [merge_nth (hml s n1 n2) g1 g2, merge_nth (hml s n1 n2) g3 g4] at e2
    have : k = l := by
      split at e2
      · injection e2 with e2; omega
      · injection e2 with e2; omega
    rw [e1, this]

theorem repeat_sound (k : Nat) (ax : Axis) : (Key.repeat k ax).Sound := by
  intro s s' f h i hi
  cases ax with
  | all =>
    cases h
    cases hi with
    | cons h1 h2 =>
      cases h2
      have hk : 0 < k := Nat.pos_of_ne_zero (fun h => by subst h; simp at h1)
      exact (unflat_spec ((Nat.div_lt_iff_lt_mul hk).mpr h1)).1
  | one a =>
    unfold Key.repeat at h
    simp only at h
    rcases ha : normAxis s.length a with e | n
    · rw [ha] at h; cases h
    · rw [ha] at h; cases h
      have hn := (normAxis_ok.mp ha).1
      have h1 := inB_getD hi (n := n) (by rw [List.length_set]; exact hn)
      rw [getD_set hn] at h1
      have hk : 0 < k := Nat.pos_of_ne_zero (fun h => by subst h; simp at h1)
      have h2 := inB_set (n := n) hi ((Nat.div_lt_iff_lt_mul hk).mpr h1)
      rw [List.set_set, set_getD] at h2
      exact h2
  | many as => cases h

theorem take_sound (p : NDArr Int) (ax : Axis) : (Key.take p ax).Sound := by
  intro s s' f h i hi
  cases ax with
  | all =>
    unfold Key.take at h
    simp only at h
    split at h
    · rename_i hp
      cases h
      obtain ⟨x, hx⟩ := (all_positions (n := s.prod)).mp hp i hi
      simp only
      rw [wrapPos_spec hx]
      exact (unflat_spec hx.1).1
    · cases h
  | one a =>
    unfold Key.take at h
    simp only at h
    rcases ha : normAxis s.length a with e | n
    · rw [ha] at h; cases h
    · rw [ha] at h
      simp only at h
      split at h
      · rename_i hp
        cases h
        have hn := (normAxis_ok.mp ha).1
        have hil := hi.length
        simp only [List.length_append, List.length_take, List.length_drop] at hil
        have hi' : InB (s.take n ++ (p.shape ++ s.drop (n + 1))) (i.take n ++ ((i.drop n).take p.shape.length ++
            (i.drop n).drop p.shape.length)) := by
          rw [List.take_append_drop, List.take_append_drop, ← List.append_assoc]; exact hi
        obtain ⟨g1, g2⟩ := (inB_append_iff (by simp; omega)).mp hi'
        obtain ⟨g3, g4⟩ := (inB_append_iff (by simp; omega)).mp g2
        obtain ⟨x, hx⟩ := (all_positions (n := s.getD n 0)).mp hp _ g3
        simp only
        rw [wrapPos_spec hx]
        rw [List.drop_drop] at g4
        have e : s = s.take n ++ (s.getD n 0 :: s.drop (n + 1)) := by
          conv_lhs => rw [← List.take_append_drop n s, List.drop_eq_getElem_cons hn]
          rw [List.getD_eq_getElem?_getD, List.getElem?_eq_getElem hn]; rfl
        rw [e]
        exact inB_append g1 (.cons hx.1 g4)
      · cases h
  | many as => cases h

end PQ
