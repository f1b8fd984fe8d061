import Verif.Spec.Subscript
import Verif.Spec.Memory
import Verif.Lemmas.NDArr
import Verif.Lemmas.Positions

/-! # Lemmas about subscripts -/

namespace PQ

open NDArr

theorem slice_pos {n : Nat} {k a e : Int} (hk : 0 < k) (ha : 0 ≤ a) (m : Nat) :
    m < (if a < e then (e - a - 1) / k + 1 else 0).toNat ↔ a + m * k < e := by
  have hmk : 0 ≤ (m : Int) * k := by positivity
  split
  · have := Int.le_ediv_iff_mul_le (a := (m : Int)) (b := e - a - 1) hk
    constructor
    · intro h
      have h2 : (m : Int) ≤ (e - a - 1) / k := by omega
      have h3 := this.mp h2
      omega
    · intro h
      have h2 := this.mpr (by omega)
      omega
  · constructor
    · intro h; simp at h
    · intro h; omega

theorem slice_neg {k a e : Int} (hk : k < 0) (m : Nat) :
    m < (if e < a then (a - e - 1) / (-k) + 1 else 0).toNat ↔ e < a + m * k := by
  have hmk : (m : Int) * (-k) ≥ 0 := by have : 0 ≤ -k := by omega
                                        positivity
  have hmk' : (m : Int) * k = -(m * (-k)) := by ring
  split
  · have := Int.le_ediv_iff_mul_le (a := (m : Int)) (b := a - e - 1) (show 0 < -k by omega)
    constructor
    · intro h
      have h2 : (m : Int) ≤ (a - e - 1) / (-k) := by omega
      have h3 := this.mp h2
      omega
    · intro h
      have h2 := this.mpr (by omega)
      omega
  · constructor
    · intro h; simp at h
    · intro h; omega

theorem sliceIndices_spec {n : Nat} {start stop step : Option Int} {a k : Int} {len : Nat}
    (h : sliceIndices n start stop step = .ok (a, k, len)) :
    (∀ m, m < len → 0 ≤ a + k * (m : Int)) ∧
    ∀ m x : Nat, SliceItem n start stop step m x ↔ m < len ∧ x = (a + k * (m : Int)).toNat := by
  unfold sliceIndices at h
  simp only at h
  split at h
  · cases h
  rename_i hk0
  injection h with h
  injection h with ha h
  injection h with hk hl
  unfold SliceItem
  rw [hk] at hk0 ha hl ⊢
  have hcomm : ∀ m : Nat, k * (m : Int) = m * k := fun m => mul_comm _ _
  have key : ∀ m : Nat, (m < len ↔ 0 ≤ a + m * k ∧ a + m * k < n ∧ sliceFirst n k start = a ∧
      BeforeEnd n k stop (a + m * k)) ∧ (∀ x : Nat, x < n → (x : Int) = sliceFirst n k start + m * k →
        BeforeEnd n k stop x → sliceFirst n k start = a) := by
    intro m
    subst hl
    rcases lt_or_gt_of_ne hk0 with hneg | hpos
    · have hmk : (m : Int) * k ≤ 0 := mul_nonpos_of_nonneg_of_nonpos (by positivity) hneg.le
      rw [if_pos hneg, slice_neg hneg]
      subst ha
      unfold sliceFirst BeforeEnd fromStart sliceEnd
      generalize (m : Int) * k = t at *
      have : ¬ 0 < k := by omega
      rcases start with _ | b <;> rcases stop with _ | c <;> simp only [if_pos hneg, if_neg this] <;>
        refine ⟨⟨fun h => ⟨?_, ?_, ?_, ?_⟩, fun h => ?_⟩, fun x h1 h2 h3 => ?_⟩ <;>
        first | trivial | (repeat' split) <;> (repeat' split at *) <;> omega
    · have hmk : (m : Int) * k ≥ 0 := by positivity
      have hnn : ¬ k < 0 := by omega
      have hge : 0 ≤ a := by
        subst ha
        unfold sliceEnd
        rcases start with _ | b <;> simp only [if_neg hnn] <;> (repeat' split) <;> omega
      rw [if_neg hnn, ha, slice_pos (n := n) hpos hge]
      subst ha
      unfold sliceFirst BeforeEnd fromStart sliceEnd
      generalize (m : Int) * k = t at *
      rcases start with _ | b <;> rcases stop with _ | c <;> simp only [if_pos hpos, if_neg hnn] <;>
        refine ⟨⟨fun h => ⟨?_, ?_, ?_, ?_⟩, fun h => ?_⟩, fun x h1 h2 h3 => ?_⟩ <;>
        first | trivial | (repeat' split) <;> (repeat' split at *) <;> omega
  refine ⟨fun m hm => by rw [hcomm]; exact ((key m).1.mp hm).1, ?_⟩
  intro m x
  rw [hcomm]
  constructor
  · rintro ⟨-, hx, hn, hb⟩
    have hs := (key m).2 x hn hx hb
    rw [hs] at hx
    have : m < len := by
      rw [(key m).1, ← hx]
      exact ⟨by omega, by omega, hs, hb⟩
    exact ⟨this, by omega⟩
  · rintro ⟨hm, rfl⟩
    obtain ⟨h1, h2, h3, h4⟩ := (key m).1.mp hm
    have hx : ((a + m * k).toNat : Int) = a + m * k := by omega
    exact ⟨hk0, by rw [hx, h3], by omega, by rw [hx]; exact h4⟩

theorem sliceIndices_returns (n : Nat) (start stop step : Option Int) :
    (step ≠ some 0 → ∃ r, sliceIndices n start stop step = .ok r) ∧
    (step = some 0 → sliceIndices n start stop step = .error .valueError) := by
  constructor
  · intro h
    have : step.getD 1 ≠ 0 := by
      rcases step with _ | k
      · simp
      · simpa using h
    unfold sliceIndices
    simp only [if_neg this]
    exact ⟨_, rfl⟩
  · rintro rfl; rfl

theorem axisItem_iff {n : Nat} {i : Int} {p : Nat} :
    AxisItem n i p ↔ (0 ≤ (if i < 0 then i + n else i) ∧ (if i < 0 then i + n else i) < (n : Int)) ∧
      p = (if i < 0 then i + (n : Int) else i).toNat := by
  unfold AxisItem
  split <;> omega

theorem inB_append {s t i j : List Nat} (h1 : InB s i) (h2 : InB t j) : InB (s ++ t) (i ++ j) := by
  induction h1 with
  | nil => exact h2
  | cons h _ ih => exact .cons h ih

theorem inB_append_iff {s t i j : List Nat} (h : i.length = s.length) :
    InB (s ++ t) (i ++ j) ↔ InB s i ∧ InB t j := by
  induction s generalizing i with
  | nil =>
    obtain rfl : i = [] := by simpa using h
    exact ⟨fun h => ⟨.nil, h⟩, fun h => h.2⟩
  | cons n s ih =>
    cases i with
    | nil => simp at h
    | cons x i =>
      have hl : i.length = s.length := by simpa using h
      constructor
      · intro h
        cases h with
        | cons h1 h2 => exact ⟨.cons h1 ((ih hl).mp h2).1, ((ih hl).mp h2).2⟩
      · rintro ⟨h1, h2⟩
        cases h1 with
        | cons h3 h4 => exact .cons h3 ((ih hl).mpr ⟨h4, h2⟩)

theorem entries_uses {ks : List Sub} {s t : List Nat} {f : List Nat → List Nat}
    (h : Key.entries ks s = .ok (t, f)) : (ks.map Sub.uses).sum ≤ s.length := by
  induction ks generalizing s t f with
  | nil => simp
  | cons k ks ih =>
    cases k with
    | newaxis =>
      rw [Key.entries] at h
      rcases he : Key.entries ks s with e | ⟨t', f'⟩
      · rw [he] at h; cases h
      · simpa [Sub.uses] using ih he
    | ellipsis =>
      rw [Key.entries] at h
      rcases he : Key.entries ks (s.drop (s.length - (ks.map Sub.uses).sum)) with e | ⟨t', f'⟩
      · rw [he] at h; cases h
      · have := ih he
        rw [List.length_drop] at this
        simp only [List.map_cons, List.sum_cons, Sub.uses]
        omega
    | int x =>
      cases s with
      | nil => rw [Key.entries] at h; cases h
      | cons n s =>
        rw [Key.entries] at h
        by_cases hx : 0 ≤ (if x < 0 then x + (n : Int) else x) ∧ (if x < 0 then x + (n : Int) else x) < (n : Int)
        · rw [if_pos hx] at h
          rcases he : Key.entries ks s with e | ⟨t', f'⟩
          · rw [he] at h; cases h
          · have := ih he
            simp only [List.map_cons, List.sum_cons, Sub.uses, List.length_cons]
            omega
        · rw [if_neg hx] at h; cases h
    | slice a b c =>
      cases s with
      | nil => rw [Key.entries] at h; cases h
      | cons n s =>
        rw [Key.entries] at h
        rcases hs : sliceIndices n a b c with e | ⟨st, k, len⟩
        · rw [hs] at h; cases h
        · rw [hs] at h
          simp only at h
          rcases he : Key.entries ks s with e | ⟨t', f'⟩
          · rw [he] at h; cases h
          · have := ih he
            simp only [List.map_cons, List.sum_cons, Sub.uses, List.length_cons]
            omega

theorem entries_spec {ks : List Sub} {s t : List Nat} {f : List Nat → List Nat}
    (h : Key.entries ks s = .ok (t, f)) :
    (∀ i, InB t i → Picks ks s i (f i) ∧ InB s (f i)) ∧
    (∀ i j, Picks ks s i j → InB s j → InB t i ∧ f i = j) := by
  induction ks generalizing s t f with
  | nil =>
    cases h
    refine ⟨fun i hi => ⟨.nil, hi⟩, fun i j hp hj => ?_⟩
    cases hp
    exact ⟨hj, rfl⟩
  | cons k ks ih =>
    cases k with
    | newaxis =>
      rw [Key.entries] at h
      rcases he : Key.entries ks s with e | ⟨t', f'⟩
      · rw [he] at h; cases h
      · rw [he] at h; cases h
        obtain ⟨h1, h2⟩ := ih he
        constructor
        · intro i hi
          cases hi with
          | @cons x _ i' _ hx hi' =>
            obtain rfl : x = 0 := by omega
            exact ⟨.newaxis (h1 _ hi').1, (h1 _ hi').2⟩
        · intro i j hp hj
          cases hp with
          | newaxis hp => exact ⟨.cons (by omega) (h2 _ _ hp hj).1, (h2 _ _ hp hj).2⟩
    | ellipsis =>
      rw [Key.entries] at h
      generalize hn : s.length - (ks.map Sub.uses).sum = n at h
      rcases he : Key.entries ks (s.drop n) with e | ⟨t', f'⟩
      · rw [he] at h; cases h
      · rw [he] at h; cases h
        obtain ⟨h1, h2⟩ := ih he
        have hu := entries_uses he
        rw [List.length_drop] at hu
        have hle : n ≤ s.length := by omega
        have htl : (s.take n).length = n := by rw [List.length_take]; omega
        constructor
        · intro i hi
          have hil : i.length = n + t'.length := by
            rw [hi.length, List.length_append, htl]
          have hit : (i.take n).length = (s.take n).length := by rw [htl, List.length_take]; omega
          rw [← List.take_append_drop n i] at hi
          obtain ⟨g1, g2⟩ := (inB_append_iff hit).mp hi
          have := h1 _ g2
          refine ⟨?_, ?_⟩
          · have hp := Picks.ellipsis (s₀ := s.take n) (i₀ := i.take n) hit (by rw [List.length_drop]; omega) this.1
            rw [List.take_append_drop, List.take_append_drop] at hp
            exact hp
          · have := inB_append g1 this.2
            rw [List.take_append_drop] at this
            exact this
        · intro i j hp hj
          cases hp with
          | @ellipsis _ s₀ s₁ i₀ i₁ j₁ hl hs hp =>
            have hn' : n = s₀.length := by rw [← hn, List.length_append]; omega
            subst hn'
            rw [List.drop_left] at he
            have e0 : i₀.length = s₀.length := hl
            obtain ⟨g1, g2⟩ := (inB_append_iff e0).mp hj
            rw [List.drop_left] at h2
            obtain ⟨k1, k2⟩ := h2 _ _ hp g2
            refine ⟨?_, ?_⟩
            · rw [List.take_left]; exact inB_append g1 k1
            · show List.take _ _ ++ f' (List.drop _ _) = _
              rw [← e0, List.take_left, List.drop_left, k2]
    | int x =>
      cases s with
      | nil => rw [Key.entries] at h; cases h
      | cons n s =>
        rw [Key.entries] at h
        by_cases hx : 0 ≤ (if x < 0 then x + (n : Int) else x) ∧ (if x < 0 then x + (n : Int) else x) < (n : Int)
        · rw [if_pos hx] at h
          rcases he : Key.entries ks s with e | ⟨t', f'⟩
          · rw [he] at h; cases h
          · rw [he] at h; cases h
            obtain ⟨h1, h2⟩ := ih he
            constructor
            · intro i hi
              have hi' : AxisItem n x (if x < 0 then x + (n : Int) else x).toNat := axisItem_iff.mpr ⟨hx, rfl⟩
              exact ⟨.int hi' (h1 i hi).1, .cons hi'.1 (h1 i hi).2⟩
            · intro i j hp hj
              cases hp with
              | int hx' hp =>
                cases hj with
                | cons _ hj =>
                  obtain ⟨k1, k2⟩ := h2 _ _ hp hj
                  exact ⟨k1, by simp only; rw [k2, (axisItem_iff.mp hx').2]⟩
        · rw [if_neg hx] at h; cases h
    | slice a b c =>
      cases s with
      | nil => rw [Key.entries] at h; cases h
      | cons n s =>
        rw [Key.entries] at h
        rcases hs : sliceIndices n a b c with e | ⟨st, k, len⟩
        · rw [hs] at h; cases h
        · rw [hs] at h
          simp only at h
          obtain ⟨-, hsl⟩ := sliceIndices_spec hs
          rcases he : Key.entries ks s with e | ⟨t', f'⟩
          · rw [he] at h; cases h
          · rw [he] at h; cases h
            obtain ⟨h1, h2⟩ := ih he
            constructor
            · intro i hi
              cases hi with
              | @cons m _ i' _ hm hi' =>
                have hit := (hsl m _).mpr ⟨hm, rfl⟩
                exact ⟨.slice hit (h1 _ hi').1, .cons hit.2.2.1 (h1 _ hi').2⟩
            · intro i j hp hj
              cases hp with
              | slice hit hp =>
                cases hj with
                | cons _ hj =>
                  obtain ⟨k1, k2⟩ := h2 _ _ hp hj
                  obtain ⟨m1, m2⟩ := (hsl _ _).mp hit
                  exact ⟨.cons m1 k1, by simp only [List.headD_cons, List.tail_cons]; rw [k2, ← m2]⟩

theorem Picks.injective {ks : List Sub} {s i i' j : List Nat} (h : Picks ks s i j) (h' : Picks ks s i' j) :
    i = i' := by
  induction h generalizing i' with
  | nil => cases h'; rfl
  | newaxis _ ih => cases h' with | newaxis h' => rw [ih h']
  | int _ _ ih => cases h' with | int _ h' => exact ih h'
  | slice hs _ ih =>
    cases h' with
    | slice hs' h' =>
      rw [ih h']
      have e := hs.2.1.symm.trans hs'.2.1
      have : ∀ a b : Nat, ∀ k z : Int, k ≠ 0 → z + a * k = z + b * k → a = b := by
        intro a b k z hk he
        have : ((a : Int) - b) * k = 0 := by linarith
        rcases mul_eq_zero.mp this with h | h
        · omega
        · exact absurd h hk
      rw [this _ _ _ _ hs.1 e]
  | @ellipsis ks s₀ s i₀ i j hl hs _ ih =>
    generalize hS : s₀ ++ s = S at h'
    generalize hJ : i₀ ++ j = J at h'
    cases h' with
    | @ellipsis _ s₀' s' i₀' i'' j' hl' hs' h' =>
      have hlen : s₀.length = s₀'.length := by
        have := congrArg List.length hS
        simp only [List.length_append] at this
        omega
      obtain ⟨rfl, rfl⟩ := List.append_inj hS hlen
      obtain ⟨rfl, rfl⟩ := List.append_inj hJ (by omega)
      rw [ih h']

theorem basic_entries {ks : List Sub} {s t : List Nat} {f : List Nat → List Nat}
    (h : Key.basic ks s = .ok (t, f)) : Key.entries ks s = .ok (t, f) := by
  unfold Key.basic at h
  split at h
  · cases h
  · exact h

theorem Key.basic_basic (ks : List Sub) : (Key.basic ks).Basic := by
  constructor
  · intro s t f h i hi
    exact ((entries_spec (basic_entries h)).1 i hi).2
  · intro s t f h i j hi hj hij
    have := (entries_spec (basic_entries h)).1
    have h1 := (this i hi).1
    have h2 := (this j hj).1
    rw [hij] at h1
    exact h1.injective h2

theorem entries_fits {ks : List Sub} {s : List Nat} (hc : ks.count .ellipsis ≤ 1) :
    (∃ r, Key.entries ks s = .ok r) ↔ Fits ks s := by
  induction ks generalizing s with
  | nil => exact ⟨fun _ => .nil, fun _ => ⟨_, rfl⟩⟩
  | cons k ks ih =>
    have hc' : ks.count .ellipsis ≤ 1 := le_trans (List.count_le_count_cons) hc
    cases k with
    | newaxis =>
      rw [Key.entries]
      constructor
      · rintro ⟨r, h⟩
        rcases he : Key.entries ks s with e | ⟨t', f'⟩
        · rw [he] at h; cases h
        · exact .newaxis ((ih hc').mp ⟨_, he⟩)
      · intro h
        cases h with
        | newaxis h =>
          obtain ⟨⟨t, f⟩, hr⟩ := (ih hc').mpr h
          rw [hr]; exact ⟨_, rfl⟩
    | ellipsis =>
      have hnot : Sub.ellipsis ∉ ks := by
        rw [← List.count_eq_zero]
        rw [List.count_cons_self] at hc
        omega
      rw [Key.entries]
      constructor
      · rintro ⟨r, h⟩
        rcases he : Key.entries ks (s.drop (s.length - (ks.map Sub.uses).sum)) with e | ⟨t', f'⟩
        · rw [he] at h; cases h
        · have hu := entries_uses he
          have hf := (ih hc').mp ⟨_, he⟩
          rw [List.length_drop] at hu
          have := Fits.ellipsis (s₀ := s.take (s.length - (ks.map Sub.uses).sum)) hnot
            (by rw [List.length_drop]; omega) hf
          rw [List.take_append_drop] at this
          exact this
      · intro h
        cases h with
        | @ellipsis _ s₀ s₁ _ hs hf =>
          have : (s₀ ++ s₁).length - (ks.map Sub.uses).sum = s₀.length := by rw [List.length_append]; omega
          rw [this, List.drop_left]
          obtain ⟨⟨t, f⟩, hr⟩ := (ih hc').mpr hf
          rw [hr]; exact ⟨_, rfl⟩
    | int x =>
      constructor
      · rintro ⟨r, h⟩
        cases s with
        | nil => rw [Key.entries] at h; cases h
        | cons n s =>
          rw [Key.entries] at h
          by_cases hx : 0 ≤ (if x < 0 then x + (n : Int) else x) ∧ (if x < 0 then x + (n : Int) else x) < (n : Int)
          · rw [if_pos hx] at h
            rcases he : Key.entries ks s with e | ⟨t', f'⟩
            · rw [he] at h; cases h
            · exact .int (axisItem_iff.mpr ⟨hx, rfl⟩) ((ih hc').mp ⟨_, he⟩)
          · rw [if_neg hx] at h; cases h
      · intro h
        cases h with
        | int hx hf =>
          obtain ⟨⟨t, f⟩, hr⟩ := (ih hc').mpr hf
          rw [Key.entries]
          rw [if_pos (axisItem_iff.mp hx).1, hr]
          exact ⟨_, rfl⟩
    | slice a b c =>
      constructor
      · rintro ⟨r, h⟩
        cases s with
        | nil => rw [Key.entries] at h; cases h
        | cons n s =>
          rw [Key.entries] at h
          rcases hs : sliceIndices n a b c with e | ⟨st, k, len⟩
          · rw [hs] at h; cases h
          · rw [hs] at h
            simp only at h
            rcases he : Key.entries ks s with e | ⟨t', f'⟩
            · rw [he] at h; cases h
            · refine .slice ?_ ((ih hc').mp ⟨_, he⟩)
              intro h0
              rw [(sliceIndices_returns n a b c).2 h0] at hs; cases hs
      · intro h
        cases h with
        | @slice _ _ n _ _ _ hc0 hf =>
          obtain ⟨⟨t, f⟩, hr⟩ := (ih hc').mpr hf
          obtain ⟨⟨x, y, z⟩, hs⟩ := (sliceIndices_returns n a b c).1 hc0
          rw [Key.entries, hs]
          simp only [hr]
          exact ⟨_, rfl⟩

theorem fits_uses {ks : List Sub} {s : List Nat} (h : Fits ks s) :
    (ks.map Sub.uses).sum ≤ s.length ∧ ks.count .ellipsis ≤ 1 := by
  induction h with
  | nil => simp
  | newaxis _ ih => simpa [Sub.uses, List.count_cons] using ih
  | int _ _ ih => simp only [List.map_cons, List.sum_cons, Sub.uses, List.length_cons, List.count_cons]; simp; omega
  | slice _ _ ih => simp only [List.map_cons, List.sum_cons, Sub.uses, List.length_cons, List.count_cons]; simp; omega
  | ellipsis hn hs _ ih =>
    simp only [List.map_cons, List.sum_cons, Sub.uses, List.length_append, List.count_cons]
    rw [List.count_eq_zero.mpr hn]
    simp
    omega

theorem basic_fits (ks : List Sub) (s : List Nat) : Returns (Key.basic ks s) ↔ Fits ks s := by
  unfold Key.basic
  constructor
  · rintro ⟨r, h⟩
    split at h
    · cases h
    · rename_i hn
      exact (entries_fits (by omega)).mp ⟨r, h⟩
  · intro h
    have := fits_uses h
    rw [if_neg (by omega)]
    exact (entries_fits this.2).mpr h

theorem Key.positions_sound (p : NDArr Int) : (Key.positions p).Sound := by
  intro s s' f h i hi
  cases s with
  | nil => cases h
  | cons n t =>
    unfold Key.positions at h
    simp only at h
    split at h
    · rename_i ha
      cases h
      have hil : i.length = p.shape.length + t.length := by rw [hi.length, List.length_append]
      have hit : (i.take p.shape.length).length = p.shape.length := by rw [List.length_take]; omega
      rw [← List.take_append_drop p.shape.length i] at hi
      obtain ⟨g1, g2⟩ := (inB_append_iff hit).mp hi
      have hm : p.elem (i.take p.shape.length) ∈ p.toList := mem_toList.mpr ⟨_, g1, rfl⟩
      have := List.all_eq_true.mp ha _ hm
      simp only [decide_eq_true_eq] at this
      refine .cons ?_ g2
      unfold wrapPos
      split <;> omega
    · cases h

theorem Key.mask_sound (m : NDArr Bool) : (Key.mask m).Sound := by
  intro s s' f h i hi
  unfold Key.mask at h
  split at h
  · cases h
    cases hi with
    | @cons x _ _ _ hx h2 =>
      cases h2
      simp only [List.headD_cons]
      rw [List.getElem?_eq_getElem hx, Option.getD_some]
      exact mem_indices.mp (List.mem_filter.mp (List.getElem_mem hx)).1
  · cases h

theorem toList_flat {α : Type _} (n : Nat) (g : List Nat → α) :
    (⟨[n], g⟩ : NDArr α).toList = (List.range n).map (fun k => g [k]) := by
  unfold toList
  rw [indices_one, List.map_map]; rfl

theorem mask_toList {α : Type _} (l : List (List Nat)) (g : List Nat → α) :
    (⟨[l.length], fun i => g ((l[i.headD 0]?).getD [])⟩ : NDArr α).toList = l.map g := by
  rw [toList_flat]
  apply List.ext_getElem
  · simp
  · intro k h1 h2
    simp only [List.length_map, List.length_range] at h1
    simp [h1]

end PQ
