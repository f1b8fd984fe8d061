import Verif.Spec.Positions
import Verif.Model.UncertainNan
import Verif.Lemmas.Reduce2
import Verif.Lemmas.NDArr
import Verif.Lemmas.Uncertain4
import Verif.Lemmas.Heap

namespace PQ
namespace NDArr

/-- The flags of one axis. -/
theorem onehot_zero (nd : Nat) :
    (List.range (nd + 1)).map (fun j => decide (j = 0)) = true :: List.replicate nd false := by
  rw [List.range_succ_eq_map, List.map_cons, List.map_map]
  congr 1
  rw [List.eq_replicate_iff]
  refine ⟨by simp, fun b hb => ?_⟩
  obtain ⟨x, _, rfl⟩ := List.mem_map.1 hb
  simp

theorem onehot_succ (nd n : Nat) :
    (List.range (nd + 1)).map (fun j => decide (j = n + 1)) =
      false :: (List.range nd).map (fun j => decide (j = n)) := by
  rw [List.range_succ_eq_map, List.map_cons, List.map_map]
  congr 1
  apply List.map_congr_left
  intro j _
  simp

theorem pick_false_const (s : List Nat) : pick false (List.replicate s.length false) s = s := by
  induction s with
  | nil => rfl
  | cons m s ih => simp only [List.length_cons, List.replicate_succ, pick, if_true, ih]

theorem pick_false_onehot {s : List Nat} {n : Nat} (h : n < s.length) :
    pick false ((List.range s.length).map (fun j => decide (j = n))) s = s.eraseIdx n := by
  induction s generalizing n with
  | nil => simp at h
  | cons m s ih =>
    rw [List.length_cons]
    cases n with
    | zero => rw [onehot_zero]; simp [pick, pick_false_const]
    | succ n =>
      rw [onehot_succ]
      simp only [pick, if_true, List.eraseIdx_cons_succ]
      rw [ih (by simpa using h)]

theorem merge_false (i r : List Nat) : merge (List.replicate i.length false) i r = i := by
  induction i with
  | nil => rfl
  | cons j i ih => simp only [List.length_cons, List.replicate_succ, merge, ih]

theorem merge_onehot {nd n j : Nat} {i : List Nat} (h : n < nd) (hi : i.length + 1 = nd) :
    merge ((List.range nd).map (fun j => decide (j = n))) i [j] = i.insertIdx n j := by
  induction n generalizing nd i with
  | zero =>
    subst hi
    rw [onehot_zero]
    simp only [merge, merge_false, List.insertIdx_zero]
  | succ n ih =>
    subst hi
    cases i with
    | nil => simp at h
    | cons k i =>
      rw [onehot_succ]
      simp only [merge, List.insertIdx_succ_cons]
      rw [ih (by simpa using h) (by simp)]

theorem indices_one (n : Nat) : indices [n] = (List.range n).map (fun j => [j]) := by
  simp only [indices, List.map_cons, List.map_nil]; exact List.flatMap_pure_eq_map _ _

theorem InB.length {s i : List Nat} (h : InB s i) : i.length = s.length := h.length_eq

/-- What a reduction over one axis computes: at every index of the remaining axes, the function of
the elements along the axis. -/
theorem reduceMask_one {α β : Type _} (f : List α → β) {a : NDArr α} {n : Nat} (h : n < a.shape.length) :
    (reduceMask f ((List.range a.shape.length).map (fun j => decide (j = n))) a).shape = a.shape.eraseIdx n ∧
    ∀ i, InB (a.shape.eraseIdx n) i →
      (reduceMask f ((List.range a.shape.length).map (fun j => decide (j = n))) a).elem i =
        f ((List.range a.shape[n]).map (fun j => a.elem (i.insertIdx n j))) := by
  refine ⟨pick_false_onehot h, fun i hi => ?_⟩
  have hl : i.length + 1 = a.shape.length := by
    rw [hi.length, List.length_eraseIdx, if_pos h]; omega
  simp only [reduceMask]
  rw [pick_true_onehot h, indices_one, List.map_map]
  have hg : a.shape.getD n 0 = a.shape[n] := by simp [List.getD, h]
  rw [hg]
  congr 1
  apply List.map_congr_left
  intro j _
  simp only [Function.comp]
  rw [merge_onehot h hl]

/-! ### the first best element of a list -/

theorem argbest_first {K : Type _} {lt : K → K → Bool}
    (htrans : ∀ x y z, lt x y = true → lt y z = true → lt x z = true)
    (hirr : ∀ x, lt x x = false)
    (hco : ∀ x y z, lt x y = false → lt x z = true → lt y z = true) {l : List K} (hl : l ≠ []) :
    ∃ x, l[argbest lt l]? = some x ∧ (∀ y ∈ l, lt x y = false) ∧
      ∀ j y, j < argbest lt l → l[j]? = some y → lt y x = true := by
  cases l with
  | nil => exact absurd rfl hl
  | cons a xs =>
    have key : ∀ (xs pre : List K) (s : Nat × Nat × K), s.1 = pre.length → pre[s.2.1]? = some s.2.2 →
        (∀ y ∈ pre, lt s.2.2 y = false) → (∀ j y, j < s.2.1 → pre[j]? = some y → lt y s.2.2 = true) →
        let s' := xs.foldl (fun (s : Nat × Nat × K) y =>
          if lt s.2.2 y then (s.1 + 1, s.1, y) else (s.1 + 1, s.2.1, s.2.2)) s
        (pre ++ xs)[s'.2.1]? = some s'.2.2 ∧ (∀ y ∈ pre ++ xs, lt s'.2.2 y = false) ∧
          ∀ j y, j < s'.2.1 → (pre ++ xs)[j]? = some y → lt y s'.2.2 = true := by
      intro xs
      induction xs with
      | nil => intro pre s h1 h2 h3 h4; simpa using ⟨h2, h3, h4⟩
      | cons b xs ih =>
        intro pre s h1 h2 h3 h4
        simp only [List.foldl_cons]
        rw [show pre ++ b :: xs = (pre ++ [b]) ++ xs by simp]
        by_cases hb : lt s.2.2 b = true
        · rw [if_pos hb]
          refine ih (pre ++ [b]) _ (by simp [h1]) (by simp [h1]) ?_ ?_
          · intro y hy
            rcases List.mem_append.1 hy with hy | hy
            · by_contra hc
              have hc' : lt b y = true := by simpa using hc
              have := htrans _ _ _ hb hc'
              rw [h3 y hy] at this; simp at this
            · simp only [List.mem_singleton] at hy; subst hy; exact hirr _
          · intro j y hj hy
            simp only [h1] at hj
            rw [List.getElem?_append_left hj] at hy
            exact hco _ _ _ (h3 y (List.mem_of_getElem? hy)) hb
        · rw [if_neg hb]
          have hlt : s.2.1 < pre.length := by
            by_contra hc
            rw [List.getElem?_eq_none (by omega)] at h2; simp at h2
          refine ih (pre ++ [b]) _ (by simp [h1]) ?_ ?_ ?_
          · rw [List.getElem?_append_left hlt]; exact h2
          · intro y hy
            rcases List.mem_append.1 hy with hy | hy
            · exact h3 y hy
            · simp only [List.mem_singleton] at hy; subst hy; simpa using hb
          · intro j y hj hy
            simp only at hj
            rw [List.getElem?_append_left (by omega)] at hy
            exact h4 j y hj hy
    have := key xs [a] (1, 0, a) rfl rfl (by simpa using hirr a) (by intro j y hj; simp at hj)
    exact ⟨_, this⟩

/-! ### row-major numbers -/

theorem rowMajor_lt {s i : List Nat} (h : InB s i) : rowMajor s i < s.prod := by
  induction s generalizing i with
  | nil => cases h; simp [rowMajor]
  | cons n s ih =>
    cases h with
    | cons h1 h2 =>
      rename_i j i
      have := ih h2
      simp only [rowMajor, List.prod_cons]
      calc j * s.prod + rowMajor s i < j * s.prod + s.prod := by omega
        _ = (j + 1) * s.prod := by ring
        _ ≤ n * s.prod := Nat.mul_le_mul_right _ h1

theorem flatMap_getElem? {α β : Type _} (f : α → List β) {c : Nat} (hf : ∀ a, (f a).length = c)
    (l : List α) (j k : Nat) (hk : k < c) :
    (l.flatMap f)[j * c + k]? = (l[j]?).bind (fun a => (f a)[k]?) := by
  induction l generalizing j with
  | nil => simp
  | cons a l ih =>
    rw [List.flatMap_cons]
    cases j with
    | zero =>
      rw [Nat.zero_mul, Nat.zero_add, List.getElem?_append_left (by rw [hf]; exact hk)]; rfl
    | succ j =>
      rw [List.getElem?_append_right (by rw [hf, Nat.succ_mul]; omega), hf,
        show (j + 1) * c + k - c = j * c + k by rw [Nat.succ_mul]; omega, ih]
      rfl

theorem indices_rowMajor {s i : List Nat} (h : InB s i) : (indices s)[rowMajor s i]? = some i := by
  induction s generalizing i with
  | nil => cases h; rfl
  | cons n s ih =>
    cases h with
    | cons h1 h2 =>
      rename_i j i
      simp only [indices, rowMajor]
      rw [flatMap_getElem? _ (c := s.prod) (fun a => by rw [List.length_map, indices_length]) _ _ _
        (rowMajor_lt h2)]
      rw [List.getElem?_range h1, Option.bind_some, List.getElem?_map, ih h2]
      rfl

theorem rowMajor_of_getElem? {s i : List Nat} {p : Nat} (h : (indices s)[p]? = some i) :
    InB s i ∧ rowMajor s i = p := by
  have hi : InB s i := mem_indices.1 (List.mem_of_getElem? h)
  refine ⟨hi, ?_⟩
  have h2 := indices_rowMajor hi
  have hp : p < (indices s).length := by
    by_contra hc; rw [List.getElem?_eq_none (by omega)] at h; simp at h
  have hr : rowMajor s i < (indices s).length := by rw [indices_length]; exact rowMajor_lt hi
  have hn : (indices s).Nodup := indices_nodup s
  rw [List.getElem?_eq_getElem hp] at h
  rw [List.getElem?_eq_getElem hr] at h2
  simp only [Option.some.injEq] at h h2
  exact hn.getElem_inj_iff.1 (h2.trans h.symm)

end NDArr
end PQ
