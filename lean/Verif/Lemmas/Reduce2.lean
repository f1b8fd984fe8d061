import Verif.Lemmas.Reduce

/-! # Lemmas about products, clipping and searching -/

namespace PQ.NDArr

open LawfulRPow

theorem indices_length (s : List Nat) : (indices s).length = s.prod := by
  have := toList_length (⟨s, fun _ => ()⟩ : NDArr Unit)
  simpa [toList, size] using this

theorem pick_true_replicate (s : List Nat) :
    pick true (List.replicate s.length true) s = s := by
  induction s with
  | nil => rfl
  | cons n s ih => simp [List.replicate_succ, pick, ih]

theorem pick_false_replicate (s : List Nat) : pick false (List.replicate s.length true) s = [] := by
  induction s with
  | nil => rfl
  | cons n s ih => simp [List.replicate_succ, pick, ih]

theorem pick_const_false (s : List Nat) (b : List Bool) (hb : ∀ x ∈ b, x = false) :
    pick true b s = [] := by
  induction s generalizing b with
  | nil => cases b <;> rfl
  | cons n s ih =>
    cases b with
    | nil => rfl
    | cons m b =>
      have h1 := hb m (by simp)
      subst h1
      simp only [pick]
      exact ih b (fun x hx => hb x (by simp [hx]))

theorem pick_true_onehot {s : List Nat} {n : Nat} (h : n < s.length) :
    pick true ((List.range s.length).map (fun j => decide (j = n))) s = [s.getD n 0] := by
  induction s generalizing n with
  | nil => simp at h
  | cons m s ih =>
    rw [List.length_cons, List.range_succ_eq_map, List.map_cons, List.map_map]
    cases n with
    | zero =>
      simp only [pick, decide_true, if_true]
      rw [pick_const_false]
      · simp
      · intro x hx
        obtain ⟨y, _, rfl⟩ := List.mem_map.1 hx
        simp
    | succ n =>
      have e : ((fun j => decide (j = n + 1)) ∘ Nat.succ) = (fun j => decide (j = n)) := by
        funext j; simp
      rw [e]
      have : ¬ (decide (0 = n + 1) = true) := by simp
      simp only [pick]
      rw [if_neg this, ih (by simpa using h)]
      simp

section
variable {K : Type _} [Field K]

theorem lprod_map (c : K) (l : List K) :
    (l.map (fun x => x * c)).prod = l.prod * c ^ l.length := by
  induction l with
  | nil => simp
  | cons x l ih => simp only [List.map_cons, List.prod_cons, ih, List.length_cons]; ring

theorem reduceMask_prod (c : K) (m : List Bool) (a : NDArr K) :
    reduceMask List.prod m (a.map (fun x => x * c)) =
      (reduceMask List.prod m a).map (fun x => x * c ^ (pick true m a.shape).prod) := by
  unfold reduceMask map
  simp only [NDArr.mk.injEq, true_and]
  funext i
  have := lprod_map c ((indices (pick true m a.shape)).map (fun r => a.elem (merge m i r)))
  rw [List.map_map, List.length_map, indices_length] at this
  exact this
end

/-! ### normalised axes -/

theorem normAxis_ok {nd : Nat} {ax : Int} {n : Nat} :
    normAxis nd ax = .ok n ↔ n < nd ∧ (ax = n ∨ ax = (n : Int) - nd) := by
  unfold normAxis
  split
  · rename_i h
    simp only [Except.ok.injEq]
    constructor
    · rintro rfl; omega
    · rintro ⟨h1, h2⟩; omega
  · split
    · simp only [Except.ok.injEq]
      constructor
      · rintro rfl; omega
      · rintro ⟨h1, h2⟩; omega
    · simp only [reduceCtorEq, false_iff]
      rintro ⟨h1, h2⟩; omega

theorem normAxis_error {nd : Nat} {ax : Int} {e : PyErr} (h : normAxis nd ax = .error e) :
    e = .valueError ∧ ¬ (-(nd : Int) ≤ ax ∧ ax < nd) := by
  unfold normAxis at h
  split at h
  · simp at h
  · split at h
    · simp at h
    · simp only [Except.error.injEq] at h
      exact ⟨h.symm, by omega⟩

/-! ### largest and smallest element -/

section
variable {K : Type _} [Zero K] [LinearOrder K]

omit [Zero K] in
theorem foldl_max_spec (l : List K) (x : K) :
    (l.foldl max x = x ∨ l.foldl max x ∈ l) ∧ x ≤ l.foldl max x ∧ ∀ y ∈ l, y ≤ l.foldl max x := by
  induction l generalizing x with
  | nil => simp
  | cons z l ih =>
    obtain ⟨h1, h2, h3⟩ := ih (max x z)
    simp only [List.foldl_cons]
    refine ⟨?_, le_trans (le_max_left _ _) h2, ?_⟩
    · rcases h1 with h1 | h1
      · rw [h1]
        rcases max_choice x z with h | h
        · exact Or.inl h
        · exact Or.inr (by rw [h]; simp)
      · exact Or.inr (List.mem_cons_of_mem _ h1)
    · intro y hy
      rcases List.mem_cons.1 hy with rfl | hy
      · exact le_trans (le_max_right _ _) h2
      · exact h3 y hy

omit [Zero K] in
theorem foldl_min_spec (l : List K) (x : K) :
    (l.foldl min x = x ∨ l.foldl min x ∈ l) ∧ l.foldl min x ≤ x ∧ ∀ y ∈ l, l.foldl min x ≤ y := by
  induction l generalizing x with
  | nil => simp
  | cons z l ih =>
    obtain ⟨h1, h2, h3⟩ := ih (min x z)
    simp only [List.foldl_cons]
    refine ⟨?_, le_trans h2 (min_le_left _ _), ?_⟩
    · rcases h1 with h1 | h1
      · rw [h1]
        rcases min_choice x z with h | h
        · exact Or.inl h
        · exact Or.inr (by rw [h]; simp)
      · exact Or.inr (List.mem_cons_of_mem _ h1)
    · intro y hy
      rcases List.mem_cons.1 hy with rfl | hy
      · exact le_trans h2 (min_le_right _ _)
      · exact h3 y hy

/-- `lmax` is the largest element. -/
theorem lmax_spec {l : List K} (h : l ≠ []) : lmax l ∈ l ∧ ∀ y ∈ l, y ≤ lmax l := by
  cases l with
  | nil => exact absurd rfl h
  | cons x l =>
    obtain ⟨h1, h2, h3⟩ := foldl_max_spec l x
    refine ⟨?_, ?_⟩
    · rcases h1 with h1 | h1
      · simp [lmax, h1]
      · exact List.mem_cons_of_mem _ h1
    · intro y hy
      rcases List.mem_cons.1 hy with rfl | hy
      · exact h2
      · exact h3 y hy

/-- `lmin` is the smallest element. -/
theorem lmin_spec {l : List K} (h : l ≠ []) : lmin l ∈ l ∧ ∀ y ∈ l, lmin l ≤ y := by
  cases l with
  | nil => exact absurd rfl h
  | cons x l =>
    obtain ⟨h1, h2, h3⟩ := foldl_min_spec l x
    refine ⟨?_, ?_⟩
    · rcases h1 with h1 | h1
      · simp [lmin, h1]
      · exact List.mem_cons_of_mem _ h1
    · intro y hy
      rcases List.mem_cons.1 hy with rfl | hy
      · exact h2
      · exact h3 y hy

end

/-! ### binary search -/

/-- On an array where everything that goes before the key precedes everything that does not, the
search finds the boundary. -/
theorem bsearch_spec {K : Type _} (before : K → Bool) (l : Array K) (k : Nat)
    (hk : ∀ j x, l[j]? = some x → (before x = true ↔ j < k)) :
    ∀ (fuel lo hi : Nat), hi ≤ l.size → lo ≤ k → k ≤ hi → hi - lo ≤ fuel →
      bsearch before l fuel lo hi = k := by
  intro fuel
  induction fuel with
  | zero => intro lo hi _ h1 h2 h3; simp only [bsearch]; omega
  | succ fuel ih =>
    intro lo hi h0 h1 h2 h3
    simp only [bsearch]
    split
    · rename_i hlt
      have hm : (lo + hi) / 2 < l.size := by omega
      rcases hx : l[(lo + hi) / 2]? with _ | x
      · rw [Array.getElem?_eq_none_iff] at hx; omega
      · simp only
        have hb := hk _ _ hx
        split
        · rename_i hbt
          have := hb.1 hbt
          exact ih _ _ h0 (by omega) h2 (by omega)
        · rename_i hbt
          have : ¬ ((lo + hi) / 2 < k) := fun h => hbt (hb.2 h)
          exact ih _ _ (by omega) h1 (by omega) (by omega)
    · omega

theorem bsearch_map {K : Type _} {f g : K → Bool} {m : K → K} (h : ∀ x, g (m x) = f x)
    (l : Array K) : ∀ fuel lo hi, bsearch g (l.map m) fuel lo hi = bsearch f l fuel lo hi := by
  intro fuel
  induction fuel with
  | zero => intro lo hi; rfl
  | succ fuel ih =>
    intro lo hi
    simp only [bsearch, Array.getElem?_map]
    split
    · rcases l[(lo + hi) / 2]? with _ | x
      · rfl
      · simp only [Option.map_some, h, ih]
    · rfl

theorem searchsorted_map {K : Type _} [LinearOrder K] {g : K → K} (hlt : ∀ x y, g x < g y ↔ x < y)
    (right : Bool) (a v : NDArr K) :
    (a.map g).searchsorted right (v.map g) = a.searchsorted right v := by
  have hle : ∀ x y, g x ≤ g y ↔ x ≤ y := fun x y => by
    rw [← not_lt, ← not_lt, hlt]
  unfold searchsorted
  rw [show (a.map g).shape = a.shape from rfl]
  split
  · rename_i n hs
    simp only [map, Except.ok.injEq, NDArr.mk.injEq, true_and]
    funext i
    have := bsearch_map (f := fun x => if right then decide (x ≤ v.elem i) else decide (x < v.elem i))
      (g := fun x => if right then decide (x ≤ g (v.elem i)) else decide (x < g (v.elem i))) (m := g)
      (fun x => by simp only [hlt, hle])
      ((List.range n).map (fun j => a.elem [j])).toArray n 0 n
    rw [← this]
    simp
    rfl
  · rfl

/-- In a sorted list the number of elements that go before the key is the boundary. -/
theorem countP_boundary {K : Type _} (before : K → Bool) (l : List K)
    (hmono : ∀ (i j : Nat) (x y : K), i ≤ j → l[i]? = some x → l[j]? = some y → before y = true → before x = true) :
    ∀ (j : Nat) x, l[j]? = some x → (before x = true ↔ j < l.countP before) := by
  induction l with
  | nil => intro j x h; simp at h
  | cons a l ih =>
    have hm' : ∀ (i j : Nat) (x y : K), i ≤ j → l[i]? = some x → l[j]? = some y → before y = true → before x = true := by
      intro i j x y hij hx hy hb
      exact hmono (i+1) (j+1) x y (by omega) (by simpa using hx) (by simpa using hy) hb
    intro j x hj
    by_cases ha : before a = true
    · rw [List.countP_cons_of_pos ha]
      cases j with
      | zero => simp only [List.getElem?_cons_zero, Option.some.injEq] at hj; subst hj; simp [ha]
      | succ j => rw [ih hm' j x (by simpa using hj)]; omega
    · rw [List.countP_cons_of_neg (by simpa using ha)]
      have hall : ∀ y ∈ l, ¬ before y = true := by
        intro y hy hb
        obtain ⟨k, hk⟩ := List.getElem?_of_mem hy
        exact ha (hmono 0 (k+1) a y (by omega) (by simp) (by simpa using hk) hb)
      have h0 : l.countP before = 0 := by
        rw [List.countP_eq_zero]; exact hall
      rw [h0]
      simp only [Nat.not_lt_zero, iff_false]
      cases j with
      | zero => simp only [List.getElem?_cons_zero, Option.some.injEq] at hj; subst hj; exact ha
      | succ j => exact hall x (List.mem_of_getElem? (by simpa using hj))

/-! ### clip -/

theorem clip_map {K : Type _} [LinearOrder K] {g : K → K} (hmax : ∀ x y, g (max x y) = max (g x) (g y))
    (hmin : ∀ x y, g (min x y) = min (g x) (g y)) (a : NDArr K) (lo hi : Option (NDArr K)) :
    (a.map g).clip (lo.map (fun b => b.map g)) (hi.map (fun b => b.map g)) =
      (a.clip lo hi).map (fun r => r.map g) := by
  have hb : ∀ (f : K → K → K), (∀ x y, g (f x y) = f (g x) (g y)) → ∀ a b : NDArr K,
      bin f (a.map g) (b.map g) = (bin f a b).map (fun r => r.map g) := by
    intro f hf a b
    unfold bin map
    simp only
    rcases bshape a.shape b.shape with _ | s
    · rfl
    · simp only [Except.map, hf]
  have key : ∀ m : NDArr K,
      (match hi.map (fun b => b.map g) with | none => .ok (m.map g) | some h => bin min (m.map g) h) =
      Except.map (fun r => r.map g) (match hi with | none => .ok m | some h => bin min m h : Py (NDArr K)) := by
    intro m
    cases hi with
    | none => rfl
    | some h => exact hb min hmin m h
  unfold clip
  cases lo with
  | none => simp only [Option.map_none]; exact key a
  | some l =>
    simp only [Option.map_some, hb max hmax]
    rcases bin max a l with e | m
    · rfl
    · exact key m

end PQ.NDArr
