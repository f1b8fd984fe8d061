import Verif.Lemmas.Along
import Verif.Lemmas.Heap
import Verif.Lemmas.Reduce2
import Verif.Lemmas.Programs

/-! # Lemmas about running totals and diagonals -/

namespace PQ.NDArr

theorem flags_one (nd n : Nat) : flags nd [n] = (List.range nd).map (fun j => decide (j = n)) := by
  simp [flags]

theorem without_one {s : List Nat} {n : Nat} (h : n < s.length) : without [n] s = s.eraseIdx n := by
  rw [← pick_flags rfl, flags_one, pick_false_onehot h]

theorem inB_eraseIdx {s i : List Nat} (h : InB s i) (n : Nat) : InB (s.eraseIdx n) (i.eraseIdx n) := by
  induction h generalizing n with
  | nil => exact .nil
  | cons h1 h2 ih =>
    cases n with
    | zero => exact h2
    | succ n => exact .cons h1 (ih n)

/-- The places of a line, in order. -/
theorem line_places {s i : List Nat} {n : Nat} (hn : n < s.length) (hi : InB s i) :
    (indices s).filter (fun j => without [n] j = without [n] i) = (List.range s[n]).map (fun x => i.set n x) := by
  have hli : n < i.length := by rw [hi.length]; exact hn
  have h1 := (reduceMask_over (fun l : List (List Nat) => l) [n] (⟨s, fun j => j⟩ : NDArr (List Nat))).elem
    (i.eraseIdx n) (by rw [(reduceMask_over _ _ _).shape, without_one hn]; exact inB_eraseIdx hi n)
  have h2 := (reduceMask_one (fun l : List (List Nat) => l) (a := (⟨s, fun j => j⟩ : NDArr (List Nat))) hn).2
    (i.eraseIdx n) (inB_eraseIdx hi n)
  rw [flags_one] at h1
  rw [h1] at h2
  rw [over] at h2
  rw [without_one hli]
  simp only [List.map_id'] at h2
  rw [h2]
  apply List.map_congr_left
  intro x _
  rw [List.insertIdx_eraseIdx_self (by omega)]

theorem range_filter_le (n k : Nat) (h : k < n) : (List.range n).filter (fun j => j ≤ k) = List.range (k + 1) := by
  induction n with
  | zero => omega
  | succ n ih =>
    rw [List.range_succ, List.filter_append]
    by_cases hk : k = n
    · subst hk
      rw [List.range_succ]
      congr 1
      · rw [List.filter_eq_self]; intro a ha; have := List.mem_range.mp ha; simpa using this.le
      · simp
    · rw [ih (by omega), List.filter_eq_nil_iff.mpr, List.append_nil]
      intro a ha
      simp only [List.mem_singleton] at ha
      subst ha
      simp; omega

theorem upTo_eq {α : Type _} {a : NDArr α} {n : Nat} {i : List Nat} (hn : n < a.shape.length)
    (hi : InB a.shape i) :
    upTo a n i = (List.range (i.getD n 0 + 1)).map (fun x => a.elem (i.set n x)) := by
  have hli : n < i.length := by rw [hi.length]; exact hn
  have hlt : i.getD n 0 < a.shape[n] := by
    have := List.forall₂_iff_get.mp hi
    have h2 := this.2 n hli hn
    simpa [List.getD_eq_getElem?_getD, List.getElem?_eq_getElem hli] using h2
  unfold upTo
  have : (fun j : List Nat => decide (without [n] j = without [n] i ∧ j.getD n 0 ≤ i.getD n 0)) =
      (fun j => decide (j.getD n 0 ≤ i.getD n 0) && decide (without [n] j = without [n] i)) := by
    funext j; rw [Bool.decide_and, Bool.and_comm]
  rw [this, ← List.filter_filter, line_places hn hi, List.filter_map, List.map_map]
  have h3 : ((fun j : List Nat => decide (j.getD n 0 ≤ i.getD n 0)) ∘ fun x => i.set n x) =
      fun x => decide (x ≤ i.getD n 0) := by
    funext x
    simp [List.getD_eq_getElem?_getD, hli]
  rw [h3, range_filter_le _ _ hlt]
  rfl

theorem filter_rowMajor (s : List Nat) (k : Nat) :
    (indices s).filter (fun j => rowMajor s j ≤ k) = (indices s).take (k + 1) := by
  have key : ∀ (l : List (List Nat)) (m : Nat), (∀ p j, l[p]? = some j → rowMajor s j = m + p) →
      l.filter (fun j => rowMajor s j ≤ k) = l.take (k + 1 - m) := by
    intro l
    induction l with
    | nil => intro m _; simp
    | cons x l ih =>
      intro m hm
      have h0 := hm 0 x rfl
      have ht := ih (m + 1) (fun p j h => by rw [hm (p + 1) j (by simpa using h)]; omega)
      rw [List.filter_cons]
      by_cases hx : rowMajor s x ≤ k
      · rw [if_pos (by simpa using hx), ht]
        have : k + 1 - m = (k + 1 - (m + 1)) + 1 := by omega
        rw [this, List.take_succ_cons]
      · rw [if_neg (by simpa using hx), ht]
        have e1 : k + 1 - m = 0 := by omega
        have e2 : k + 1 - (m + 1) = 0 := by omega
        rw [e1, e2]; simp
  have := key (indices s) 0 (fun p j h => by rw [(rowMajor_of_getElem? h).2]; omega)
  simpa using this

theorem upToNumber_eq {α : Type _} (a : NDArr α) (k : Nat) : upToNumber a k = a.toList.take (k + 1) := by
  unfold upToNumber toList
  rw [filter_rowMajor, List.map_take]

/-! ## Diagonals -/

theorem merge_nth {m : List Bool} {s i : List Nat} (hl : m.length = s.length) (hi : InB (pick false m s) i)
    {r : List Nat} (hr : InB (pick true m s) r) : pick true m (merge m i r) = r := by
  induction m generalizing s i r with
  | nil =>
    cases s with
    | nil => cases hr; rfl
    | cons => simp at hl
  | cons b m ih =>
    cases s with
    | nil => simp at hl
    | cons n s =>
      have hl' : m.length = s.length := by simpa using hl
      cases b with
      | true =>
        simp only [pick, Bool.true_eq_false, if_false, if_true] at hi hr
        cases hr with
        | cons h1 h2 => simp only [merge, pick, if_true]; rw [ih hl' hi h2]
      | false =>
        simp only [pick, if_true, Bool.false_eq_true, if_false] at hi hr
        cases hi with
        | cons h1 h2 => simp only [merge, pick, Bool.false_eq_true, if_false]; rw [ih hl' h2 hr]

theorem pick_true_flags (j : List Nat) (f : Nat → Bool) :
    pick true ((List.range j.length).map f) j =
      ((List.range j.length).filter f).map (fun k => j.getD k 0) := by
  induction j generalizing f with
  | nil => rfl
  | cons x j ih =>
    rw [List.length_cons, List.range_succ_eq_map, List.map_cons, List.map_map, List.filter_cons]
    have := ih (f ∘ Nat.succ)
    have tail : ((List.map Nat.succ (List.range j.length)).filter f).map
        (fun k => (x :: j).getD k 0) = pick true ((List.range j.length).map (f ∘ Nat.succ)) j := by
      rw [this, List.filter_map, List.map_map]
      rfl
    simp only [pick]
    rcases h0 : f 0 with _ | _
    · rw [if_neg (by simp), if_neg (by simp), tail]
    · rw [if_pos (by simp), if_pos (by simp), List.map_cons, tail]; rfl

theorem range_filter_one {nd a : Nat} (h : a < nd) : (List.range nd).filter (fun k => decide (k = a)) = [a] := by
  induction nd with
  | zero => omega
  | succ n ih =>
    rw [List.range_succ, List.filter_append]
    by_cases hn : n = a
    · subst hn
      rw [List.filter_eq_nil_iff.mpr]
      · simp
      · intro x hx; have := List.mem_range.mp hx; simp; omega
    · rw [ih (by omega)]; simp [hn]

theorem range_filter_two {nd a b : Nat} (hab : a < b) (hb : b < nd) :
    (List.range nd).filter (fun k => decide (k = a ∨ k = b)) = [a, b] := by
  induction nd with
  | zero => omega
  | succ n ih =>
    rw [List.range_succ, List.filter_append]
    by_cases hn : n = b
    · subst hn
      have : (List.range n).filter (fun k => decide (k = a ∨ k = n)) =
          (List.range n).filter (fun k => decide (k = a)) := by
        apply List.filter_congr
        intro k hk
        have := List.mem_range.mp hk
        have hne : k ≠ n := by omega
        simp [hne]
      rw [this, range_filter_one hab]; simp
    · rw [ih (by omega)]
      have h1 : n ≠ a := by omega
      simp [hn, h1]

/-- The mask of the two axes of a trace. -/
def two (nd n1 n2 : Nat) : List Bool := (List.range nd).map (fun j => decide (j = n1 ∨ j = n2))

theorem two_flags (nd n1 n2 : Nat) : two nd n1 n2 = flags nd [n1, n2] := by simp [two, flags]

theorem pick_two {nd n1 n2 : Nat} {j : List Nat} (hj : j.length = nd) (h : n1 < n2) (hn : n2 < nd) :
    pick true (two nd n1 n2) j = [j.getD n1 0, j.getD n2 0] := by
  subst hj
  rw [two, pick_true_flags, range_filter_two h hn]; rfl

theorem two_comm (nd n1 n2 : Nat) : two nd n1 n2 = two nd n2 n1 := by
  unfold two; congr 1; funext j; rw [decide_eq_decide]; exact Or.comm

theorem inB_two {r c : Nat} {p : List Nat} : InB [r, c] p ↔ ∃ x y, p = [x, y] ∧ x < r ∧ y < c := by
  constructor
  · intro h
    cases h with
    | cons h1 h2 =>
      cases h2 with
      | cons h3 h4 => cases h4; exact ⟨_, _, rfl, h1, h3⟩
  · rintro ⟨x, y, rfl, h1, h2⟩
    exact .cons h1 (.cons h2 .nil)

/-- The places of a diagonal of the plane of `n1 < n2`. -/
theorem diag_perm {s i : List Nat} {n1 n2 : Nat} (hlt : n1 < n2) (hn : n2 < s.length) (off : Int)
    (hi : InB (without [n1, n2] s) i) :
    ((indices s).filter (fun j => without [n1, n2] j = i ∧
      (j.getD n2 0 : Int) - (j.getD n1 0 : Int) = off)).Perm
    ((List.range (diagLen (s.getD n1 0) (s.getD n2 0) off)).map (fun k =>
      merge (two s.length n1 n2) i [k + (max (-off) 0).toNat, k + (max off 0).toNat])) := by
  have hl : (two s.length n1 n2).length = s.length := by simp [two]
  have hf : pick false (two s.length n1 n2) s = without [n1, n2] s := by
    rw [two_flags, pick_flags rfl]
  have hi' : InB (pick false (two s.length n1 n2) s) i := by rw [hf]; exact hi
  have ht : pick true (two s.length n1 n2) s = [s.getD n1 0, s.getD n2 0] := pick_two rfl hlt hn
  have hin : ∀ k, k < diagLen (s.getD n1 0) (s.getD n2 0) off →
      InB (pick true (two s.length n1 n2) s) [k + (max (-off) 0).toNat, k + (max off 0).toNat] := by
    intro k hk
    rw [ht, inB_two]
    refine ⟨_, _, rfl, ?_, ?_⟩ <;> (unfold diagLen at hk; omega)
  rw [List.perm_ext_iff_of_nodup ((indices_nodup s).filter _)]
  · intro j
    rw [List.mem_filter, mem_indices, List.mem_map]
    constructor
    · rintro ⟨hj, hc⟩
      have hc : without [n1, n2] j = i ∧ (j.getD n2 0 : Int) - (j.getD n1 0 : Int) = off := by simpa using hc
      have hmem : j ∈ (indices s).filter (fun j => pick false (two s.length n1 n2) j = i) := by
        rw [List.mem_filter, mem_indices]
        refine ⟨hj, ?_⟩
        rw [two_flags, pick_flags hj.length]; simpa using hc.1
      rw [← merge_places hl hi', List.mem_map] at hmem
      obtain ⟨r, hr, rfl⟩ := hmem
      rw [mem_indices] at hr
      have hp := merge_nth hl hi' hr
      have hr' := hr
      rw [ht, inB_two] at hr'
      obtain ⟨x, y, rfl, hx, hy⟩ := hr'
      rw [pick_two hj.length hlt hn] at hp
      injection hp with hp1 hp2
      injection hp2 with hp2 _
      rw [hp1, hp2] at hc
      have hc2 := hc.2
      refine ⟨x - (max (-off) 0).toNat, ?_, ?_⟩
      · rw [List.mem_range]; unfold diagLen; omega
      · congr 2
        · omega
        · congr 1; omega
    · rintro ⟨k, hk, rfl⟩
      rw [List.mem_range] at hk
      have hr := hin k hk
      have hj : InB s (merge (two s.length n1 n2) i [k + (max (-off) 0).toNat, k + (max off 0).toNat]) := by
        have : merge (two s.length n1 n2) i [k + (max (-off) 0).toNat, k + (max off 0).toNat] ∈
            (indices s).filter (fun j => pick false (two s.length n1 n2) j = i) := by
          rw [← merge_places hl hi']; exact List.mem_map_of_mem (mem_indices.mpr hr)
        exact mem_indices.mp (List.mem_filter.mp this).1
      refine ⟨hj, ?_⟩
      have hp := merge_nth hl hi' hr
      rw [pick_two hj.length hlt hn] at hp
      injection hp with hp1 hp2
      injection hp2 with hp2 _
      have hw : without [n1, n2] (merge (two s.length n1 n2) i
          [k + (max (-off) 0).toNat, k + (max off 0).toNat]) = i := by
        have : merge (two s.length n1 n2) i [k + (max (-off) 0).toNat, k + (max off 0).toNat] ∈
            (indices s).filter (fun j => pick false (two s.length n1 n2) j = i) := by
          rw [← merge_places hl hi']; exact List.mem_map_of_mem (mem_indices.mpr hr)
        have := (List.mem_filter.mp this).2
        rw [two_flags, pick_flags (by rw [← two_flags]; exact hj.length)] at this
        rw [two_flags]; simpa using this
      simp only [decide_eq_true_eq]
      refine ⟨hw, ?_⟩
      rw [hp1, hp2]; omega
  · apply List.Nodup.map_on _ List.nodup_range
    intro x hx y hy hxy
    have h1 := merge_nth hl hi' (hin x (List.mem_range.mp hx))
    have h2 := merge_nth hl hi' (hin y (List.mem_range.mp hy))
    rw [hxy, h2] at h1
    injection h1 with h1 _
    omega

theorem diagLen_swap (r c : Nat) (off : Int) : diagLen r c off = diagLen c r (-off) := by
  unfold diagLen; rw [min_comm]; simp

theorem without_swap (n1 n2 : Nat) (s : List Nat) : without [n1, n2] s = without [n2, n1] s := by
  unfold without; congr 1; apply List.filter_congr; intro k _
  rw [decide_eq_decide]; simp [or_comm, and_comm]

theorem trace_spec {K : Type _} [AddCommMonoid K] {offset axis1 axis2 : Int} {a r : NDArr K}
    (h : trace offset axis1 axis2 a = .ok r) :
    ∃ n1 n2, NamesAxis a.shape.length axis1 n1 ∧ NamesAxis a.shape.length axis2 n2 ∧ n1 ≠ n2 ∧
      r.shape = without [n1, n2] a.shape ∧
      ∀ i, InB r.shape i → r.elem i = (diagonal a n1 n2 offset i).sum := by
  unfold trace at h
  split at h
  · cases h
  rcases h1 : normAxis a.shape.length axis1 with e | n1
  · rw [h1] at h; cases h
  rcases h2 : normAxis a.shape.length axis2 with e | n2
  · rw [h1, h2] at h; cases h
  rw [h1, h2] at h
  simp only at h
  split at h
  · cases h
  rename_i hne
  cases h
  have a1 := normAxis_ok.mp h1
  have a2 := normAxis_ok.mp h2
  have hs : pick false (two a.shape.length n1 n2) a.shape = without [n1, n2] a.shape := by
    rw [two_flags, pick_flags rfl]
  refine ⟨n1, n2, a1, a2, hne, hs, ?_⟩
  intro i hi
  have hi : InB (without [n1, n2] a.shape) i := by rw [← hs]; exact hi
  simp only
  unfold diagonal
  rcases lt_or_gt_of_ne hne with hlt | hlt
  · rw [((diag_perm hlt a2.1 offset hi).map a.elem).sum_eq, List.map_map]
    simp only [if_pos hlt]; rfl
  · have hp := diag_perm hlt a1.1 (-offset) (by rw [without_swap]; exact hi)
    have hfil : (fun j : List Nat => decide (without [n1, n2] j = i ∧
          (j.getD n2 0 : Int) - (j.getD n1 0 : Int) = offset)) =
        (fun j => decide (without [n2, n1] j = i ∧ (j.getD n1 0 : Int) - (j.getD n2 0 : Int) = -offset)) := by
      funext j
      rw [without_swap, decide_eq_decide]
      refine and_congr_right fun _ => ?_
      constructor <;> intro h <;> omega
    rw [hfil, (hp.map a.elem).sum_eq, List.map_map, ← diagLen_swap]
    simp only [if_neg (show ¬ n1 < n2 by omega), neg_neg]
    rw [two_comm]; rfl

theorem trace_returns {K : Type _} [AddCommMonoid K] (offset axis1 axis2 : Int) (a : NDArr K) :
    (Returns (trace offset axis1 axis2 a) ↔
      ∃ n1 n2, NamesAxis a.shape.length axis1 n1 ∧ NamesAxis a.shape.length axis2 n2 ∧ n1 ≠ n2) ∧
    (∀ e, trace offset axis1 axis2 a = .error e → e = .valueError) := by
  constructor
  · constructor
    · rintro ⟨r, hr⟩
      obtain ⟨n1, n2, a1, a2, hne, -⟩ := trace_spec hr
      exact ⟨n1, n2, a1, a2, hne⟩
    · rintro ⟨n1, n2, a1, a2, hne⟩
      have l1 := a1.1
      have l2 := a2.1
      unfold trace
      rw [if_neg (by omega), normAxis_ok.mpr a1, normAxis_ok.mpr a2]
      simp only
      rw [if_neg hne]
      exact ⟨_, rfl⟩
  · intro e he
    unfold trace at he
    split at he
    · cases he; rfl
    · rcases h1 : normAxis a.shape.length axis1 with e1 | n1
      · rw [h1] at he; cases he; rfl
      · rcases h2 : normAxis a.shape.length axis2 with e2 | n2
        · rw [h1, h2] at he; cases he; rfl
        · rw [h1, h2] at he
          simp only at he
          split at he
          · cases he; rfl
          · cases he

end PQ.NDArr
