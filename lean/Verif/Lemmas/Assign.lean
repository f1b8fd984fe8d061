import Verif.Lemmas.Broadcast
import Verif.Model.Heap

/-!
# Assignment broadcasting
-/

namespace PQ.Heap
open NDArr

theorem dropOnes_spec (n : Nat) : ∀ s : List Nat,
    s = List.replicate (dropOnes n s) 1 ++ s.drop (dropOnes n s) ∧
    (n < (s.drop (dropOnes n s)).length → ∃ d t, s.drop (dropOnes n s) = d :: t ∧ d ≠ 1)
  | [] => by simp [dropOnes]
  | d :: t => by
    unfold dropOnes
    by_cases h : n ≤ t.length
    · rw [if_pos h]
      by_cases hd : d = 1
      · rw [if_pos hd]
        obtain ⟨h1, h2⟩ := dropOnes_spec n t
        refine ⟨?_, ?_⟩
        · rw [List.drop_succ_cons, List.replicate_succ, List.cons_append, ← h1, hd]
        · rw [List.drop_succ_cons]; exact h2
      · rw [if_neg hd]
        exact ⟨by simp, fun _ => ⟨d, t, by simp, hd⟩⟩
    · rw [if_neg h]
      refine ⟨by simp, fun hl => ?_⟩
      simp at hl
      omega

theorem axisLen_drop (n : Nat) (s : List Nat) (k : Nat) :
    axisLen (s.drop (dropOnes n s)) k = axisLen s k := by
  obtain ⟨h1, -⟩ := dropOnes_spec n s
  generalize dropOnes n s = m at h1
  generalize s.drop m = r at h1
  subst h1
  unfold axisLen
  rw [List.reverse_append, List.reverse_replicate]
  rcases Nat.lt_or_ge k r.reverse.length with h | h
  · rw [List.getElem?_append_left h]
  · rw [List.getElem?_append_right h, List.getElem?_eq_none h]
    rcases Nat.lt_or_ge (k - r.reverse.length) m with h' | h'
    · rw [List.getElem?_replicate, if_pos h']; rfl
    · rw [List.getElem?_eq_none (by simpa using h')]

theorem castTo_fits (t s : List Nat) :
    bshape (s.drop (dropOnes t.length s)) t = some t ↔ Assignable s t := by
  rw [bshape_iff]
  unfold BroadcastShape Broadcastable Assignable
  constructor
  · rintro ⟨-, -, h⟩ k
    have := h k
    rw [axisLen_drop] at this
    by_cases h1 : axisLen s k = 1
    · exact .inr h1
    · rw [if_neg h1] at this; exact .inl this.symm
  · intro h
    refine ⟨fun k => ?_, ?_, fun k => ?_⟩
    · rw [axisLen_drop]
      rcases h k with h | h
      · exact .inl h
      · exact .inr (.inl h)
    · obtain ⟨-, h2⟩ := dropOnes_spec t.length s
      by_contra hc
      have hl : t.length < (s.drop (dropOnes t.length s)).length := by omega
      obtain ⟨d, u, e, hd⟩ := h2 hl
      have hk := h u.length
      rw [← axisLen_drop t.length, e] at hk
      rw [e] at hl
      simp only [List.length_cons] at hl
      have a1 : axisLen (d :: u) u.length = d := by
        unfold axisLen
        rw [List.reverse_cons, List.getElem?_append_right (by simp)]
        simp
      have a2 : axisLen t u.length = 1 := by
        unfold axisLen
        rw [List.getElem?_eq_none (by simp; omega)]; rfl
      rw [a1, a2] at hk
      rcases hk with hk | hk <;> exact hd hk
    · rw [axisLen_drop]
      split
      · rfl
      · rcases h k with h | h
        · exact h.symm
        · contradiction

/-- Assignment broadcasting does what numpy's documentation says. -/
theorem castTo_spec {α : Type _} (t : List Nat) (x : NDArr α) :
    (Returns (castTo t x) ↔ Assignable x.shape t) ∧
    (∀ e, castTo t x = .error e → e = .valueError) ∧
    ∀ a, castTo t x = .ok a → AssignedTo t x a := by
  unfold castTo
  by_cases h : bshape (x.shape.drop (dropOnes t.length x.shape)) t = some t
  · have hf := (castTo_fits t x.shape).mp h
    simp only [if_pos h]
    refine ⟨⟨fun _ => hf, fun _ => ⟨_, rfl⟩⟩, fun e he => (by cases he), ?_⟩
    intro a ha
    cases ha
    refine ⟨hf, rfl, fun i hi => ⟨_, ?_, rfl⟩⟩
    have u1 := under_bidx h hi
    obtain ⟨h1, -⟩ := dropOnes_spec t.length x.shape
    have hx := axisLen_drop t.length x.shape
    generalize dropOnes t.length x.shape = m at *
    generalize x.shape.drop m = r at *
    rw [h1]
    have b := u1.1
    have c := u1.2
    refine ⟨?_, ?_⟩
    · show List.Forall₂ _ _ _
      refine List.rel_append ?_ b
      clear * -
      induction m with
      | zero => exact .nil
      | succ m ih => rw [List.replicate_succ, List.replicate_succ]; exact .cons (by simp) ih
    · intro k hk
      have hlen : (bidx r i).length = r.length := List.Forall₂.length_eq b
      rw [← h1, ← hx k, List.reverse_append, List.reverse_replicate]
      rcases Nat.lt_or_ge k r.length with hk' | hk'
      · rw [List.getElem?_append_left (by simpa [hlen] using hk')]
        exact c k hk'
      · rw [List.getElem?_append_right (by simpa [hlen] using hk')]
        have : axisLen r k = 1 := by
          unfold axisLen
          rw [List.getElem?_eq_none (by simpa using hk')]; rfl
        rw [if_pos this, List.getElem?_replicate, if_pos]
        simp only [List.length_append, List.length_replicate] at hk
        simp only [List.length_reverse, hlen]
        omega
  · have hf := fun hh => h ((castTo_fits t x.shape).mpr hh)
    simp only [if_neg h]
    refine ⟨⟨fun hr => ?_, fun hh => absurd hh hf⟩, fun e he => (by cases he; rfl), fun a ha => (by cases ha)⟩
    obtain ⟨_, hr⟩ := hr; cases hr

theorem AssignedTo.unique {α : Type _} {t : List Nat} {x a b : NDArr α} (ha : AssignedTo t x a)
    (hb : AssignedTo t x b) : NDArr.Same a b := by
  refine ⟨ha.shape.trans hb.shape.symm, fun i hi => ?_⟩
  obtain ⟨j, h1, e1⟩ := ha.elem i (ha.shape ▸ hi)
  obtain ⟨k, h2, e2⟩ := hb.elem i (ha.shape ▸ hi)
  rw [e1, e2, Under.unique h1 h2]

end PQ.Heap
