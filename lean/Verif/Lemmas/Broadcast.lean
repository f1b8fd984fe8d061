import Verif.Spec.Broadcast
import Verif.Lemmas.NDArr

/-! # Lemmas about broadcasting -/

namespace PQ.NDArr

theorem baxis_spec (m n : Nat) :
    (∀ k, baxis m n = some k → (m = n ∨ m = 1 ∨ n = 1) ∧ k = if m = 1 then n else m) ∧
    (m = n ∨ m = 1 ∨ n = 1 → (baxis m n).isSome) := by
  unfold baxis
  constructor
  · intro k hk
    split at hk
    · cases hk; rename_i h; subst h; exact ⟨Or.inl rfl, by split <;> rfl⟩
    · split at hk
      · cases hk; rename_i h; exact ⟨Or.inr (Or.inl h), by rw [if_pos h]⟩
      · split at hk
        · cases hk; rename_i h1 h; exact ⟨Or.inr (Or.inr h), by rw [if_neg h1]⟩
        · cases hk
  · intro h
    split
    · rfl
    · split
      · rfl
      · split
        · rfl
        · omega

theorem bshapeRev_spec {s t r : List Nat} (h : bshapeRev s t = some r) :
    r.length = max s.length t.length ∧ ∀ k : Nat,
      ((s[k]?).getD 1 = (t[k]?).getD 1 ∨ (s[k]?).getD 1 = 1 ∨ (t[k]?).getD 1 = 1) ∧
      (r[k]?).getD 1 = if (s[k]?).getD 1 = 1 then (t[k]?).getD 1 else (s[k]?).getD 1 := by
  induction s generalizing t r with
  | nil =>
    rw [bshapeRev] at h; cases h
    exact ⟨by simp, fun k => ⟨by simp, by simp⟩⟩
  | cons m s ih =>
    cases t with
    | nil =>
      rw [bshapeRev] at h
      · cases h
        refine ⟨by simp, fun k => ⟨by simp, ?_⟩⟩
        split
        · rename_i h; rw [h]; simp
        · rfl
      · simp
    | cons n t =>
      rw [bshapeRev] at h
      rcases hb : baxis m n with _ | k
      · simp [hb] at h
      · rcases hr : bshapeRev s t with _ | r'
        · simp [hb, hr] at h
        · simp only [hb, hr, Option.some.injEq] at h; subst h
          obtain ⟨h1, h2⟩ := ih hr
          refine ⟨by simp [h1], ?_⟩
          intro j
          cases j with
          | zero => simpa using (baxis_spec m n).1 k hb
          | succ j => simpa using h2 j

theorem bshapeRev_isSome {s t : List Nat}
    (h : ∀ k : Nat, (s[k]?).getD 1 = (t[k]?).getD 1 ∨ (s[k]?).getD 1 = 1 ∨ (t[k]?).getD 1 = 1) :
    ∃ r, bshapeRev s t = some r := by
  induction s generalizing t with
  | nil => exact ⟨t, by rw [bshapeRev]⟩
  | cons m s ih =>
    cases t with
    | nil => exact ⟨m :: s, by rw [bshapeRev]; simp⟩
    | cons n t =>
      obtain ⟨r, hr⟩ := ih (t := t) (fun k => by simpa using h (k + 1))
      have h0 := (baxis_spec m n).2 (by simpa using h 0)
      obtain ⟨k, hk⟩ := Option.isSome_iff_exists.mp h0
      exact ⟨k :: r, by simp [bshapeRev, hk, hr]⟩

theorem getD_ext {r r' : List Nat} (hl : r.length = r'.length)
    (h : ∀ k : Nat, (r[k]?).getD 1 = (r'[k]?).getD 1) : r = r' := by
  apply List.ext_getElem hl
  intro k h1 h2
  have := h k
  rwa [List.getElem?_eq_getElem h1, List.getElem?_eq_getElem h2] at this

theorem bshape_iff (s t r : List Nat) :
    bshape s t = some r ↔ Broadcastable s t ∧ BroadcastShape s t r := by
  unfold bshape Broadcastable BroadcastShape axisLen
  constructor
  · intro h
    rcases hr : bshapeRev s.reverse t.reverse with _ | r'
    · rw [hr] at h; cases h
    · rw [hr] at h; cases h
      obtain ⟨h1, h2⟩ := bshapeRev_spec hr
      refine ⟨fun k => (h2 k).1, by simpa using h1, fun k => ?_⟩
      rw [List.reverse_reverse]; exact (h2 k).2
  · rintro ⟨h, hl, hk⟩
    obtain ⟨r', hr⟩ := bshapeRev_isSome h
    obtain ⟨h1, h2⟩ := bshapeRev_spec hr
    rw [hr]
    show some r'.reverse = some r
    have : r' = r.reverse := by
      refine getD_ext (by simp [h1, hl]) ?_
      intro k; rw [(h2 k).2, hk k]
    rw [this, List.reverse_reverse]

theorem bshape_isSome_iff (s t : List Nat) : (bshape s t).isSome ↔ Broadcastable s t := by
  constructor
  · intro h
    obtain ⟨r, hr⟩ := Option.isSome_iff_exists.mp h
    exact ((bshape_iff s t r).mp hr).1
  · intro h
    obtain ⟨r, hr⟩ := bshapeRev_isSome h
    unfold bshape; rw [hr]; rfl

theorem under_bidx {s t r i : List Nat} (h : bshape s t = some r) (hi : InB r i) :
    Under s i (bidx s i) := by
  refine ⟨bidx_inb h hi, ?_⟩
  have hl : s.length ≤ i.length := by
    have h1 := ((bshape_iff s t r).mp h).2.1
    have h3 := List.Forall₂.length_eq hi
    omega
  intro k hk
  rw [bidx_reverse hl]
  unfold bidxRev axisLen
  rw [List.getElem?_zipWith]
  have e1 : s.reverse[k]? = some (s.reverse[k]'(by simpa using hk)) := List.getElem?_eq_getElem _
  have hki : k < i.reverse.length := by simp; omega
  have e2 : i.reverse[k]? = some (i.reverse[k]'hki) := List.getElem?_eq_getElem _
  rw [e1, e2]
  simp only [Option.getD_some]
  split <;> rfl

theorem Under.unique {s i j j' : List Nat} (h : Under s i j) (h' : Under s i j') : j = j' := by
  have l1 := List.Forall₂.length_eq h.1
  have l2 := List.Forall₂.length_eq h'.1
  have : j.reverse = j'.reverse := by
    apply List.ext_getElem?
    intro k
    by_cases hk : k < s.length
    · rw [h.2 k hk, h'.2 k hk]
    · rw [List.getElem?_eq_none (by simp; omega), List.getElem?_eq_none (by simp; omega)]
  exact List.reverse_inj.mp this

theorem bin_broadcast {α β γ : Type _} {f : α → β → γ} {x : NDArr α} {y : NDArr β} {r : NDArr γ}
    (h : bin f x y = .ok r) : BroadcastOf f x y r := by
  unfold bin at h
  rcases hs : bshape x.shape y.shape with _ | s
  · rw [hs] at h; cases h
  · rw [hs] at h; cases h
    obtain ⟨h1, h2⟩ := (bshape_iff _ _ _).mp hs
    refine ⟨h1, h2, ?_⟩
    intro i hi
    exact ⟨_, _, under_bidx hs hi, under_bidx (by rw [bshape_comm]; exact hs) hi, rfl⟩

/-- The specification determines the result. -/
theorem BroadcastOf.unique {α β γ : Type _} {f : α → β → γ} {x : NDArr α} {y : NDArr β} {r r' : NDArr γ}
    (h : BroadcastOf f x y r) (h' : BroadcastOf f x y r') : Same r r' := by
  have hs : r.shape = r'.shape := by
    have a := (bshape_iff _ _ _).mpr ⟨h.fits, h.shape⟩
    have b := (bshape_iff _ _ _).mpr ⟨h'.fits, h'.shape⟩
    rw [a] at b; exact Option.some.inj b
  refine ⟨hs, ?_⟩
  intro i hi
  obtain ⟨j, k, u1, u2, e⟩ := h.elem i hi
  obtain ⟨j', k', u1', u2', e'⟩ := h'.elem i (by rw [← hs]; exact hi)
  rw [e, e', u1.unique u1', u2.unique u2']

end PQ.NDArr
