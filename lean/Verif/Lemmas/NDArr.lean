import Verif.Spec.Arrays
import Mathlib.Data.List.Basic

/-! # Lemmas about arrays -/

namespace PQ.NDArr

theorem Same.refl {α : Type _} (a : NDArr α) : Same a a := ⟨rfl, fun _ _ => rfl⟩

theorem Same.symm {α : Type _} {a b : NDArr α} (h : Same a b) : Same b a :=
  ⟨h.1.symm, fun i hi => (h.2 i (h.1 ▸ hi)).symm⟩

theorem Same.trans {α : Type _} {a b c : NDArr α} (h : Same a b) (h' : Same b c) : Same a c :=
  ⟨h.1.trans h'.1, fun i hi => (h.2 i hi).trans (h'.2 i (h.1 ▸ hi))⟩

theorem mem_indices {s i : List Nat} : i ∈ indices s ↔ InB s i := by
  induction s generalizing i with
  | nil => simp [indices, InB]
  | cons n s ih =>
    simp only [indices, List.mem_flatMap, List.mem_range, List.mem_map, InB]
    constructor
    · rintro ⟨j, hj, r, hr, rfl⟩
      exact List.Forall₂.cons hj (ih.1 hr)
    · intro h
      cases h with
      | cons h1 h2 => exact ⟨_, h1, _, ih.2 h2, rfl⟩

theorem mem_toList {α : Type _} {a : NDArr α} {x : α} :
    x ∈ a.toList ↔ ∃ i, InB a.shape i ∧ a.elem i = x := by
  simp [toList, mem_indices]

theorem all_iff_toList {α : Type _} {P : α → Prop} {a : NDArr α} :
    All P a ↔ ∀ x ∈ a.toList, P x := by
  simp only [mem_toList, All]
  exact ⟨fun h x ⟨i, hi, e⟩ => e ▸ h i hi, fun h i hi => h _ ⟨i, hi, rfl⟩⟩

theorem toList_length {α : Type _} (a : NDArr α) : a.toList.length = a.size := by
  unfold toList size
  rw [List.length_map]
  induction a.shape with
  | nil => rfl
  | cons n s ih =>
    simp only [indices, List.length_flatMap, List.length_map, List.prod_cons, ih]
    simp

theorem toList_congr {α : Type _} {a b : NDArr α} (h : Same a b) : a.toList = b.toList := by
  unfold toList
  rw [h.1]
  refine List.map_congr_left fun i hi => h.2 i ?_
  rw [h.1]; exact mem_indices.1 hi

theorem toList_map {α β : Type _} (f : α → β) (a : NDArr α) : (a.map f).toList = a.toList.map f := by
  simp [toList, map]

/-- Reversed index alignment. -/
def bidxRev (s i : List Nat) : List Nat := List.zipWith (fun d j => if d = 1 then 0 else j) s i

theorem zipWith_take_right {α β γ : Type _} (f : α → β → γ) (s : List α) (i : List β) :
    List.zipWith f s (i.take s.length) = List.zipWith f s i := by
  induction s generalizing i with
  | nil => simp
  | cons a s ih => cases i <;> simp [ih]

theorem bidx_reverse {s i : List Nat} (h : s.length ≤ i.length) :
    (bidx s i).reverse = bidxRev s.reverse i.reverse := by
  unfold bidx bidxRev
  rw [List.reverse_zipWith (by simp; omega), List.reverse_drop]
  rw [show i.length - (i.length - s.length) = s.reverse.length by simp; omega]
  exact zipWith_take_right _ _ _

theorem bshapeRev_comm_aux (m n : Nat) : baxis m n = baxis n m := by
  unfold baxis
  by_cases h1 : m = n
  · simp [h1]
  · rw [if_neg h1, if_neg (Ne.symm h1)]
    by_cases h2 : m = 1
    · subst h2; simp [Ne.symm h1]
    · by_cases h3 : n = 1 <;> simp [h2, h3]

theorem bshapeRev_comm (s t : List Nat) : bshapeRev s t = bshapeRev t s := by
  induction s generalizing t with
  | nil => cases t <;> simp [bshapeRev]
  | cons m s ih =>
    cases t with
    | nil => simp [bshapeRev]
    | cons n t => simp only [bshapeRev, bshapeRev_comm_aux m n, ih t]

theorem bshape_comm (s t : List Nat) : bshape s t = bshape t s := by
  unfold bshape; rw [bshapeRev_comm]

theorem bshapeRev_length {s t r : List Nat} (h : bshapeRev s t = some r) : s.length ≤ r.length := by
  induction s generalizing t r with
  | nil => simp
  | cons m s ih =>
    cases t with
    | nil => simp only [bshapeRev, Option.some.injEq] at h; subst h; simp
    | cons n t =>
      simp only [bshapeRev] at h
      rcases hb : baxis m n with _ | k
      · simp [hb] at h
      · rcases hr : bshapeRev s t with _ | r'
        · simp [hb, hr] at h
        · simp only [hb, hr, Option.some.injEq] at h; subst h
          simpa using ih hr

theorem baxis_inb {m n k j : Nat} (h : baxis m n = some k) (hj : j < k) :
    (if m = 1 then 0 else j) < m := by
  unfold baxis at h
  split at h
  · simp only [Option.some.injEq] at h; subst h; split <;> omega
  · split at h
    · rename_i h1; subst h1; simp
    · split at h
      · simp only [Option.some.injEq] at h; subst h; split <;> omega
      · simp at h

theorem bshapeRev_inb {s t r i : List Nat} (h : bshapeRev s t = some r)
    (hi : List.Forall₂ (· < ·) i r) : List.Forall₂ (· < ·) (bidxRev s i) s := by
  induction s generalizing t r i with
  | nil => simp [bidxRev]
  | cons m s ih =>
    cases t with
    | nil =>
      simp only [bshapeRev, Option.some.injEq] at h; subst h
      cases hi with
      | cons h1 h2 =>
        refine List.Forall₂.cons ?_ (ih (t := []) (by cases s <;> rfl) h2)
        simp only; split <;> omega
    | cons n t =>
      simp only [bshapeRev] at h
      rcases hb : baxis m n with _ | k
      · simp [hb] at h
      · rcases hr : bshapeRev s t with _ | r'
        · simp [hb, hr] at h
        · simp only [hb, hr, Option.some.injEq] at h; subst h
          cases hi with
          | cons h1 h2 => exact List.Forall₂.cons (baxis_inb hb h1) (ih hr h2)

/-- Reading an operand of a broadcast operation stays inside the operand. -/
theorem bidx_inb {s t r i : List Nat} (h : bshape s t = some r) (hi : InB r i) :
    InB s (bidx s i) := by
  unfold bshape at h
  rcases hr : bshapeRev s.reverse t.reverse with _ | r'
  · simp [hr] at h
  · simp only [hr, Option.map_some, Option.some.injEq] at h; subst h
    have h1 : List.Forall₂ (· < ·) i.reverse r' := by
      have := List.rel_reverse hi
      simpa using this
    have h2 := bshapeRev_inb hr h1
    have hl : s.length ≤ i.length := by
      have := bshapeRev_length hr
      have h3 := List.Forall₂.length_eq hi
      simp at this h3; omega
    rw [← bidx_reverse hl] at h2
    have := List.rel_reverse h2
    simpa [InB] using this

theorem bidx_inb_right {s t r i : List Nat} (h : bshape s t = some r) (hi : InB r i) :
    InB t (bidx t i) := bidx_inb (by rw [bshape_comm]; exact h) hi

/-- Two results of array calls agree: same error, or the same array. -/
def SameRes {α : Type _} (a b : Py (NDArr α)) : Prop :=
  match a, b with
  | .ok x, .ok y => Same x y
  | .error e, .error e' => e = e'
  | _, _ => False

/-- Elementwise operations agree when the functions agree on the elements that occur. -/
theorem bin_same {α β γ : Type _} {f g : α → β → γ} {a : NDArr α} {b : NDArr β} {P : α → Prop}
    {Q : β → Prop} (ha : All P a) (hb : All Q b) (h : ∀ x y, P x → Q y → f x y = g x y)
    {r : NDArr γ} (hr : bin f a b = .ok r) : ∃ r', bin g a b = .ok r' ∧ Same r r' := by
  unfold bin at hr ⊢
  rcases hs : bshape a.shape b.shape with _ | s
  · simp [hs] at hr
  · simp only [hs, Except.ok.injEq] at hr ⊢
    subst hr
    refine ⟨_, rfl, rfl, fun i hi => ?_⟩
    exact h _ _ (ha _ (bidx_inb hs hi)) (hb _ (bidx_inb_right hs hi))

theorem bin_congr_same {α β γ : Type _} (f : α → β → γ) {a a' : NDArr α} {b b' : NDArr β}
    (ha : Same a a') (hb : Same b b') {r : NDArr γ} (hr : bin f a b = .ok r) :
    ∃ r', bin f a' b' = .ok r' ∧ Same r r' := by
  unfold bin at hr ⊢
  rw [← ha.1, ← hb.1]
  rcases hs : bshape a.shape b.shape with _ | s
  · simp [hs] at hr
  · simp only [hs, Except.ok.injEq] at hr ⊢
    subst hr
    refine ⟨_, rfl, rfl, fun i hi => ?_⟩
    simp only [ha.2 _ (bidx_inb hs hi), hb.2 _ (bidx_inb_right hs hi)]

end PQ.NDArr
