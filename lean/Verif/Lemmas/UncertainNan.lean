import Verif.Spec.UncertainNan
import Verif.Lemmas.Uncertain4

/-! # Lists and arrays with missing values -/

namespace PQ

open NDArr

theorem merge_inb : ∀ {m : List Bool} {s i r : List Nat}, m.length = s.length → InB (pick false m s) i →
    InB (pick true m s) r → InB s (NDArr.merge m i r)
  | [], [], _, _, _, _, _ => List.Forall₂.nil
  | [], _ :: _, _, _, h, _, _ => by simp at h
  | _ :: _, [], _, _, h, _, _ => by simp at h
  | true :: m, n :: s, i, r, h, hi, hr => by
    simp only [pick, if_true, Bool.true_eq_false, if_false] at hi hr
    cases hr with
    | cons h1 h2 => exact List.Forall₂.cons h1 (merge_inb (by simpa using h) hi h2)
  | false :: m, n :: s, i, r, h, hi, hr => by
    simp only [pick, if_true, Bool.false_eq_true, if_false] at hi hr
    cases hi with
    | cons h1 h2 => exact List.Forall₂.cons h1 (merge_inb (by simpa using h) h2 hr)

theorem axisMask_length {nd : Nat} {ax : Axis} {m : List Bool} (h : axisMask nd ax = .ok m) : m.length = nd := by
  cases ax with
  | all => simp only [axisMask, Except.ok.injEq] at h; subst h; simp
  | one x =>
    simp only [axisMask] at h
    split at h
    · cases h
    · simp only [Except.ok.injEq] at h; subst h; simp
  | many x =>
    simp only [axisMask] at h
    split at h
    · cases h
    · simp only [Except.ok.injEq] at h; subst h; simp

section
variable {K : Type _} [Field K] [LinearOrder K] [IsStrictOrderedRing K] [RPow K] [LawfulRPow K]

omit [LinearOrder K] [IsStrictOrderedRing K] [RPow K] [LawfulRPow K] in
theorem nanOver_some (f : List K → K) (hf : f [] = 0) (l : List (Option K)) :
    Quantity.nanOver f (some 0) l = some (f l.reduceOption) := by
  unfold Quantity.nanOver
  split <;> rename_i h
  · rw [h, hf]
  · rw [h]

omit [LinearOrder K] [IsStrictOrderedRing K] [RPow K] [LawfulRPow K] in
theorem present_values (l : List (Option K × Option K)) :
    (l.map Prod.fst).reduceOption = (present l).map Meas.value := by
  induction l with
  | nil => rfl
  | cons p l ih =>
    obtain ⟨x, y⟩ := p
    cases x with
    | none => simpa [present, List.reduceOption] using ih
    | some x => simpa [present, List.reduceOption] using ih

omit [LinearOrder K] [IsStrictOrderedRing K] [RPow K] [LawfulRPow K] in
/-- Sums over the uncertainties that are not nan. -/
theorem present_sigmas (g : K → K) (hg : g 0 = 0) (l : List (Option K × Option K))
    (h : ∀ p ∈ l, p.1 = none → p.2 = none) :
    ((l.map Prod.snd).map (Option.map g)).reduceOption.sum = ((present l).map (fun m => g m.sigma)).sum := by
  induction l with
  | nil => rfl
  | cons p l ih =>
    obtain ⟨x, y⟩ := p
    have ih := ih (fun p hp => h p (List.mem_cons_of_mem _ hp))
    cases x with
    | none =>
      have : y = none := h (none, y) (by simp) rfl
      subst this
      simpa [present, List.reduceOption] using ih
    | some x =>
      cases y with
      | none => simpa [present, List.reduceOption, hg] using ih
      | some y => simpa [present, List.reduceOption] using ih

omit [LinearOrder K] [IsStrictOrderedRing K] [RPow K] [LawfulRPow K] in
/-- Sums over the uncertainties with nan counted as 0. -/
theorem present_sigmas0 (g : K → K) (hg : g 0 = 0) (l : List (Option K × Option K))
    (h : ∀ p ∈ l, p.1 = none → p.2 = none) :
    ((l.map Prod.snd).map (fun x => some (g (x.getD 0)))).reduceOption.sum
      = ((present l).map (fun m => g m.sigma)).sum := by
  induction l with
  | nil => rfl
  | cons p l ih =>
    obtain ⟨x, y⟩ := p
    have ih := ih (fun p hp => h p (List.mem_cons_of_mem _ hp))
    cases x with
    | none =>
      have : y = none := h (none, y) (by simp) rfl
      subst this
      simpa [present, List.reduceOption, hg] using ih
    | some x => simpa [present, List.reduceOption] using ih

omit [LinearOrder K] [IsStrictOrderedRing K] [RPow K] [LawfulRPow K] in
theorem present_scaled (c : K) (l : List (Option K × Option K)) :
    present (l.map (fun p => (p.1.map (· * c), p.2.map (· * c))))
      = (present l).map (fun m => ⟨m.value * c, m.sigma * c⟩) := by
  induction l with
  | nil => rfl
  | cons p l ih =>
    obtain ⟨x, y⟩ := p
    cases x with
    | none => simpa [present] using ih
    | some x => cases y <;> simpa [present] using ih

omit [IsStrictOrderedRing K] [RPow K] [LawfulRPow K] in
theorem sum_sq_scaled (c : K) (l : List (Meas K)) :
    ((l.map (fun m => (⟨m.value * c, m.sigma * c⟩ : Meas K))).map (fun x => x.sigma ^ 2)).sum
      = (l.map (fun m => m.sigma ^ 2)).sum * c ^ 2 := by
  rw [List.map_map, ← NDArr.sum_map_mul, List.map_map]
  congr 1
  refine List.map_congr_left fun x _ => ?_
  simp only [Function.comp, mul_pow]

omit [IsStrictOrderedRing K] [RPow K] [LawfulRPow K] in
theorem sum_val_scaled (c : K) (l : List (Meas K)) :
    ((l.map (fun m => (⟨m.value * c, m.sigma * c⟩ : Meas K))).map Meas.value).sum
      = (l.map Meas.value).sum * c := by
  rw [List.map_map, ← NDArr.sum_map_mul, List.map_map]
  rfl

theorem sum_sq_nonneg (l : List (Meas K)) : 0 ≤ (l.map (fun m => m.sigma ^ 2)).sum :=
  List.sum_nonneg (fun x hx => by obtain ⟨y, _, rfl⟩ := List.mem_map.1 hx; positivity)

end
end PQ
