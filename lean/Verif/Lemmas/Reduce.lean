import Verif.Spec.Reductions
import Verif.Lemmas.Arith
import Verif.Lemmas.NDArr
import Mathlib.Algebra.BigOperators.Group.List.Basic
import Mathlib.Algebra.BigOperators.Ring.List
import Mathlib.Algebra.Order.BigOperators.Group.List
import Mathlib.Tactic.FieldSimp
import Mathlib.Tactic.Linarith
import Mathlib.Tactic.Positivity

/-! # Lemmas about reductions -/

namespace PQ

open LawfulRPow

namespace NDArr

theorem reduceMask_map {α β γ δ : Type _} {f : List α → β} {f' : List γ → δ} {g : α → γ}
    {g' : β → δ} (h : ∀ l, f' (l.map g) = g' (f l)) (m : List Bool) (a : NDArr α) :
    reduceMask f' m (a.map g) = (reduceMask f m a).map g' := by
  unfold reduceMask map
  simp only [NDArr.mk.injEq, true_and]
  funext i
  rw [← h, List.map_map]
  rfl

theorem reduce_map {α β γ δ : Type _} {f : List α → β} {f' : List γ → δ} {g : α → γ} {g' : β → δ}
    (h : ∀ l, f' (l.map g) = g' (f l)) (ax : Axis) (a : NDArr α) :
    (a.map g).reduce f' ax = (a.reduce f ax).map (fun r => r.map g') := by
  unfold reduce
  rw [show (a.map g).shape = a.shape from rfl]
  rcases axisMask a.shape.length ax with e | m
  · rfl
  · simp only [reduceMask_map h]; rfl

theorem reduceNE_map {α β γ δ : Type _} {f : List α → β} {f' : List γ → δ} {g : α → γ} {g' : β → δ}
    (h : ∀ l, f' (l.map g) = g' (f l)) (ax : Axis) (a : NDArr α) :
    (a.map g).reduceNE f' ax = (a.reduceNE f ax).map (fun r => r.map g') := by
  unfold reduceNE
  rw [show (a.map g).shape = a.shape from rfl, show (a.map g).size = a.size from rfl]
  rcases axisMask a.shape.length ax with e | m
  · rfl
  · simp only [reduceMask_map h]
    split <;> rfl

theorem cumulate_map {α : Type _} {f : List α → α} {g : α → α}
    (h : ∀ l, f (l.map g) = g (f l)) (ax : Axis) (a : NDArr α) :
    (a.map g).cumulate f ax = (a.cumulate f ax).map (fun r => r.map g) := by
  unfold cumulate
  cases ax with
  | all =>
    simp only [toList_map, ← List.map_take, h]
    rfl
  | one x =>
    simp only
    rw [show (a.map g).shape = a.shape from rfl]
    rcases normAxis a.shape.length x with e | n
    · rfl
    · simp only [Except.map, Except.ok.injEq, map, NDArr.mk.injEq, true_and]
      funext i
      rw [← h, List.map_map]
      rfl
  | many l => rfl

theorem trace_map {K : Type _} [AddMonoid K] {g : K → K}
    (h : ∀ l : List K, (l.map g).sum = g l.sum) (o a1 a2 : Int) (a : NDArr K) :
    (a.map g).trace o a1 a2 = (a.trace o a1 a2).map (fun r => r.map g) := by
  unfold trace
  rw [show (a.map g).shape = a.shape from rfl]
  split
  · rfl
  · rcases normAxis a.shape.length a1 with e | n1
    · rfl
    · rcases normAxis a.shape.length a2 with e | n2
      · rfl
      · simp only
        split
        · rfl
        · simp only [Except.map, Except.ok.injEq, map, NDArr.mk.injEq, true_and]
          funext i
          rw [← h, List.map_map]
          rfl

theorem argbest_map {K : Type _} {lt : K → K → Bool} {g : K → K}
    (h : ∀ x y, lt (g x) (g y) = lt x y) (l : List K) : argbest lt (l.map g) = argbest lt l := by
  cases l with
  | nil => rfl
  | cons x xs =>
    simp only [argbest, List.map_cons]
    suffices H : ∀ (xs : List K) (n k : Nat) (x : K),
        (xs.map g).foldl (fun (s : Nat × Nat × K) y =>
          if lt s.2.2 y then (s.1 + 1, s.1, y) else (s.1 + 1, s.2.1, s.2.2)) (n, k, g x) =
        (let r := xs.foldl (fun (s : Nat × Nat × K) y =>
          if lt s.2.2 y then (s.1 + 1, s.1, y) else (s.1 + 1, s.2.1, s.2.2)) (n, k, x)
         (r.1, r.2.1, g r.2.2)) by
      rw [H xs 1 0 x]
    intro xs
    induction xs with
    | nil => intro n k x; rfl
    | cons y ys ih =>
      intro n k x
      simp only [List.map_cons, List.foldl_cons, h]
      by_cases hc : lt x y
      · simp only [hc, if_true]; exact ih _ _ _
      · simp only [hc, if_false]; exact ih _ _ _

theorem argreduce_map {K : Type _} {lt : K → K → Bool} {g : K → K}
    (h : ∀ x y, lt (g x) (g y) = lt x y) (ax : Axis) (a : NDArr K) :
    (a.map g).argreduce lt ax = a.argreduce lt ax := by
  unfold argreduce
  cases ax with
  | all => rw [toList_map, argbest_map h]; rfl
  | one x =>
    simp only
    rw [reduceNE_map (f := argbest lt) (f' := argbest lt) (g := g) (g' := id)
      (fun l => argbest_map h l)]
    rcases reduceNE (argbest lt) (.one x) a with e | r <;> rfl
  | many l => rfl

theorem argsort_map {K : Type _} [LinearOrder K] {g : K → K}
    (h : ∀ x y, g x < g y ↔ x < y) (alg : SortAlg) (ax : Axis) (a : NDArr K) :
    (a.map g).argsort alg ax = a.argsort alg ax := by
  unfold argsort
  cases ax with
  | all =>
    have : cmpAt (a.toList.map g) = cmpAt a.toList := by
      funext j k
      unfold cmpAt
      simp only [List.getElem?_map]
      rcases a.toList[j]? with _ | x
      · rfl
      · rcases a.toList[k]? with _ | y
        · rfl
        · simp only [Option.map_some]
          exact decide_eq_decide.2 (h x y)
    simp only [toList_map, this]
    rfl
  | one x =>
    simp only
    rw [show (a.map g).shape = a.shape from rfl]
    rcases normAxis a.shape.length x with e | n
    · rfl
    · simp only [map, h]
  | many l => rfl

theorem nonzero_map {K : Type _} [Zero K] [DecidableEq K] {g : K → K}
    (h : ∀ x, g x = 0 ↔ x = 0) (a : NDArr K) : (a.map g).nonzero = a.nonzero := by
  unfold nonzero map
  simp only [ne_eq, h]

/-! ### lists of numbers -/

section
variable {K : Type _} [Field K] [LinearOrder K] [IsStrictOrderedRing K]

omit [LinearOrder K] [IsStrictOrderedRing K] in
theorem sum_map_mul (c : K) (l : List K) : (l.map (fun x => x * c)).sum = l.sum * c := by
  simpa using List.sum_map_mul_right l id c

theorem foldl_max_map {c : K} (hc : 0 < c) (x : K) (l : List K) :
    (l.map (fun y => y * c)).foldl max (x * c) = l.foldl max x * c := by
  induction l generalizing x with
  | nil => rfl
  | cons y l ih =>
    simp only [List.map_cons, List.foldl_cons]
    rw [← ih, max_mul_of_nonneg _ _ hc.le]

theorem foldl_min_map {c : K} (hc : 0 < c) (x : K) (l : List K) :
    (l.map (fun y => y * c)).foldl min (x * c) = l.foldl min x * c := by
  induction l generalizing x with
  | nil => rfl
  | cons y l ih =>
    simp only [List.map_cons, List.foldl_cons]
    rw [← ih, min_mul_of_nonneg _ _ hc.le]

theorem lmax_map {c : K} (hc : 0 < c) (l : List K) :
    lmax (l.map (fun x => x * c)) = lmax l * c := by
  cases l with
  | nil => simp [lmax]
  | cons x l => exact foldl_max_map hc x l

theorem lmin_map {c : K} (hc : 0 < c) (l : List K) :
    lmin (l.map (fun x => x * c)) = lmin l * c := by
  cases l with
  | nil => simp [lmin]
  | cons x l => exact foldl_min_map hc x l

theorem lptp_map {c : K} (hc : 0 < c) (l : List K) :
    lptp (l.map (fun x => x * c)) = lptp l * c := by
  unfold lptp; rw [lmax_map hc, lmin_map hc, sub_mul]

omit [LinearOrder K] [IsStrictOrderedRing K] in
theorem lmean_map (c : K) (l : List K) : lmean (l.map (fun x => x * c)) = lmean l * c := by
  unfold lmean; rw [sum_map_mul, List.length_map]; ring

omit [IsStrictOrderedRing K] in
theorem lvar_map (ddof : ℚ) (c : K) (l : List K) :
    lvar ddof (l.map (fun x => x * c)) = lvar ddof l * c ^ 2 := by
  unfold lvar
  rw [lmean_map, List.length_map, List.map_map]
  have : ((fun x => (x - lmean l * c) ^ 2) ∘ fun x => x * c) =
      fun x => (fun y => (y - lmean l) ^ 2) x * c ^ 2 := by
    funext x; simp only [Function.comp]; ring
  rw [this, List.sum_map_mul_right]
  ring

theorem lvar_nonneg (ddof : ℚ) (l : List K) : 0 ≤ lvar ddof l := by
  unfold lvar
  refine div_nonneg (List.sum_nonneg ?_) ?_
  · intro x hx
    obtain ⟨y, _, rfl⟩ := List.mem_map.1 hx
    exact sq_nonneg _
  · exact_mod_cast le_max_right _ _

variable [RPow K] [LawfulRPow K]

theorem sqrt_sq {c : K} (hc : 0 < c) : rpow (c ^ 2) (1 / 2) = c := by
  rw [← rpow_natCast c 2, rpow_rpow _ _ _ hc]
  norm_num [rpow_one]

theorem lstd_map (ddof : ℚ) {c : K} (hc : 0 < c) (l : List K) :
    lstd ddof (l.map (fun x => x * c)) = lstd ddof l * c := by
  unfold lstd
  rw [lvar_map]
  rcases (lvar_nonneg ddof l).lt_or_eq with hp | hz
  · rw [mul_rpow _ _ _ hp (by positivity), sqrt_sq hc]
  · rw [← hz, zero_mul, zero_rpow _ (by norm_num), zero_mul]

end

/-! ### lists with nans -/

theorem reduceOption_map {K : Type _} (g : K → K) (l : List (Option K)) :
    (l.map (Option.map g)).reduceOption = l.reduceOption.map g := by
  induction l with
  | nil => rfl
  | cons x l ih => cases x <;> simp [List.reduceOption] at ih ⊢ <;> exact ih

theorem nanOver_map {K : Type _} {f : List K → K} {g : K → K} {e : Option K}
    (h : ∀ l, f (l.map g) = g (f l)) (he : e.map g = e) (l : List (Option K)) :
    Quantity.nanOver f e (l.map (Option.map g)) = (Quantity.nanOver f e l).map g := by
  unfold Quantity.nanOver
  rw [reduceOption_map]
  rcases l.reduceOption with _ | ⟨x, xs⟩
  · exact he.symm
  · simp only [List.map_cons, Option.map_some]
    exact congrArg some (h (x :: xs))

end NDArr

/-! ### from homogeneity to the two statements -/

section
variable {K : Type _} [Field K] [LinearOrder K] [IsStrictOrderedRing K] [RPow K] [LawfulRPow K]

/-- A numpy operation commuting with multiplication by any positive number. -/
def HomogR (R : NDArr K → Py (NDArr K)) : Prop :=
  ∀ (c : K), 0 < c → ∀ a, R (a.map (fun x => x * c)) = (R a).map (fun r => r.map (fun x => x * c))

theorem denotes_of_homog {w : World K} {op : Quantity K → Py (Quantity K)}
    {R : NDArr K → Py (NDArr K)} (hR : HomogR R) (hop : ∀ q, op q = attach (R q.mag) q.dim) :
    DenotesReduction w op R := by
  intro q
  rw [hop]
  refine ⟨fun r hr => ?_, fun v => ?_⟩
  · unfold attach at hr
    rcases h : R q.mag with e | m
    · rw [h] at hr; exact absurd hr (by simp [Except.map])
    · rw [h] at hr
      simp only [Except.map, Except.ok.injEq] at hr
      rw [← hr]
  · unfold Valuation.phys
    rw [hR _ (v.size_pos _)]
    unfold attach
    rcases R q.mag with e | m <;> rfl

/-- Conversion of units does nothing, or multiplies by one positive factor that depends only on the
units. -/
theorem rescale_cases {w : World K} (hw : WF w) {q r : Quantity K} {d : Dim}
    (hq : DimOK w q.dim) (hd : DimOK w d) (hs : HashSafe w q.dim d) (hr : q.rescale w d = .ok r) :
    (r = q ∧ ∀ m, Quantity.rescale w ⟨m, q.dim⟩ d = .ok ⟨m, q.dim⟩) ∨
    (∃ c : K, 0 < c ∧ r = ⟨q.mag.map (fun x => x * c), d⟩ ∧
      ∀ m, Quantity.rescale w ⟨m, q.dim⟩ d = .ok ⟨m.map (fun x => x * c), d⟩) := by
  unfold Quantity.rescale at hr
  split at hr
  · rename_i he
    simp only [Except.ok.injEq] at hr
    exact Or.inl ⟨hr.symm, fun m => by unfold Quantity.rescale; simp [he]⟩
  · rename_i he
    rcases hc : w.convFactor q.dim d with e | cf
    · rw [hc] at hr; cases e <;> simp at hr
    · rw [hc] at hr
      simp only [Except.ok.injEq] at hr
      refine Or.inr ⟨cf, (convFactor_ok hw hq hd hs.refs hc).1, ?_, fun m => ?_⟩
      · rw [← hr]; simp only [mul_comm]
      · unfold Quantity.rescale; simp [he, hc, mul_comm]

theorem commutes_of_homog {w : World K} (hw : WF w) {op : Quantity K → Py (Quantity K)}
    {R : NDArr K → Py (NDArr K)} (hR : HomogR R) (hop : ∀ q, op q = attach (R q.mag) q.dim) :
    CommutesWithRescale w op := by
  intro q r d hq hd hs hr
  rw [hop, hop]
  unfold attach
  rcases rescale_cases hw hq hd hs hr with ⟨rfl, h⟩ | ⟨c, hc, rfl, h⟩
  · rcases R r.mag with e | m
    · rfl
    · exact (h m).symm
  · simp only [hR c hc]
    rcases R q.mag with e | m
    · rfl
    · exact (h m).symm

theorem unitFree_of_inv {β : Type _} {w : World K} (hw : WF w) {op : Quantity K → β}
    {R : NDArr K → β} (hR : ∀ c : K, 0 < c → ∀ a, R (a.map (fun x => x * c)) = R a)
    (hop : ∀ q, op q = R q.mag) : UnitFree w op := by
  intro q r d hq hd hs hr
  rw [hop, hop]
  rcases rescale_cases hw hq hd hs hr with ⟨rfl, h⟩ | ⟨c, hc, rfl, h⟩
  · rfl
  · exact hR c hc _

/-- As `HomogR`, for arrays with nans. -/
def HomogNan (R : NDArr (Option K) → Py (NDArr (Option K))) : Prop :=
  ∀ (c : K), 0 < c → ∀ a, R (a.map (Option.map (fun x => x * c))) =
    (R a).map (fun r => r.map (Option.map (fun x => x * c)))

theorem denotesNan_of_homog {w : World K} {op : Quantity (Option K) → Py (Quantity (Option K))}
    {R : NDArr (Option K) → Py (NDArr (Option K))} (hR : HomogNan R)
    (hop : ∀ q, op q = attach (R q.mag) q.dim) : DenotesReductionNan w op R := by
  intro q
  rw [hop]
  refine ⟨fun r hr => ?_, fun v => ?_⟩
  · unfold attach at hr
    rcases h : R q.mag with e | m
    · rw [h] at hr; exact absurd hr (by simp [Except.map])
    · rw [h] at hr
      simp only [Except.map, Except.ok.injEq] at hr
      rw [← hr]
  · unfold Valuation.physNan
    rw [hR _ (v.size_pos _)]
    unfold attach
    rcases R q.mag with e | m <;> rfl

theorem commutesNan_of_homog {w : World K} (hw : WF w)
    {op : Quantity (Option K) → Py (Quantity (Option K))}
    {R : NDArr (Option K) → Py (NDArr (Option K))} (hR : HomogNan R)
    (hop : ∀ q, op q = attach (R q.mag) q.dim) : CommutesWithRescaleNan w op := by
  intro q r d hq hd hs hr
  rw [hop, hop]
  unfold attach
  unfold Quantity.rescaleNan at hr
  split at hr
  · rename_i he
    simp only [Except.ok.injEq] at hr; subst hr
    rcases R q.mag with e | m
    · rfl
    · simp only [Except.map, Except.bind]
      unfold Quantity.rescaleNan; simp [he]
  · rename_i he
    rcases hc : w.convFactor q.dim d with e | cf
    · rw [hc] at hr; cases e <;> simp at hr
    · rw [hc] at hr
      simp only [Except.ok.injEq] at hr; subst hr
      have h1 := hR cf (convFactor_ok hw hq hd hs.refs hc).1 q.mag
      simp only [mul_comm _ cf] at h1
      simp only [h1]
      rcases R q.mag with e | m
      · rfl
      · simp only [Except.map, Except.bind]
        unfold Quantity.rescaleNan; simp [he, hc]

end
end PQ
