import Verif.Lemmas.Along2
import Verif.Props.Reductions

/-!
# C129: reductions along any axes, element by element

C32 and C33 are stated with the reductions of the model of numpy; here it is said which elements they
combine, for `axis=None`, an axis (also counted from the end) or a tuple of axes.
-/

namespace PQ

open NDArr LawfulRPow

variable {K : Type _} [Field K] [LinearOrder K] [IsStrictOrderedRing K] [RPow K] [LawfulRPow K]
variable {h : Hasher} {w : World K}

theorem attach_returns_iff {m : Py (NDArr K)} {d : Dim} : Returns (attach m d) ↔ Returns m := by
  unfold attach
  rcases m with e | m
  · exact ⟨fun h => absurd h (not_returns_error _), fun h => absurd h (not_returns_error _)⟩
  · exact ⟨fun _ => ⟨_, rfl⟩, fun _ => ⟨_, rfl⟩⟩

/-- From C32: what a reduction method does, in terms of the elements combined. -/
private theorem along_of {op : Quantity K → Py (Quantity K)} {f : List K → K} {ax : Axis}
    (hd : DenotesReduction w op (NDArr.reduce f ax)) {q r : Quantity K} (hr : op q = .ok r) (v : Valuation w) :
    ∃ S, NamesAxes q.mag.shape.length ax S ∧ Along (fun l x => x = f l) S (v.phys q) (v.phys r) := by
  have := (hd q).2 v
  rw [hr] at this
  exact reduce_along this

private theorem alongNE_of {op : Quantity K → Py (Quantity K)} {f : List K → K} {ax : Axis}
    (hd : DenotesReduction w op (NDArr.reduceNE f ax)) {q r : Quantity K} (hr : op q = .ok r) (v : Valuation w) :
    ∃ S, NamesAxes q.mag.shape.length ax S ∧ Along (fun l x => l ≠ [] ∧ x = f l) S (v.phys q) (v.phys r) := by
  have := (hd q).2 v
  rw [hr] at this
  exact reduceNE_along.1 _ this

/-- `sum` and `mean` return exactly when `axis` names distinct axes of the array; the result keeps the
units, has the shape without those axes, and each element has the physical value of the sum (the sum
divided by the number) of the elements combined. -/
theorem C129_sum_mean (hw : Reachable h w) (q : Quantity K) (ax : Axis) :
    (Returns (q.sum ax) ↔ ∃ S, NamesAxes q.mag.shape.length ax S) ∧
    (Returns (q.mean ax) ↔ ∃ S, NamesAxes q.mag.shape.length ax S) ∧
    (∀ r, q.sum ax = .ok r → r.dim = q.dim ∧ ∀ v : Valuation w, ∃ S, NamesAxes q.mag.shape.length ax S ∧
      Along (fun l x => x = l.sum) S (v.phys q) (v.phys r)) ∧
    (∀ r, q.mean ax = .ok r → r.dim = q.dim ∧ ∀ v : Valuation w, ∃ S, NamesAxes q.mag.shape.length ax S ∧
      Along (fun l x => x = l.sum / (l.length : K)) S (v.phys q) (v.phys r)) := by
  refine ⟨?_, ?_, ?_, ?_⟩
  · exact attach_returns_iff.trans (reduce_returns _ ax q.mag)
  · exact attach_returns_iff.trans (reduce_returns _ ax q.mag)
  · intro r hr
    exact ⟨((C32_sum hw ax).1 q).1 r hr, fun v => along_of (C32_sum hw ax).1 hr v⟩
  · intro r hr
    exact ⟨((C32_mean hw ax).1 q).1 r hr, fun v => along_of (C32_mean hw ax).1 hr v⟩

/-- `max`, `min` and `ptp` return exactly when `axis` names distinct axes and every element of the result
combines something, and raise `ValueError` otherwise; each element is the largest of the elements
combined, the smallest, or the difference of the two. -/
theorem C129_extremes (hw : Reachable h w) (q : Quantity K) (ax : Axis) :
    (∀ op ∈ [fun q : Quantity K => q.max ax, fun q => q.min ax, fun q => q.ptp ax],
      (Returns (op q) ↔ ∃ S, NamesAxes q.mag.shape.length ax S ∧
        ∀ i, InB (without S q.mag.shape) i → over q.mag S i ≠ []) ∧
      (∀ e, op q = .error e → e = .valueError)) ∧
    (∀ r, q.max ax = .ok r → r.dim = q.dim ∧ ∀ v : Valuation w, ∃ S, NamesAxes q.mag.shape.length ax S ∧
      Along (fun l x => x ∈ l ∧ ∀ y ∈ l, y ≤ x) S (v.phys q) (v.phys r)) ∧
    (∀ r, q.min ax = .ok r → r.dim = q.dim ∧ ∀ v : Valuation w, ∃ S, NamesAxes q.mag.shape.length ax S ∧
      Along (fun l x => x ∈ l ∧ ∀ y ∈ l, x ≤ y) S (v.phys q) (v.phys r)) ∧
    (∀ r, q.ptp ax = .ok r → r.dim = q.dim ∧ ∀ v : Valuation w, ∃ S, NamesAxes q.mag.shape.length ax S ∧
      Along (fun l x => ∃ hi ∈ l, ∃ lo ∈ l, (∀ y ∈ l, lo ≤ y ∧ y ≤ hi) ∧ x = hi - lo) S (v.phys q) (v.phys r)) := by
  have err : ∀ (f : List K → K) e, attach (q.mag.reduceNE f ax) q.dim = .error e → e = .valueError := by
    intro f e he
    unfold attach at he
    rcases hm : q.mag.reduceNE f ax with e' | m
    · rw [hm] at he; cases he; exact reduceNE_along.2.2 _ hm
    · rw [hm] at he; cases he
  refine ⟨?_, ?_, ?_, ?_⟩
  · intro op hop
    simp only [List.mem_cons, List.not_mem_nil, or_false] at hop
    rcases hop with rfl | rfl | rfl
    · exact ⟨attach_returns_iff.trans reduceNE_along.2.1, err _⟩
    · exact ⟨attach_returns_iff.trans reduceNE_along.2.1, err _⟩
    · exact ⟨attach_returns_iff.trans reduceNE_along.2.1, err _⟩
  · intro r hr
    refine ⟨((C32_max hw ax).1 q).1 r hr, fun v => ?_⟩
    obtain ⟨S, hS, al⟩ := alongNE_of (C32_max hw ax).1 hr v
    exact ⟨S, hS, al.mono (fun i _ hx => by rw [hx.2]; exact lmax_spec hx.1)⟩
  · intro r hr
    refine ⟨((C32_min hw ax).1 q).1 r hr, fun v => ?_⟩
    obtain ⟨S, hS, al⟩ := alongNE_of (C32_min hw ax).1 hr v
    exact ⟨S, hS, al.mono (fun i _ hx => by rw [hx.2]; exact lmin_spec hx.1)⟩
  · intro r hr
    refine ⟨((C32_ptp hw ax).1 q).1 r hr, fun v => ?_⟩
    obtain ⟨S, hS, al⟩ := alongNE_of (C32_ptp hw ax).1 hr v
    refine ⟨S, hS, al.mono (fun i _ hx => ?_)⟩
    obtain ⟨h1, h2⟩ := lmax_spec hx.1
    obtain ⟨h3, h4⟩ := lmin_spec hx.1
    exact ⟨_, h1, _, h3, fun y hy => ⟨h4 y hy, h2 y hy⟩, hx.2⟩

/-- `var` has the square of the units and `std` the units; with `ddof` below the number of elements
combined, each element of `var` is the sum of the squared deviations from the mean divided by the number
minus `ddof`, and each element of `std` its non-negative square root. -/
theorem C129_var_std (hw : Reachable h w) (q : Quantity K) (hq : DimOK w q.dim) (ax : Axis) (ddof : ℚ) :
    (Returns (q.var ax ddof) ↔ ∃ S, NamesAxes q.mag.shape.length ax S) ∧
    (Returns (q.std ax ddof) ↔ ∃ S, NamesAxes q.mag.shape.length ax S) ∧
    (∀ r, q.var ax ddof = .ok r → (∀ u, expo r.dim u = expo q.dim u * 2) ∧
      ∀ v : Valuation w, ∃ S, NamesAxes q.mag.shape.length ax S ∧
        Along (fun l x => ddof < l.length →
          x * ((l.length : K) - (ddof : K)) = (l.map (fun y => (y - l.sum / (l.length : K)) ^ 2)).sum) S
          (v.phys q) (v.phys r)) ∧
    (∀ r, q.std ax ddof = .ok r → r.dim = q.dim ∧
      ∀ v : Valuation w, ∃ S, NamesAxes q.mag.shape.length ax S ∧
        Along (fun l x => 0 ≤ x ∧ (ddof < l.length →
          x ^ 2 * ((l.length : K) - (ddof : K)) = (l.map (fun y => (y - l.sum / (l.length : K)) ^ 2)).sum)) S
          (v.phys q) (v.phys r)) := by
  have key : ∀ l : List K, ddof < l.length → lvar ddof l * ((l.length : K) - (ddof : K)) =
      (l.map (fun y => (y - l.sum / (l.length : K)) ^ 2)).sum := by
    intro l hl
    have hpos : (0 : ℚ) < (l.length : ℚ) - ddof := by linarith
    have hc : ((max ((l.length : ℚ) - ddof) 0 : ℚ) : K) = (l.length : K) - (ddof : K) := by
      rw [max_eq_left hpos.le]; push_cast; rfl
    have hne : (l.length : K) - (ddof : K) ≠ 0 := by
      rw [← hc, max_eq_left hpos.le]; exact_mod_cast hpos.ne'
    unfold lvar lmean
    rw [hc, div_mul_cancel₀ _ hne]
  have hsq : ∀ x : K, 0 ≤ x → rpow x (1 / 2) ^ 2 = x ∧ 0 ≤ rpow x (1 / 2) := by
    intro x hx
    rcases hx.lt_or_eq with hp | hz
    · exact ⟨by rw [← rpow_natCast, rpow_rpow _ _ _ hp]; norm_num [rpow_one], (rpow_pos _ _ hp).le⟩
    · rw [← hz, zero_rpow _ (by norm_num)]; simp
  refine ⟨attach_returns_iff.trans (reduce_returns _ ax q.mag), attach_returns_iff.trans (reduce_returns _ ax q.mag), ?_, ?_⟩
  · intro r hr
    obtain ⟨h1, h2⟩ := C33_var (w := w) q hq ax ddof
    refine ⟨(h1 r hr).2, fun v => ?_⟩
    have h3 := h2 v
    rw [hr] at h3
    obtain ⟨S, hS, al⟩ := reduce_along (h3 : _ = Except.ok (v.phys r))
    exact ⟨S, hS, al.mono (fun i _ hx hl => by rw [hx]; exact key _ hl)⟩
  · intro r hr
    refine ⟨((C32_std hw ax ddof).1 q).1 r hr, fun v => ?_⟩
    obtain ⟨S, hS, al⟩ := along_of (C32_std hw ax ddof).1 hr v
    refine ⟨S, hS, al.mono (fun i _ hx => ?_)⟩
    obtain ⟨s1, s2⟩ := hsq _ (lvar_nonneg ddof (over (v.phys q) S i))
    rw [hx]
    exact ⟨s2, fun hl => by unfold lstd; rw [s1]; exact key _ hl⟩

/-- The argument names at most one set of axes, and the row-major list of elements combined is the list of
all elements at places whose remaining coordinates are those of the result. -/
theorem C129_axes (nd : Nat) (ax : Axis) :
    (∀ S S', NamesAxes nd ax S → NamesAxes nd ax S' → S = S') ∧
    (∀ (a : NDArr K) (S i : List Nat) (x : K), x ∈ over a S i ↔
      ∃ j, InB a.shape j ∧ without S j = i ∧ a.elem j = x) := by
  refine ⟨fun S S' h h' => h.unique h', ?_⟩
  intro a S i x
  unfold over
  rw [List.mem_map]
  constructor
  · rintro ⟨j, hj, rfl⟩
    obtain ⟨h1, h2⟩ := List.mem_filter.mp hj
    exact ⟨j, mem_indices.mp h1, by simpa using h2, rfl⟩
  · rintro ⟨j, h1, h2, rfl⟩
    exact ⟨j, List.mem_filter.mpr ⟨mem_indices.mpr h1, by simpa using h2⟩, rfl⟩

/-- `cumsum` without an axis flattens the array, and the element number `k` is the total of the elements
numbered up to `k`; along an axis it keeps the shape, and the element at every place is the total of the
elements on its line up to that place. It raises `ValueError` for an axis that does not exist, `TypeError`
for a tuple. -/
theorem C129_cumsum (hw : Reachable h w) (q : Quantity K) :
    (∃ r, q.cumsum .all = .ok r ∧ r.dim = q.dim ∧ r.mag.shape = [q.mag.size] ∧
      ∀ (v : Valuation w) (k : Nat), k < q.mag.size → (v.phys r).elem [k] = (upToNumber (v.phys q) k).sum) ∧
    (∀ (x : Int) (n : Nat), NamesAxis q.mag.shape.length x n →
      ∃ r, q.cumsum (.one x) = .ok r ∧ r.dim = q.dim ∧ r.mag.shape = q.mag.shape ∧
        ∀ (v : Valuation w) (i : List Nat), InB q.mag.shape i →
          (v.phys r).elem i = (upTo (v.phys q) n i).sum) ∧
    (∀ x : Int, (¬ ∃ n, NamesAxis q.mag.shape.length x n) → q.cumsum (.one x) = .error .valueError) ∧
    (∀ xs, q.cumsum (.many xs) = .error .typeError) := by
  refine ⟨?_, ?_, ?_, fun xs => rfl⟩
  · refine ⟨⟨⟨[q.mag.size], fun i => (q.mag.toList.take (i.headD 0 + 1)).sum⟩, q.dim⟩, rfl, rfl, rfl, ?_⟩
    intro v k hk
    have := ((C32_cumsum hw .all).1 q).2 v
    beta_reduce at this
    rw [show q.cumsum .all = .ok ⟨⟨[q.mag.size], fun i => (q.mag.toList.take (i.headD 0 + 1)).sum⟩, q.dim⟩
      from rfl] at this
    simp only [cumulate] at this
    injection this with this
    rw [upToNumber_eq]
    exact congrArg (fun a : NDArr K => a.elem [k]) this.symm
  · intro x n hn
    have he : q.cumsum (.one x) = .ok ⟨⟨q.mag.shape, fun i =>
        ((List.range (i.getD n 0 + 1)).map (fun j => q.mag.elem (i.set n j))).sum⟩, q.dim⟩ := by
      unfold Quantity.cumsum Quantity.cumsumBy
      simp only [cumulate, normAxis_ok.mpr hn]; rfl
    refine ⟨_, he, rfl, rfl, ?_⟩
    intro v i hi
    have := ((C32_cumsum hw (.one x)).1 q).2 v
    beta_reduce at this
    rw [he] at this
    simp only [cumulate, show (v.phys q).shape = q.mag.shape from rfl, normAxis_ok.mpr hn] at this
    injection this with this
    rw [upTo_eq (a := v.phys q) hn.1 hi]
    exact congrArg (fun a : NDArr K => a.elem i) this.symm
  · intro x hx
    unfold Quantity.cumsum Quantity.cumsumBy
    simp only [cumulate]
    rcases hn : normAxis q.mag.shape.length x with e | n
    · rw [(normAxis_error hn).1]; rfl
    · exact absurd ⟨n, normAxis_ok.mp hn⟩ hx

/-- `trace(offset, axis1, axis2)` returns exactly when the two arguments name two different axes, and raises
`ValueError` otherwise; the result has the shape without those axes and each element is the total of the
diagonal of the plane it stands for. -/
theorem C129_trace (hw : Reachable h w) (q : Quantity K) (offset axis1 axis2 : Int) :
    (Returns (q.trace offset axis1 axis2) ↔ ∃ n1 n2, NamesAxis q.mag.shape.length axis1 n1 ∧
      NamesAxis q.mag.shape.length axis2 n2 ∧ n1 ≠ n2) ∧
    (∀ e, q.trace offset axis1 axis2 = .error e → e = .valueError) ∧
    (∀ r, q.trace offset axis1 axis2 = .ok r → r.dim = q.dim ∧
      ∀ n1 n2, NamesAxis q.mag.shape.length axis1 n1 → NamesAxis q.mag.shape.length axis2 n2 →
        r.mag.shape = without [n1, n2] q.mag.shape ∧
        ∀ (v : Valuation w) (i : List Nat), InB r.mag.shape i →
          (v.phys r).elem i = (diagonal (v.phys q) n1 n2 offset i).sum) := by
  have ht := trace_returns offset axis1 axis2 q.mag
  refine ⟨attach_returns_iff.trans ht.1, ?_, ?_⟩
  · intro e he
    unfold Quantity.trace attach at he
    rcases hm : q.mag.trace offset axis1 axis2 with e' | m
    · rw [hm] at he; cases he; exact ht.2 _ hm
    · rw [hm] at he; cases he
  · intro r hr
    refine ⟨((C32_trace hw offset axis1 axis2).1 q).1 r hr, ?_⟩
    intro n1 n2 a1 a2
    have key : ∀ v : Valuation w, r.mag.shape = without [n1, n2] q.mag.shape ∧
        ∀ i : List Nat, InB r.mag.shape i → (v.phys r).elem i = (diagonal (v.phys q) n1 n2 offset i).sum := by
      intro v
      have := ((C32_trace hw offset axis1 axis2).1 q).2 v
      beta_reduce at this
      rw [hr] at this
      obtain ⟨m1, m2, b1, b2, -, hs, hel⟩ := trace_spec this
      have e1 : m1 = n1 := by
        have x1 := normAxis_ok.mpr b1
        have x2 := normAxis_ok.mpr a1
        rw [show (v.phys q).shape.length = q.mag.shape.length from rfl] at x1
        rw [x1] at x2; injection x2
      have e2 : m2 = n2 := by
        have x1 := normAxis_ok.mpr b2
        have x2 := normAxis_ok.mpr a2
        rw [show (v.phys q).shape.length = q.mag.shape.length from rfl] at x1
        rw [x1] at x2; injection x2
      subst e1 e2
      exact ⟨hs, hel⟩
    obtain ⟨v⟩ := exists_valuation hw.wf
    exact ⟨(key v).1, fun v => (key v).2⟩

/-- Reducing the axes 0 and -1 of an array of shape (2, 3, 2) leaves the shape (3,), and the element 1
combines the four elements with middle coordinate 1. -/
example : NamesAxes 3 (.many [0, -1]) [0, 2] ∧ without [0, 2] [2, 3, 2] = [3] ∧
    over (⟨[2, 3, 2], fun i => (i : List Nat)⟩ : NDArr (List Nat)) [0, 2] [1] =
      [[0, 1, 0], [0, 1, 1], [1, 1, 0], [1, 1, 1]] := by
  refine ⟨⟨.cons ⟨by decide, by decide⟩ (.cons ⟨by decide, by decide⟩ .nil), by decide⟩, by decide, by decide⟩

example : (∃ r, exMat.sum (.many [0, -1]) = .ok r) ∧ exMat.sum (.many [0, -2]) = .error .valueError :=
  ⟨(C129_sum_mean exWorld_reachable exMat (.many [0, -1])).1.mpr
    ⟨[0, 1], .cons ⟨by decide, by decide⟩ (.cons ⟨by decide, by decide⟩ .nil), by decide⟩, rfl⟩

/-- The running totals along the last axis of a 2 by 2 matrix, and the diagonal above the main one. -/
example : upTo (⟨[2, 3], fun i => (i : List Nat)⟩ : NDArr (List Nat)) 1 [1, 1] = [[1, 0], [1, 1]] ∧
    upToNumber (⟨[2, 3], fun i => (i : List Nat)⟩ : NDArr (List Nat)) 3 = [[0, 0], [0, 1], [0, 2], [1, 0]] ∧
    diagonal (⟨[2, 3], fun i => (i : List Nat)⟩ : NDArr (List Nat)) 0 1 1 [] = [[0, 1], [1, 2]] := by
  refine ⟨by decide, by decide, by decide⟩

example : Returns (exMat.trace 0 (-1) 0) ∧ exMat.trace 0 (-1) 1 = .error .valueError :=
  ⟨(C129_trace exWorld_reachable exMat 0 (-1) 0).1.mpr
    ⟨1, 0, ⟨by decide, by decide⟩, ⟨by decide, by decide⟩, by decide⟩, rfl⟩

end PQ
