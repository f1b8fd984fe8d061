import Verif.Props.RoundedArith
import Verif.Model.Reduce
import Verif.Lemmas.Reduce2

/-!
# Property C111: sums, means and products in rounded arithmetic
-/

namespace PQ

open NDArr

variable {A : Arith} {h : Hasher} {w : World (Fl A)}

theorem Arith.bound_zero (A : Arith) : A.bound 0 = 0 := by simp [Arith.bound]

theorem Arith.bound_add_one (A : Arith) (n : ℝ) : A.bound n + 1 = ((1 - A.eps) ^ n)⁻¹ := by
  simp [Arith.bound]

theorem Arith.bound_mono (A : Arith) {m n : ℝ} (hmn : m ≤ n) : A.bound m ≤ A.bound n := by
  rw [A.bound_eq, A.bound_eq]
  have : m * A.L ≤ n * A.L := mul_le_mul_of_nonneg_right hmn A.L_nonneg
  linarith [Real.exp_le_exp.2 this]

theorem Arith.bound_nonneg (A : Arith) {n : ℝ} (hn : 0 ≤ n) : 0 ≤ A.bound n := by
  have := A.bound_mono hn
  rwa [A.bound_zero] at this

/-- One more operation. -/
theorem Arith.bound_step (A : Arith) (n : ℝ) (hn : 0 ≤ n) :
    A.eps * (A.bound n + 1) + A.bound n ≤ A.bound (n + 1) := by
  have hp := A.one_sub_pos
  have e1 : A.bound (n + 1) + 1 = (A.bound n + 1) * (1 - A.eps)⁻¹ := by
    rw [A.bound_add_one, A.bound_add_one, Real.rpow_add hp, Real.rpow_one, mul_inv]
  have e2 : 1 + A.eps ≤ (1 - A.eps)⁻¹ := by
    rw [inv_eq_one_div, le_div_iff₀ hp]
    nlinarith [A.eps_nonneg]
  have e3 : 0 ≤ A.bound n + 1 := by linarith [A.bound_nonneg hn]
  nlinarith [mul_le_mul_of_nonneg_left e2 e3]

theorem absSum_nonneg (l : List ℝ) : 0 ≤ absSum l := by
  refine List.sum_nonneg fun x hx => ?_
  obtain ⟨y, -, rfl⟩ := List.mem_map.1 hx
  exact abs_nonneg y

theorem abs_sum_le (l : List ℝ) : |l.sum| ≤ absSum l := by
  induction l with
  | nil => simp [absSum]
  | cons x l ih =>
    rw [List.sum_cons]
    refine (abs_add_le _ _).trans ?_
    simp only [absSum, List.map_cons, List.sum_cons] at ih ⊢
    linarith

theorem RoundedSum.error {l : List ℝ} {x : ℝ} (hs : RoundedSum A l x) :
    |x - l.sum| ≤ A.bound l.length * absSum l := by
  have h1 : A.eps ≤ A.bound 1 := by
    have := A.bound_step 0 le_rfl
    rw [A.bound_zero] at this
    simpa using this
  have one : ∀ x : ℝ, A.eps * |x| ≤ A.bound 1 * |x| := fun x => mul_le_mul_of_nonneg_right h1 (abs_nonneg x)
  induction hs with
  | nil => simp [absSum]
  | one x =>
    simp only [List.sum_cons, List.sum_nil, add_zero, sub_self, abs_zero]
    exact mul_nonneg (A.bound_nonneg (by positivity)) (absSum_nonneg _)
  | first x =>
    have := A.add_err 0 x
    simp only [zero_add] at this
    simpa [absSum] using this.trans (one x)
  | last x =>
    have := A.add_err x 0
    simp only [add_zero] at this
    simpa [absSum] using this.trans (one x)
  | @add l m x y hl hm _ _ ih1 ih2 =>
    have la : (1 : ℝ) ≤ l.length := by exact_mod_cast List.length_pos_iff.2 hl
    have lb : (1 : ℝ) ≤ m.length := by exact_mod_cast List.length_pos_iff.2 hm
    have ea := A.add_err x y
    have sa := absSum_nonneg l
    have sb := absSum_nonneg m
    have xa : |x| ≤ (A.bound l.length + 1) * absSum l := by
      have := abs_sub_abs_le_abs_sub x l.sum
      have := abs_sum_le l
      nlinarith
    have yb : |y| ≤ (A.bound m.length + 1) * absSum m := by
      have := abs_sub_abs_le_abs_sub y m.sum
      have := abs_sum_le m
      nlinarith
    have hxy := abs_add_le x y
    have e := A.eps_nonneg
    have key : |A.add x y - (l.sum + m.sum)| ≤
        (A.eps * (A.bound l.length + 1) + A.bound l.length) * absSum l +
        (A.eps * (A.bound m.length + 1) + A.bound m.length) * absSum m := by
      have t : A.add x y - (l.sum + m.sum) = (A.add x y - (x + y)) + ((x - l.sum) + (y - m.sum)) := by ring
      rw [t]
      refine (abs_add_le _ _).trans ?_
      have := abs_add_le (x - l.sum) (y - m.sum)
      have : A.eps * |x + y| ≤ A.eps * ((A.bound l.length + 1) * absSum l + (A.bound m.length + 1) * absSum m) :=
        mul_le_mul_of_nonneg_left (by linarith) e
      nlinarith
    have ha := (A.bound_step l.length (by linarith)).trans
      (A.bound_mono (show (l.length : ℝ) + 1 ≤ (l ++ m).length by rw [List.length_append]; push_cast; linarith))
    have hb := (A.bound_step m.length (by linarith)).trans
      (A.bound_mono (show (m.length : ℝ) + 1 ≤ (l ++ m).length by rw [List.length_append]; push_cast; linarith))
    have hs : absSum (l ++ m) = absSum l + absSum m := by simp [absSum]
    rw [List.sum_append, hs]
    nlinarith [mul_le_mul_of_nonneg_right ha sa, mul_le_mul_of_nonneg_right hb sb]
  | @perm l m x hp _ ih =>
    have e1 : absSum m = absSum l := ((hp.symm.map _).sum_eq)
    rw [← hp.sum_eq, e1, ← hp.length_eq]
    exact ih


theorem RoundedProd.error {l : List ℝ} {x : ℝ} (hs : RoundedProd A l x) :
    l ≠ [] ∧ ∃ t, 0 < t ∧ |Real.log t| ≤ ((l.length : ℝ) - 1) * A.L ∧ x = t * l.prod := by
  induction hs with
  | one x => exact ⟨by simp, 1, one_pos, by simp, by simp⟩
  | @mul l m x y _ _ ih1 ih2 =>
    obtain ⟨hl, t, t1, t2, t3⟩ := ih1
    obtain ⟨hm, s, s1, s2, s3⟩ := ih2
    obtain ⟨u, u1, u2, u3⟩ := A.mul_factor x y
    refine ⟨by simp [hl], u * (t * s), by positivity, ?_, ?_⟩
    · rw [Real.log_mul u1.ne' (by positivity), Real.log_mul t1.ne' s1.ne', List.length_append]
      refine (abs_add_le _ _).trans ?_
      have := abs_add_le (Real.log t) (Real.log s)
      push_cast
      linarith
    · rw [u3, t3, s3, List.prod_append]
      ring
  | @perm l m x hp _ ih =>
    rw [← hp.prod_eq, ← hp.length_eq]
    refine ⟨fun e => ih.1 ?_, ih.2⟩
    subst e
    exact List.perm_nil.1 hp

/-- Sum of a list of rounded numbers each of which stands for a number up to `c` errors. -/
theorem sum_of_close {ι : Type} (l : List ι) (f : ι → ℝ) (y : ι → ℝ) (s c x : ℝ) (hc : 0 ≤ c) (hs : 0 < s)
    (hf : ∀ j, ∃ t, 0 < t ∧ |Real.log t| ≤ c * A.L ∧ f j * s = t * y j) (hx : RoundedSum A (l.map f) x) :
    |x * s - (l.map y).sum| ≤ A.bound (c + l.length) * absSum (l.map y) := by
  have h1 := hx.error
  rw [List.length_map] at h1
  have hb : ∀ j, |f j * s - y j| ≤ A.bound c * |y j| := by
    intro j
    obtain ⟨t, t1, t2, t3⟩ := hf j
    rw [t3, show t * y j - y j = (t - 1) * y j by ring, abs_mul]
    exact mul_le_mul_of_nonneg_right (A.near_one t1 t2) (abs_nonneg _)
  have h2 : |(l.map f).sum * s - (l.map y).sum| ≤ A.bound c * absSum (l.map y) := by
    clear h1 hx
    induction l with
    | nil => simp [absSum]
    | cons j l ih =>
      simp only [List.map_cons, List.sum_cons, absSum] at ih ⊢
      have := hb j
      rw [show (f j + (l.map f).sum) * s - (y j + (l.map y).sum) =
        (f j * s - y j) + ((l.map f).sum * s - (l.map y).sum) by ring]
      refine (abs_add_le _ _).trans ?_
      linarith
  have h3 : absSum (l.map f) * s ≤ (A.bound c + 1) * absSum (l.map y) := by
    clear h1 hx h2
    induction l with
    | nil => simp [absSum]
    | cons j l ih =>
      simp only [List.map_cons, List.sum_cons, absSum] at ih ⊢
      have h4 := hb j
      have h5 := abs_sub_abs_le_abs_sub (f j * s) (y j)
      rw [abs_mul, abs_of_pos hs] at h5
      linarith
  have hB : A.bound (c + l.length) = A.bound l.length * (A.bound c + 1) + A.bound c := by
    have e := A.bound_add_one (c + l.length)
    rw [Real.rpow_add A.one_sub_pos, mul_inv, ← A.bound_add_one, ← A.bound_add_one] at e
    linarith
  have hn := A.bound_nonneg (n := (l.length : ℝ)) (by positivity)
  rw [show x * s - (l.map y).sum = (x - (l.map f).sum) * s + ((l.map f).sum * s - (l.map y).sum) by ring]
  refine (abs_add_le _ _).trans ?_
  rw [abs_mul, abs_of_pos hs, hB]
  have h6 : |x - (l.map f).sum| * s ≤ A.bound l.length * (absSum (l.map f) * s) := by
    rw [← mul_assoc]; exact mul_le_mul_of_nonneg_right h1 hs.le
  have h7 := mul_le_mul_of_nonneg_left h3 hn
  linarith

theorem reduce_ok {α β : Type _} {f : List α → β} {ax : Axis} {a : NDArr α} {b : NDArr β}
    (hr : a.reduce f ax = .ok b) : ∃ m, axisMask a.shape.length ax = .ok m ∧ b = reduceMask f m a := by
  unfold NDArr.reduce at hr
  split at hr
  · cases hr
  · rename_i m hm
    cases hr
    exact ⟨m, hm, rfl⟩

theorem reduce_of_mask {α β : Type _} (f : List α → β) {ax : Axis} {a : NDArr α} {m : List Bool}
    (hm : axisMask a.shape.length ax = .ok m) : a.reduce f ax = .ok (reduceMask f m a) := by
  unfold NDArr.reduce
  rw [hm]

theorem attach_ok' {K : Type _} {m : Py (NDArr K)} {d : Dim} {r : Quantity K} (hr : attach m d = .ok r) :
    r.dim = d ∧ m = .ok r.mag := by
  unfold attach at hr
  rcases m with e | m
  · exact absurd hr (by simp [Except.map])
  · simp only [Except.map, Except.ok.injEq] at hr; subst hr; exact ⟨rfl, rfl⟩

/-- The sum of quantities that stand for `y` up to `c` errors. -/
theorem sumBy_close {S : List (Fl A) → Fl A} (hS : ∀ l : List (Fl A), RoundedSum A (l.map Fl.val) (S l).val)
    {q r : Quantity (Fl A)} {ax : Axis} (hr : q.sumBy S ax = .ok r) (v : FlValuation w) {c : ℝ} (hc : 0 ≤ c)
    {y : NDArr ℝ} (hy : WithinErrors A c (v.phys q) y) : r.dim = q.dim ∧ WithinSumErrors A c ax (v.phys r) y := by
  obtain ⟨h1, h2⟩ := attach_ok' hr
  obtain ⟨m, h3, h4⟩ := reduce_ok h2
  obtain ⟨y1, y2⟩ := hy.log
  have hsh : y.shape = q.mag.shape := y1.symm
  have h3' : axisMask y.shape.length ax = .ok m := by rw [hsh]; exact h3
  refine ⟨h1, _, _, _, reduce_of_mask _ h3', reduce_of_mask _ h3', reduce_of_mask _ h3', ?_, fun i => ?_⟩
  · change r.mag.shape = _
    rw [h4]
    simp only [reduceMask, hsh]
  · have e : (v.phys r).elem i = (S ((indices (pick true m q.mag.shape)).map
        (fun j => q.mag.elem (merge m i j)))).val * v.size q.dim := by
      change (r.mag.elem i).val * v.size r.dim = _
      rw [h1, h4]
      rfl
    rw [e]
    simp only [reduceMask, hsh, List.length_map]
    have key := sum_of_close (A := A) (indices (pick true m q.mag.shape)) (fun j => (q.mag.elem (merge m i j)).val)
      (fun j => y.elem (merge m i j)) (v.size q.dim) c _ hc (v.size_pos _) (fun j => y2 (merge m i j))
      (by have := hS ((indices (pick true m q.mag.shape)).map (fun j => q.mag.elem (merge m i j)))
          rw [List.map_map] at this
          exact this)
    exact key

/-- C111: `q.sum(axis)` keeps the units, and its physical value differs from the exact sum of the physical
values by at most what one rounding error for each number added makes of the sum of the absolute values: in
whatever order numpy adds. -/
theorem C111_sum (S : List (Fl A) → Fl A) (hS : ∀ l : List (Fl A), RoundedSum A (l.map Fl.val) (S l).val)
    (q r : Quantity (Fl A)) (ax : Axis) (hr : q.sumBy S ax = .ok r) :
    r.dim = q.dim ∧ ∀ v : FlValuation w, WithinSumErrors A 0 ax (v.phys r) (v.phys q) := by
  refine ⟨(attach_ok' hr).1, fun v => (sumBy_close hS hr v le_rfl ⟨rfl, fun i => ⟨1, ?_, ?_, ?_⟩⟩).2⟩ <;> simp

/-- C111: converting before adding costs no more than the errors of the conversion. -/
theorem C111_convert_then_sum (hw : Reachable h w) (cost : UKey → ℝ) (hb : ErrorBudget w cost)
    (S : List (Fl A) → Fl A) (hS : ∀ l : List (Fl A), RoundedSum A (l.map Fl.val) (S l).val)
    (q q' r : Quantity (Fl A)) (d : Dim) (ax : Axis) (hq : DimOK w q.dim) (hd : DimOK w d)
    (hs : HashSafe w q.dim d) (hc : q.rescale w d = .ok q') (hr : q'.sumBy S ax = .ok r) :
    SameContent r.dim d ∧ ∀ v : FlValuation w,
      WithinSumErrors A (dimCost cost q.dim + dimCost cost d + 4) ax (v.phys r) (v.phys q) := by
  obtain ⟨c1, c2⟩ := C58_rescale hw cost hb q q' d hq hd hs hc
  have n1 := dimCost_nonneg hb.nonneg q.dim
  have n2 := dimCost_nonneg hb.nonneg d
  refine ⟨by rw [(attach_ok' hr).1]; exact c1, fun v => (sumBy_close hS hr v (by linarith) (c2 v)).2⟩

/-- C111: and so does converting the sum. -/
theorem C111_sum_then_convert (hw : Reachable h w) (cost : UKey → ℝ) (hb : ErrorBudget w cost)
    (S : List (Fl A) → Fl A) (hS : ∀ l : List (Fl A), RoundedSum A (l.map Fl.val) (S l).val)
    (q r r' : Quantity (Fl A)) (d : Dim) (ax : Axis) (hq : DimOK w q.dim) (hd : DimOK w d)
    (hs : HashSafe w q.dim d) (hr : q.sumBy S ax = .ok r) (hc : r.rescale w d = .ok r') :
    SameContent r'.dim d ∧ ∀ v : FlValuation w,
      WithinSumErrors A (dimCost cost q.dim + dimCost cost d + 4) ax (v.phys r') (v.phys q) := by
  obtain ⟨s1, s2⟩ := C111_sum (w := w) S hS q r ax hr
  obtain ⟨c1, c2⟩ := C58_rescale hw cost hb r r' d (s1 ▸ hq) hd (s1 ▸ hs) hc
  refine ⟨c1, fun v => ?_⟩
  obtain ⟨s, n, t, e1, e2, e3, e4, e5⟩ := s2 v
  rw [s1] at c2
  obtain ⟨y1, y2⟩ := (c2 v).log
  refine ⟨s, n, t, e1, e2, e3, y1.trans e4, fun i => ?_⟩
  obtain ⟨u, u1, u2, u3⟩ := y2 i
  have h1 := e5 i
  rw [zero_add] at h1
  obtain ⟨m, m1, m2⟩ := reduce_ok e1
  obtain ⟨m', m1', m2'⟩ := reduce_ok e3
  rw [m1] at m1'; cases m1'
  have hst : |s.elem i| ≤ t.elem i := by
    rw [m2, m2']
    exact abs_sum_le _
  have h2 := A.near_one u1 u2
  generalize dimCost cost q.dim + dimCost cost d + 4 = c at h2 ⊢
  have hB : A.bound (c + n.elem i) = A.bound (n.elem i) * (A.bound c + 1) + A.bound c := by
    have e := A.bound_add_one (c + n.elem i)
    rw [Real.rpow_add A.one_sub_pos, mul_inv, ← A.bound_add_one, ← A.bound_add_one] at e
    linarith
  have hc0 : 0 ≤ A.bound c := (abs_nonneg _).trans h2
  have hn : 0 ≤ A.bound (n.elem i) := A.bound_nonneg (by positivity)
  have ht : 0 ≤ t.elem i := (abs_nonneg _).trans hst
  have h3 : |(v.phys r).elem i| ≤ (A.bound (n.elem i) + 1) * t.elem i := by
    have := abs_sub_abs_le_abs_sub ((v.phys r).elem i) (s.elem i)
    linarith
  rw [u3, show u * (v.phys r).elem i - s.elem i = (u - 1) * (v.phys r).elem i + ((v.phys r).elem i - s.elem i) by ring]
  refine (abs_add_le _ _).trans ?_
  rw [abs_mul, hB]
  have h4 : |u - 1| * |(v.phys r).elem i| ≤ A.bound c * ((A.bound (n.elem i) + 1) * t.elem i) :=
    mul_le_mul h2 h3 (abs_nonneg _) hc0
  linarith

/-- C111: the mean, where numpy divides the sum by the number of elements. -/
theorem C111_mean (M S : List (Fl A) → Fl A) (hS : ∀ l : List (Fl A), RoundedSum A (l.map Fl.val) (S l).val)
    (hM : ∀ l : List (Fl A), (M l).val = A.div (S l).val l.length)
    (q r : Quantity (Fl A)) (ax : Axis) (hr : q.meanBy M ax = .ok r) :
    r.dim = q.dim ∧ ∀ v : FlValuation w, WithinMeanErrors A 0 ax (v.phys r) (v.phys q) := by
  obtain ⟨h1, h2⟩ := attach_ok' hr
  obtain ⟨m, h3, h4⟩ := reduce_ok h2
  refine ⟨h1, fun v => ?_⟩
  obtain ⟨-, s, n, t, e1, e2, e3, e4, e5⟩ := sumBy_close (w := w) hS (q := q) (ax := ax)
    (r := ⟨reduceMask S m q.mag, q.dim⟩) (by unfold Quantity.sumBy; rw [reduce_of_mask S h3]; rfl) v le_rfl
    (c := 0) (y := v.phys q) ⟨rfl, fun i => ⟨1, by simp, by simp, by simp⟩⟩
  have h3' : axisMask (v.phys q).shape.length ax = .ok m := h3
  rw [reduce_of_mask _ h3'] at e1 e2
  cases e1; cases e2
  refine ⟨_, _, t, reduce_of_mask _ h3', reduce_of_mask _ h3', e3, ?_, fun i hi => ?_⟩
  · change r.mag.shape = _
    rw [h4]; rfl
  · have h5 := e5 i
    set l := (indices (pick true m q.mag.shape)).map (fun j => q.mag.elem (merge m i j)) with hl
    have hlen : (reduceMask List.length m (v.phys q)).elem i = l.length := by
      simp only [reduceMask, hl, List.length_map]; rfl
    have e : (v.phys r).elem i = A.div (S l).val l.length * v.size q.dim := by
      change (r.mag.elem i).val * v.size r.dim = _
      rw [h1, h4, ← hM]
      rfl
    have e' : (v.phys ⟨reduceMask S m q.mag, q.dim⟩).elem i = (S l).val * v.size q.dim := rfl
    rw [hlen] at hi h5 ⊢
    have hpos : (0 : ℝ) < l.length := by exact_mod_cast Nat.pos_of_ne_zero hi
    have hmean : (reduceMask lmean m (v.phys q)).elem i = (reduceMask List.sum m (v.phys q)).elem i / l.length := by
      rw [← hlen]; rfl
    rw [hmean, e]
    rw [e', zero_add] at h5
    obtain ⟨u, u1, u2, u3⟩ := A.factor (A.div_err (S l).val l.length hpos.ne')
    rw [u3, zero_add]
    obtain ⟨m', m1', m2'⟩ := reduce_ok e3
    rw [h3'] at m1'; cases m1'
    have hst : |(reduceMask List.sum m (v.phys q)).elem i| ≤ t.elem i := by
      rw [m2']
      exact abs_sum_le _
    generalize (reduceMask List.sum m (v.phys q)).elem i = σ at h5 hst ⊢
    have h6 := A.near_one (n := 1) u1 (by linarith)
    have hB : A.bound ((l.length : ℝ) + 1) = A.bound l.length * (A.bound 1 + 1) + A.bound 1 := by
      have e := A.bound_add_one ((l.length : ℝ) + 1)
      rw [Real.rpow_add A.one_sub_pos, mul_inv, ← A.bound_add_one, ← A.bound_add_one] at e
      linarith
    have hc0 : 0 ≤ A.bound 1 := (abs_nonneg _).trans h6
    have hn : 0 ≤ A.bound l.length := A.bound_nonneg (by positivity)
    have ht : 0 ≤ t.elem i := (abs_nonneg _).trans hst
    have hx : |(S l).val * v.size q.dim| ≤ (A.bound l.length + 1) * t.elem i := by
      have := abs_sub_abs_le_abs_sub ((S l).val * v.size q.dim) σ
      linarith
    rw [show u * ((S l).val / l.length) * v.size q.dim - σ / l.length =
      ((u - 1) * ((S l).val * v.size q.dim) + ((S l).val * v.size q.dim - σ)) / l.length by ring, abs_div,
      abs_of_pos hpos, hB, ← mul_div_assoc]
    refine div_le_div_of_nonneg_right ?_ hpos.le
    refine (abs_add_le _ _).trans ?_
    rw [abs_mul]
    have := mul_le_mul h6 hx (abs_nonneg _) hc0
    linarith

theorem Arith.factor_bounds (A : Arith) {t n : ℝ} (t1 : 0 < t) (t2 : |Real.log t| ≤ n * A.L) :
    (1 - A.eps) ^ n ≤ t ∧ t ≤ ((1 - A.eps) ^ n)⁻¹ := by
  have := withinErrors_of_log (A := A) (n := n) (x := NDArr.scalar t) (y := NDArr.scalar 1) rfl
    (fun i => ⟨t, t1, t2, by simp [NDArr.scalar]⟩)
  obtain ⟨s, s1, s2, s3⟩ := this.2 []
  have : s = t := by simpa [NDArr.scalar] using s3.symm
  exact this ▸ ⟨s1, s2⟩

theorem prodPower_count {K : Type _} {q : Quantity K} {ax : Axis} {m : List Bool} {n : Nat}
    (hm : axisMask q.mag.shape.length ax = .ok m) (hn : q.prodPower ax = .ok n) :
    (pick true m q.mag.shape).prod = n := by
  cases ax with
  | all =>
    simp only [axisMask, Except.ok.injEq] at hm
    simp only [Quantity.prodPower, Except.ok.injEq] at hn
    rw [← hm, ← hn, pick_true_replicate]
    rfl
  | one x =>
    simp only [axisMask] at hm
    simp only [Quantity.prodPower, Quantity.shapeAt] at hn
    rcases hx : normAxis q.mag.shape.length x with e | p
    · rw [hx] at hm; simp at hm
    · rw [hx] at hm hn
      simp only [Except.ok.injEq] at hm hn
      have := (normAxis_ok.1 hx).1
      rw [← hm, ← hn, pick_true_onehot this]
      simp
  | many l => simp [Quantity.prodPower] at hn

/-- C111: `q.prod(axis)` raises the units to the number of factors, and its physical value is the exact product
of the physical values up to one rounding error for each factor, in whatever order numpy multiplies. -/
theorem C111_prod (P : List (Fl A) → Fl A)
    (hP : ∀ l : List (Fl A), RoundedProd A (1 :: l.map Fl.val) (P l).val ∨
      (l ≠ [] ∧ RoundedProd A (l.map Fl.val) (P l).val))
    (q r : Quantity (Fl A)) (ax : Axis) (hr : q.prodBy P ax = .ok r) :
    (∃ n, q.mag.reduce List.length ax = .ok n ∧ ∀ i u, expo r.dim u = expo q.dim u * n.elem i) ∧
      ∀ v : FlValuation w, WithinProdErrors A ax (v.phys r) (v.phys q) := by
  unfold Quantity.prodBy at hr
  rcases hn : q.prodPower ax with e | n
  · rw [hn] at hr; cases hr
  rw [hn] at hr
  simp only at hr
  obtain ⟨h1, h2⟩ := attach_ok' hr
  obtain ⟨m, h3, h4⟩ := reduce_ok h2
  have hc := prodPower_count h3 hn
  refine ⟨⟨_, reduce_of_mask _ h3, fun i u => ?_⟩, fun v => ?_⟩
  · rw [h1]
    simp only [reduceMask, List.length_map, indices_length, hc, expo_pow]
  have h3' : axisMask (v.phys q).shape.length ax = .ok m := h3
  refine ⟨_, _, reduce_of_mask _ h3', reduce_of_mask _ h3', ?_, fun i => ?_⟩
  · change r.mag.shape = _
    rw [h4]; rfl
  · set l := (indices (pick true m q.mag.shape)).map (fun j => q.mag.elem (merge m i j)) with hl
    have hlen : (reduceMask List.length m (v.phys q)).elem i = l.length := by
      simp only [reduceMask, hl, List.length_map]; rfl
    have hlen' : l.length = n := by rw [hl, List.length_map, indices_length, hc]
    have hsz : v.size r.dim = v.size q.dim ^ n := by
      rw [h1, FlValuation.size, dsize_pow v.pos, LawfulRPow.rpow_natCast]; rfl
    have e : (v.phys r).elem i = (P l).val * v.size q.dim ^ n := by
      change (r.mag.elem i).val * v.size r.dim = _
      rw [hsz, h4]
      rfl
    have ep : (reduceMask List.prod m (v.phys q)).elem i = (l.map Fl.val).prod * v.size q.dim ^ n := by
      have := lprod_map (v.size q.dim) (l.map Fl.val)
      rw [List.length_map, hlen', List.map_map] at this
      rw [← this]
      simp only [reduceMask, hl, List.map_map]
      rfl
    rw [hlen, e, ep]
    have key : ∃ t, 0 < t ∧ |Real.log t| ≤ (l.length : ℝ) * A.L ∧ (P l).val = t * (l.map Fl.val).prod := by
      rcases hP l with hp | ⟨-, hp⟩
      · obtain ⟨-, t, t1, t2, t3⟩ := hp.error
        refine ⟨t, t1, ?_, by simpa using t3⟩
        simpa using t2
      · obtain ⟨-, t, t1, t2, t3⟩ := hp.error
        refine ⟨t, t1, ?_, t3⟩
        rw [List.length_map] at t2
        have := A.L_nonneg
        linarith
    obtain ⟨t, t1, t2, t3⟩ := key
    obtain ⟨b1, b2⟩ := A.factor_bounds t1 t2
    exact ⟨t, b1, b2, by rw [t3]; ring⟩

/-! ### Cases -/

/-- Adding from the right, as `List.sum` does. -/
theorem roundedSum_listSum : ∀ l : List (Fl A), RoundedSum A (l.map Fl.val) l.sum.val
  | [] => .nil
  | [x] => .last x.val
  | x :: y :: l => by
    have := RoundedSum.add (A := A) (l := [x.val]) (m := (y :: l).map Fl.val) (by simp) (by simp) (.one _)
      (roundedSum_listSum (y :: l))
    exact this

theorem roundedProd_listProd : ∀ l : List (Fl A), RoundedProd A (1 :: l.map Fl.val) l.prod.val
  | [] => .one _
  | x :: l => by
    have := RoundedProd.mul (A := A) (.one x.val) (roundedProd_listProd l)
    exact this.perm (List.Perm.swap _ _ _)

/-- Three lengths. -/
noncomputable def flThree : Quantity (Fl exArith) := ⟨⟨[3], fun i => ⟨(i.headD 0 : ℝ) + 1⟩⟩, dKm⟩

example : ∃ r, flThree.sumBy List.sum .all = .ok r ∧ r.dim = dKm ∧ ∀ v : FlValuation flWorld,
    WithinSumErrors exArith 0 .all (v.phys r) (v.phys flThree) := by
  obtain ⟨h1, h2⟩ := C111_sum (w := flWorld) _ roundedSum_listSum flThree _ .all rfl
  exact ⟨_, rfl, h1, h2⟩

example : ∃ r, flThree.prodBy List.prod (.one 0) = .ok r ∧ ∀ v : FlValuation flWorld,
    WithinProdErrors exArith (.one 0) (v.phys r) (v.phys flThree) :=
  ⟨_, rfl, (C111_prod (w := flWorld) _ (fun l => .inl (roundedProd_listProd l)) flThree _ (.one 0) rfl).2⟩

example : ∃ r, flThree.meanBy (fun l => ⟨exArith.div l.sum.val l.length⟩) (.one (-1)) = .ok r ∧
    ∀ v : FlValuation flWorld, WithinMeanErrors exArith 0 (.one (-1)) (v.phys r) (v.phys flThree) :=
  ⟨_, rfl, (C111_mean (w := flWorld) _ _ roundedSum_listSum (fun _ => rfl) flThree _ (.one (-1)) rfl).2⟩

example : ∃ q' r, flThree.rescale flWorld dM = .ok q' ∧ q'.sumBy List.sum .all = .ok r ∧
    ∀ v : FlValuation flWorld, WithinSumErrors exArith (dimCost (fun u => if u = uKm then 3 else 0) dKm +
      dimCost (fun u => if u = uKm then 3 else 0) dM + 4) .all (v.phys r) (v.phys flThree) := by
  obtain ⟨κ, hw⟩ := flWorld_reachable.flWF _ fl_budget
  obtain ⟨q', hq'⟩ := (C58_returns flWorld_reachable flThree dM (fl_dimOK _ (.inl rfl)) (fl_dimOK _ (.inr rfl))
    fl_safe).2 ((hw.compatible_iff fl_budget.nonneg (fl_dimOK _ (.inl rfl)) (fl_dimOK _ (.inr rfl))).2 (by
      show SameContent (flWorld.refUnits dKm).dim _
      rw [flRef_km, flRef_m]; exact SameContent.refl _))
  exact ⟨q', _, hq', rfl, (C111_convert_then_sum flWorld_reachable _ fl_budget _ roundedSum_listSum flThree q' _ dM
    .all (fl_dimOK _ (.inl rfl)) (fl_dimOK _ (.inr rfl)) fl_safe hq' rfl).2⟩

end PQ
