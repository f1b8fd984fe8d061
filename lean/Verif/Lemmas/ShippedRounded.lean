import Verif.Lemmas.ShippedErrors
import Verif.Lemmas.ShippedExample
import Verif.Lemmas.UncertainRounding
import Verif.Props.Rounding

/-! # The shipped table loaded with rounded arithmetic -/

namespace PQ

open Dict World Shipped LawfulRPow

variable {A : Arith}

theorem OffL.rpow {n x x' : ℝ} (hx : OffL A n x x') (h0 : 0 < x') (p : ℚ) :
    OffL A (|(p : ℝ)| * n) (x ^ (p : ℝ)) (x' ^ (p : ℝ)) := by
  obtain ⟨t, t1, t2, t3⟩ := hx
  refine ⟨t ^ (p : ℝ), Real.rpow_pos_of_pos t1 _, ?_, ?_⟩
  · rw [Real.log_rpow t1, abs_mul, mul_assoc]
    exact mul_le_mul_of_nonneg_left t2 (abs_nonneg _)
  · rw [t3, Real.mul_rpow t1.le h0.le]

theorem OffL.pos {n x x' : ℝ} (hx : OffL A n x x') (h0 : 0 < x') : 0 < x := by
  obtain ⟨t, t1, -, t3⟩ := hx
  rw [t3]; exact mul_pos t1 h0

theorem OffL.pow {n x x' : ℝ} (hx : OffL A n x x') (h0 : 0 < x') (p : ℚ) :
    OffL A (|(p : ℝ)| * n + 1) (A.pow x p) (x' ^ (p : ℝ)) := by
  have := (OffL.of_err (A.pow_err x p (hx.pos h0))).trans (hx.rpow h0 p)
  exact this.mono (by linarith)

namespace Shipped

theorem cdiv_le (a d : Nat) : (a : ℝ) / d ≤ (cdiv a d : ℕ) := by
  rcases Nat.eq_zero_or_pos d with rfl | hd
  · simp
  rw [div_le_iff₀ (by exact_mod_cast hd)]
  have h1 : d * ((a + d - 1) / d) + (a + d - 1) % d = a + d - 1 := Nat.div_add_mod _ _
  have h2 : (a + d - 1) % d < d := Nat.mod_lt _ hd
  have : a ≤ cdiv a d * d := by unfold cdiv; rw [Nat.mul_comm]; omega
  exact_mod_cast this

theorem abs_frac (n : Int) (d : Nat) : |(((n : ℚ) / d : ℚ) : ℝ)| = (n.natAbs : ℝ) / d := by
  push_cast
  rw [abs_div, Nat.abs_cast]
  congr 1
  rw [Nat.cast_natAbs, Int.cast_abs]

theorem frac_le (n : Int) (d a : Nat) : |(((n : ℚ) / d : ℚ) : ℝ)| * a ≤ (cdiv (n.natAbs * a) d : ℕ) := by
  rw [abs_frac]
  have := cdiv_le (n.natAbs * a) d
  push_cast at this
  rwa [div_mul_eq_mul_div]

variable {lit : Int → Nat → Fl A} {pf : Fl A} {π : ℝ}

/-- The unit of a definition does not depend on the arithmetic. -/
theorem Expr.evalWith_dim (key : Nat → UKey) : ∀ e : Expr, (e.evalWith lit key pf).dim = (e.eval key π).dim
  | .num _ _ => rfl
  | .pi => rfl
  | .unit _ => rfl
  | .mul a b => by simp only [Expr.evalWith, Expr.eval, evalWith_dim key a, evalWith_dim key b]
  | .div a b => by simp only [Expr.evalWith, Expr.eval, evalWith_dim key a, evalWith_dim key b]
  | .pow a n d => by simp only [Expr.evalWith, Expr.eval, evalWith_dim key a]
  | .add a b => by simp only [Expr.evalWith, Expr.eval, evalWith_dim key a]
  | .quantity p q u => by simp only [Expr.evalWith, Expr.eval, evalWith_dim key u]

/-- The number of a definition. -/
theorem Expr.evalWith_mag (hl : RoundedLiterals A lit pf π) (hπ : 0 < π) (key : Nat → UKey) : ∀ e : Expr, e.positive = true →
    OffL A (e.magErr : ℝ) (e.evalWith lit key pf).mag.val (e.eval key π).mag
  | .num p q, h => by
      simp only [Expr.positive, Bool.and_eq_true, decide_eq_true_eq, Nat.blt_eq] at h
      simpa [Expr.magErr, Expr.evalWith, Expr.eval] using OffL.of_err (hl.literal p q h.2)
  | .pi, _ => by simpa [Expr.magErr, Expr.evalWith, Expr.eval] using OffL.of_err hl.pi
  | .unit _, _ => by simpa [Expr.magErr, Expr.evalWith, Expr.eval] using OffL.refl (A := A) le_rfl (1 : ℝ)
  | .mul a b, h => by
      simp only [Expr.positive, Bool.and_eq_true] at h
      have := (Expr.evalWith_mag hl hπ key a h.1).mul (Expr.evalWith_mag hl hπ key b h.2)
      refine OffL.mono (x := A.mul _ _) this ?_
      simp only [Expr.magErr]; push_cast; linarith
  | .div a b, h => by
      simp only [Expr.positive, Bool.and_eq_true] at h
      have := (Expr.evalWith_mag hl hπ key a h.1).div (Expr.evalWith_mag hl hπ key b h.2)
        (Expr.eval_pos key hπ b h.2).ne'
      refine OffL.mono (x := A.div _ _) this ?_
      simp only [Expr.magErr]; push_cast; linarith
  | .pow a n d, h => by
      simp only [Expr.positive] at h
      have := (Expr.evalWith_mag hl hπ key a h).pow (Expr.eval_pos key hπ a h) ((n : ℚ) / d)
      refine OffL.mono (x := A.pow _ _) this ?_
      have := frac_le n d a.magErr
      simp only [Expr.magErr]; push_cast at this ⊢; linarith
  | .add a b, h => by
      simp only [Expr.positive, Bool.and_eq_true] at h
      have ha := (Expr.evalWith_mag hl hπ key a h.1).mono
        (show ((a.magErr : ℕ) : ℝ) ≤ (Nat.max a.magErr b.magErr : ℕ) by exact_mod_cast Nat.le_max_left _ _)
      have hb := (Expr.evalWith_mag hl hπ key b h.2).mono
        (show ((b.magErr : ℕ) : ℝ) ≤ (Nat.max a.magErr b.magErr : ℕ) by exact_mod_cast Nat.le_max_right _ _)
      have := ha.add hb (Expr.eval_pos key hπ a h.1).le (Expr.eval_pos key hπ b h.2).le
      refine OffL.mono (x := A.add _ _) this ?_
      simp only [Expr.magErr]; push_cast; linarith
  | .quantity p q u, h => by
      simp only [Expr.positive, Bool.and_eq_true, decide_eq_true_eq, Nat.blt_eq] at h
      simpa [Expr.magErr, Expr.evalWith, Expr.eval] using OffL.of_err (hl.literal p q h.2)

/-- The unit of a definition, when the units it refers to have sizes `v` and `V`. -/
theorem Expr.eval_dsize (key : Nat → UKey) (ts : List (Nat × Nat)) {v V : UKey → ℝ} (hv : ∀ u, 0 < v u)
    (hV : ∀ u, 0 < V u) (n : Nat) (hu : ∀ j, j < n → OffL A (((ts[j]?).getD (0, 0)).1 : ℝ) (v (key j)) (V (key j))) :
    ∀ e : Expr, e.refs n = true →
      OffL A (e.dimErr ts : ℝ) (dsize v (e.eval key π).dim) (dsize V (e.eval key π).dim)
  | .num p q, _ => by simpa [Expr.dimErr, Expr.eval] using OffL.refl (A := A) le_rfl (1 : ℝ)
  | .pi, _ => by simpa [Expr.dimErr, Expr.eval] using OffL.refl (A := A) le_rfl (1 : ℝ)
  | .unit i, h => by
      simp only [Expr.refs, Nat.blt_eq] at h
      simp only [Expr.eval, unitDim, Expr.dimErr]
      split
      · simpa using OffL.refl (A := A) (Nat.cast_nonneg _) (1 : ℝ)
      · simpa [dsize_cons, rpow_one] using hu i h
  | .mul a b, h => by
      simp only [Expr.refs, Bool.and_eq_true] at h
      have := (Expr.eval_dsize key ts hv hV n hu a h.1).times (Expr.eval_dsize key ts hv hV n hu b h.2)
      simp only [Expr.eval, Expr.dimErr, dsize_mul hv, dsize_mul hV]
      exact this.mono (by push_cast; linarith)
  | .div a b, h => by
      simp only [Expr.refs, Bool.and_eq_true] at h
      have := (Expr.eval_dsize key ts hv hV n hu a h.1).over (Expr.eval_dsize key ts hv hV n hu b h.2)
      simp only [Expr.eval, Expr.dimErr, dsize_div hv, dsize_div hV]
      exact this.mono (by push_cast; linarith)
  | .pow a m d, h => by
      simp only [Expr.refs] at h
      have := (Expr.eval_dsize key ts hv hV n hu a h).rpow (dsize_pos hV _) ((m : ℚ) / d)
      simp only [Expr.eval, Expr.dimErr, dsize_pow hv, dsize_pow hV, real_rpow_def]
      exact this.mono (frac_le m d _)
  | .add a b, h => by
      simp only [Expr.refs, Bool.and_eq_true] at h
      exact Expr.eval_dsize key ts hv hV n hu a h.1
  | .quantity p q u, h => by
      simp only [Expr.refs] at h
      exact Expr.eval_dsize key ts hv hV n hu u h

end Shipped

/-! ### cost of products and powers -/

variable {cost : UKey → ℝ}

theorem dimCost_nil : dimCost cost [] = 0 := by simp [dimCost]

theorem dimCost_cons (kv : UKey × ℚ) (d : Dim) :
    dimCost cost (kv :: d) = |(kv.2 : ℝ)| * cost kv.1 + 2 + dimCost cost d := by simp [dimCost]

theorem dimCost_set_le (hc : ∀ u, 0 ≤ cost u) (k : UKey) (x : ℚ) : ∀ (d : Dim),
    dimCost cost (Dict.set d k ((get? d k).getD 0 + x)) ≤ dimCost cost d + (|(x : ℝ)| * cost k + 2)
  | [] => by simp [Dict.set, dimCost_cons, dimCost_nil]
  | (a, b) :: d => by
      by_cases h : a = k
      · subst h
        simp only [Dict.set, get?_cons, if_true, Option.getD_some, dimCost_cons]
        have h1 : |((b + x : ℚ) : ℝ)| * cost a ≤ |(b : ℝ)| * cost a + |(x : ℝ)| * cost a := by
          rw [← add_mul]; push_cast
          exact mul_le_mul_of_nonneg_right (abs_add_le _ _) (hc a)
        linarith
      · have ih := dimCost_set_le hc k x d
        simp only [Dict.set, get?_cons, h, if_false, dimCost_cons]
        linarith

theorem dimCost_pop_le (hc : ∀ u, 0 ≤ cost u) (k : UKey) : ∀ (d : Dim), dimCost cost (Dict.pop d k) ≤ dimCost cost d
  | [] => le_rfl
  | (a, b) :: d => by
      by_cases h : a = k
      · simp only [Dict.pop, h, if_true, dimCost_cons]
        have := mul_nonneg (abs_nonneg (b : ℝ)) (hc k)
        linarith
      · simp only [Dict.pop, h, if_false, dimCost_cons]
        linarith [dimCost_pop_le hc k d]

theorem dimCost_mulStep_le (hc : ∀ u, 0 ≤ cost u) (d : Dim) (kv : UKey × ℚ) :
    dimCost cost (Dim.mulStep d kv) ≤ dimCost cost d + (|(kv.2 : ℝ)| * cost kv.1 + 2) := by
  have h1 := dimCost_set_le hc kv.1 kv.2 d
  unfold Dim.mulStep
  rcases hg : get? d kv.1 with _ | e
  · simpa [hg] using h1
  · simp only [hg, Option.getD_some] at h1
    simp only
    split
    · exact (dimCost_pop_le hc _ _).trans h1
    · exact h1

theorem dimCost_mul_le (hc : ∀ u, 0 ≤ cost u) (a b : Dim) :
    dimCost cost (Dim.mul a b) ≤ dimCost cost a + dimCost cost b := by
  unfold Dim.mul
  induction b generalizing a with
  | nil => simp [dimCost_nil]
  | cons kv b ih =>
    rw [List.foldl_cons, dimCost_cons]
    have := dimCost_mulStep_le hc a kv
    linarith [ih (Dim.mulStep a kv)]

theorem dimCost_neg (d : Dim) : dimCost cost (negDim d) = dimCost cost d := by
  induction d with
  | nil => rfl
  | cons kv d ih =>
    have : negDim (kv :: d) = (kv.1, -kv.2) :: negDim d := rfl
    rw [this, dimCost_cons, dimCost_cons, ih]
    simp

theorem dimCost_div_le (hc : ∀ u, 0 ≤ cost u) (a b : Dim) :
    dimCost cost (Dim.div a b) ≤ dimCost cost a + dimCost cost b := by
  rw [div_eq_mul, ← dimCost_neg b]
  exact dimCost_mul_le hc _ _

theorem dimCost_pow_le (hc : ∀ u, 0 ≤ cost u) (a : Dim) (p : ℚ) (m : ℝ) (h1 : 1 ≤ m) (h2 : |(p : ℝ)| ≤ m) :
    dimCost cost (Dim.pow a p) ≤ m * dimCost cost a := by
  unfold Dim.pow
  split
  · rw [dimCost_nil]; exact mul_nonneg (by linarith) (dimCost_nonneg hc a)
  · induction a with
    | nil => simp [dimCost_nil]
    | cons kv a ih =>
      rw [List.map_cons, dimCost_cons, dimCost_cons]
      have h3 : |((kv.2 * p : ℚ) : ℝ)| * cost kv.1 ≤ m * (|(kv.2 : ℝ)| * cost kv.1) := by
        push_cast
        rw [abs_mul, mul_comm |(kv.2 : ℝ)|, mul_assoc]
        exact mul_le_mul_of_nonneg_right h2 (mul_nonneg (abs_nonneg _) (hc _))
      simp only
      linarith

namespace Shipped

theorem Expr.eval_cost (key : Nat → UKey) (ts : List (Nat × Nat)) (hc : ∀ u, 0 ≤ cost u) (n : Nat)
    (hu : ∀ j, j < n → cost (key j) ≤ (((ts[j]?).getD (0, 0)).2 : ℝ)) {π : ℝ} :
    ∀ e : Expr, e.refs n = true → dimCost cost (e.eval key π).dim ≤ (e.refErr ts : ℝ)
  | .num p q, _ => by simp [Expr.refErr, Expr.eval, dimCost_nil]
  | .pi, _ => by simp [Expr.refErr, Expr.eval, dimCost_nil]
  | .unit i, h => by
      simp only [Expr.refs, Nat.blt_eq] at h
      simp only [Expr.eval, unitDim, Expr.refErr]
      have := hu i h
      split
      · rw [dimCost_nil]; positivity
      · rw [dimCost_cons, dimCost_nil]; push_cast; simp only [abs_one, one_mul]; linarith
  | .mul a b, h => by
      simp only [Expr.refs, Bool.and_eq_true] at h
      have h1 := Expr.eval_cost key ts hc n hu (π := π) a h.1
      have h2 := Expr.eval_cost key ts hc n hu (π := π) b h.2
      have := dimCost_mul_le hc (a.eval key π).dim (b.eval key π).dim
      simp only [Expr.eval, Expr.refErr]; push_cast; linarith
  | .div a b, h => by
      simp only [Expr.refs, Bool.and_eq_true] at h
      have h1 := Expr.eval_cost key ts hc n hu (π := π) a h.1
      have h2 := Expr.eval_cost key ts hc n hu (π := π) b h.2
      have := dimCost_div_le hc (a.eval key π).dim (b.eval key π).dim
      simp only [Expr.eval, Expr.refErr]; push_cast; linarith
  | .pow a m d, h => by
      simp only [Expr.refs] at h
      have h1 := Expr.eval_cost key ts hc n hu (π := π) a h
      simp only [Expr.eval, Expr.refErr]
      rcases Nat.eq_zero_or_pos d with rfl | hd
      · simp [Dim.pow, dimCost_nil]
      have hd' : (0 : ℝ) < d := by exact_mod_cast hd
      have hm : ((Nat.max m.natAbs d : ℕ) : ℝ) / d * dimCost cost (a.eval key π).dim ≤
          (cdiv (Nat.max m.natAbs d * a.refErr ts) d : ℕ) := by
        refine le_trans ?_ (cdiv_le _ _)
        rw [div_mul_eq_mul_div]
        push_cast
        gcongr
      refine (dimCost_pow_le hc _ _ (((Nat.max m.natAbs d : ℕ) : ℝ) / d) ?_ ?_).trans hm
      · rw [le_div_iff₀ hd', one_mul]; exact_mod_cast Nat.le_max_right _ _
      · rw [abs_frac]
        gcongr
        exact Nat.le_max_left _ _
  | .add a b, h => by
      simp only [Expr.refs, Bool.and_eq_true] at h
      exact Expr.eval_cost key ts hc n hu a h.1
  | .quantity p q u, h => by
      simp only [Expr.refs] at h
      exact Expr.eval_cost key ts hc n hu u h

end Shipped
end PQ
