import Verif.Props.RoundedSimplified
import Verif.Props.RoundedSums

/-!
# Property C153: sums and comparisons of quantities in shipped units with rounded arithmetic
-/

namespace PQ

open Dict World Shipped LawfulRPow

variable {A : Arith} {lit : Int → Nat → Fl A} {pf : Fl A} {π : ℝ}

attribute [local irreducible] table unitTable constTable dims rowErrs

/-! ## Transferring errors -/

theorem factor_close {n t : ℝ} (ht : 0 < t) (hl : |Real.log t| ≤ n * A.L) :
    |t - 1| ≤ A.bound n ∧ t ≤ A.bound n + 1 := by
  rw [abs_le] at hl
  rw [A.bound_eq]
  have e : Real.exp (Real.log t) = t := Real.exp_log ht
  have up : t ≤ Real.exp (n * A.L) := by rw [← e]; exact Real.exp_le_exp.2 hl.2
  have lo : Real.exp (-(n * A.L)) ≤ t := by rw [← e]; exact Real.exp_le_exp.2 hl.1
  have hp : (0 : ℝ) < Real.exp (n * A.L) := Real.exp_pos _
  have two : 2 - Real.exp (n * A.L) ≤ Real.exp (-(n * A.L)) := by
    have := Real.add_one_le_exp (-(n * A.L))
    have h2 := Real.add_one_le_exp (n * A.L)
    have h3 : Real.exp (n * A.L) * Real.exp (-(n * A.L)) = 1 := by rw [← Real.exp_add, add_neg_cancel, Real.exp_zero]
    have hq := Real.exp_pos (-(n * A.L))
    nlinarith [sq_nonneg (Real.exp (n * A.L) - 1), sq_nonneg (Real.exp (-(n * A.L)) - 1)]
  refine ⟨abs_le.2 ⟨by linarith, by linarith⟩, by linarith⟩

theorem bound_combine {N n t : ℝ} (hN : 0 ≤ N) (ht : 0 < t) (hl : |Real.log t| ≤ n * A.L) :
    t * A.bound N + |t - 1| ≤ A.bound (N + n) := by
  obtain ⟨h1, h2⟩ := factor_close ht hl
  have h0 := A.bound_nonneg hN
  have e : A.bound (N + n) = (A.bound n + 1) * A.bound N + A.bound n := by
    rw [A.bound_eq, A.bound_eq, A.bound_eq, add_mul, Real.exp_add]; ring
  rw [e]
  nlinarith

theorem operand_transfer {σ : ℝ} (hσ : |σ| = 1) {N n sa sb P Q S : ℝ} (hN : 0 ≤ N) (hn : 0 ≤ n) (ha : 0 < sa) (hb : 0 < sb)
    (hl : |Real.log (sb / sa)| ≤ n * A.L)
    (h : |S * sa - (P * sa + σ * (Q * sb))| ≤ A.bound N * (|P * sa| + |Q * sb|)) :
    |S - (P + σ * Q)| ≤ A.bound (N + n) * (|P| + |Q|) := by
  have ht : 0 < sb / sa := div_pos hb ha
  obtain ⟨t, ht', rfl⟩ : ∃ t, t = sb / sa ∧ sb = t * sa := ⟨sb / sa, rfl, by field_simp⟩
  rw [← ht'] at ht hl
  have hc := bound_combine hN ht hl
  have hBN := A.bound_nonneg hN
  have e1 : S * sa - (P * sa + σ * (Q * (t * sa))) = (S - (P + σ * (t * Q))) * sa := by ring
  have e2 : |P * sa| + |Q * (t * sa)| = (|P| + t * |Q|) * sa := by
    rw [abs_mul, abs_mul, abs_mul, abs_of_pos ha, abs_of_pos ht]; ring
  rw [e1, e2, abs_mul, abs_of_pos ha, ← mul_assoc (A.bound N)] at h
  have h' := le_of_mul_le_mul_right h ha
  have e3 : S - (P + σ * Q) = (S - (P + σ * (t * Q))) + σ * ((t - 1) * Q) := by ring
  have h4 : |σ * ((t - 1) * Q)| = |t - 1| * |Q| := by rw [abs_mul, hσ, one_mul, abs_mul]
  have h5 : A.bound N ≤ A.bound (N + n) := A.bound_mono (by linarith)
  rw [e3]
  refine (abs_add_le _ _).trans ?_
  rw [h4]
  nlinarith [abs_nonneg P, abs_nonneg Q]

/-- Comparisons that do not change when both numbers are scaled, or the second is changed by less than the
difference. -/
def Robust (r : ℝ → ℝ → Prop) : Prop :=
  ∀ P Q t s : ℝ, 0 < s → |Q| * |t - 1| < |P - Q| → (r (P * s) (Q * (t * s)) ↔ r P Q)

theorem robust_sign {P Q t : ℝ} (h : |Q| * |t - 1| < |P - Q|) : (P < Q * t ↔ P < Q) ∧ (Q * t < P ↔ Q < P) ∧ P ≠ Q * t ∧ P ≠ Q := by
  rw [← abs_mul] at h
  have h1 := abs_lt.1 (lt_of_le_of_lt (le_refl _) h)
  have hne : P ≠ Q := by
    rintro rfl
    rw [sub_self, abs_zero] at h
    exact absurd h (not_lt.2 (abs_nonneg _))
  have e : Q * (t - 1) = Q * t - Q := by ring
  rw [e] at h1
  rcases lt_or_gt_of_ne hne with hlt | hlt
  · rw [abs_of_neg (by linarith)] at h1
    have h2 : P < Q * t := by linarith [h1.1]
    exact ⟨⟨fun _ => hlt, fun _ => h2⟩, ⟨fun h3 => absurd h3 (not_lt.2 h2.le), fun h3 => absurd h3 (not_lt.2 hlt.le)⟩,
      h2.ne, hne⟩
  · rw [abs_of_pos (by linarith)] at h1
    have h2 : Q * t < P := by linarith [h1.2]
    exact ⟨⟨fun h3 => absurd h3 (not_lt.2 h2.le), fun h3 => absurd h3 (not_lt.2 hlt.le)⟩, ⟨fun _ => hlt, fun _ => h2⟩,
      h2.ne', hne⟩

theorem robust_lt : Robust (· < ·) := fun P Q t s hs h => by
  show P * s < Q * (t * s) ↔ P < Q
  rw [← mul_assoc, mul_lt_mul_iff_left₀ hs]; exact (robust_sign h).1
theorem robust_gt : Robust (· > ·) := fun P Q t s hs h => by
  show Q * (t * s) < P * s ↔ Q < P
  rw [← mul_assoc, mul_lt_mul_iff_left₀ hs]; exact (robust_sign h).2.1
theorem robust_le : Robust (· ≤ ·) := fun P Q t s hs h => by
  show P * s ≤ Q * (t * s) ↔ P ≤ Q
  rw [← mul_assoc, mul_le_mul_iff_left₀ hs, ← not_lt, ← not_lt, (robust_sign h).2.1]
theorem robust_ge : Robust (· ≥ ·) := fun P Q t s hs h => by
  show Q * (t * s) ≤ P * s ↔ Q ≤ P
  rw [← mul_assoc, mul_le_mul_iff_left₀ hs, ← not_lt, ← not_lt, (robust_sign h).1]
theorem robust_eq : Robust (· = ·) := fun P Q t s hs h => by
  show P * s = Q * (t * s) ↔ P = Q
  rw [← mul_assoc, mul_left_inj' hs.ne']
  exact iff_of_false (robust_sign h).2.2.1 (robust_sign h).2.2.2

theorem close_transfer {r : ℝ → ℝ → Prop} (hr : Robust r) {N n sa sb P Q : ℝ} (hN : 0 ≤ N) (ha : 0 < sa) (hb : 0 < sb)
    (hl : |Real.log (sb / sa)| ≤ n * A.L) {m : Prop}
    (h : A.bound N * |Q * sb| < |P * sa - Q * sb| → (m ↔ r (P * sa) (Q * sb)))
    (hc : A.bound (N + n) * |Q| < |P - Q|) : m ↔ r P Q := by
  have ht : 0 < sb / sa := div_pos hb ha
  obtain ⟨t, ht', rfl⟩ : ∃ t, t = sb / sa ∧ sb = t * sa := ⟨sb / sa, rfl, by field_simp⟩
  rw [← ht'] at ht hl
  have hcb := bound_combine hN ht hl
  have hBN := A.bound_nonneg hN
  have hQ := abs_nonneg Q
  have hlt : (t * A.bound N + |t - 1|) * |Q| < |P - Q| := lt_of_le_of_lt (mul_le_mul_of_nonneg_right hcb hQ) hc
  have h1 : |Q| * |t - 1| < |P - Q| := by
    have : 0 ≤ t * A.bound N * |Q| := mul_nonneg (mul_nonneg ht.le hBN) hQ
    nlinarith
  rw [h, hr P Q t sa ha h1]
  have e1 : P * sa - Q * (t * sa) = ((P - Q) - Q * (t - 1)) * sa := by ring
  have e2 : |Q * (t * sa)| = t * |Q| * sa := by
    rw [abs_mul, abs_mul, abs_of_pos ha, abs_of_pos ht]; ring
  rw [e1, e2, abs_mul, abs_of_pos ha, ← mul_assoc]
  refine mul_lt_mul_of_pos_right ?_ ha
  have h2 := abs_sub_abs_le_abs_sub (P - Q) (Q * (t - 1))
  rw [abs_mul] at h2
  nlinarith

/-! ## The two states -/

/-- The pairs of physical values in the two states, and the errors of the sizes. -/
theorem pairs_both (hl : RoundedLiterals A lit pf π) (hπ : 0 < π) (h : Hasher) (a b : Quantity (Fl A))
    (ha : DimOK (loaded saneTable π h) a.dim) (hb : DimOK (loaded saneTable π h) b.dim) (V : Valuation (loaded saneTable π h)) :
    ∃ v : FlValuation (loadedWith lit saneTable pf h), ∃ sa sb : ℝ, 0 < sa ∧ 0 < sb ∧
      v.size a.dim = V.size a.dim * sa ∧ v.size b.dim = V.size b.dim * sb ∧
      |Real.log (sb / sa)| ≤ ((b.dim.map (fun kv => |(kv.2 : ℝ)| * ((errsOf kv.1).1 : ℝ))).sum +
        (a.dim.map (fun kv => |(kv.2 : ℝ)| * ((errsOf kv.1).1 : ℝ))).sum) * A.L ∧
      ∀ p, NDArr.bin Prod.mk (v.phys a) (v.phys b) = .ok p → ∃ p',
        NDArr.bin Prod.mk (exactPhys V a) (exactPhys V b) = .ok p' ∧ p'.shape = p.shape ∧
        ∀ i, p.elem i = ((p'.elem i).1 * sa, (p'.elem i).2 * sb) := by
  obtain ⟨v, hv⟩ := sizes_both hl hπ h V
  obtain ⟨sa, a1, a2, a3⟩ := hv a.dim ha
  obtain ⟨sb, b1, b2, b3⟩ := hv b.dim hb
  refine ⟨v, sa, sb, a1, b1, by rw [a3]; ring, by rw [b3]; ring, ?_, fun p hp => ?_⟩
  · rw [Real.log_div b1.ne' a1.ne', add_mul]
    rw [abs_le] at a2 b2 ⊢
    constructor <;> linarith
  · have hsh : NDArr.bshape (exactPhys V a).shape (exactPhys V b).shape = some p.shape := by
      obtain ⟨m1, m2⟩ := NDArr.bin_elim hp
      exact m1
    have hp2 : NDArr.bin Prod.mk (v.phys a) (v.phys b) = .ok _ := NDArr.bin_intro Prod.mk hsh
    rw [hp] at hp2
    simp only [Except.ok.injEq] at hp2
    refine ⟨_, NDArr.bin_intro Prod.mk hsh, rfl, fun i => ?_⟩
    rw [hp2]
    simp only [FlValuation.phys, exactPhys, NDArr.map, a3, b3, Prod.mk.injEq]
    exact ⟨by ring, by ring⟩

theorem sum_nonneg_errs (d : Dim) : 0 ≤ (d.map (fun kv => |(kv.2 : ℝ)| * ((errsOf kv.1).1 : ℝ))).sum := by
  refine List.sum_nonneg fun x hx => ?_
  obtain ⟨kv, -, rfl⟩ := List.mem_map.1 hx
  exact mul_nonneg (abs_nonneg _) (Nat.cast_nonneg _)

theorem steps_split (m : ℝ) (a b : Dim) (ha : ∀ kv ∈ a, ((errsOf kv.1).1 : ℝ) + ((errsOf kv.1).2 : ℝ) ≤ m)
    (hb : ∀ kv ∈ b, ((errsOf kv.1).1 : ℝ) + ((errsOf kv.1).2 : ℝ) ≤ m) (k : ℝ) :
    dimCost (fun u => ((errsOf u).2 : ℝ)) b + dimCost (fun u => ((errsOf u).2 : ℝ)) a + k +
      ((b.map (fun kv => |(kv.2 : ℝ)| * ((errsOf kv.1).1 : ℝ))).sum +
        (a.map (fun kv => |(kv.2 : ℝ)| * ((errsOf kv.1).1 : ℝ))).sum) ≤ unitSteps m a + unitSteps m b + k := by
  have c1 := cost_split (fun u => ((errsOf u).1 : ℝ)) (fun u => ((errsOf u).2 : ℝ)) m a ha
  have c2 := cost_split (fun u => ((errsOf u).1 : ℝ)) (fun u => ((errsOf u).2 : ℝ)) m b hb
  linarith

/-- Sums and differences, from what is known with the stored sizes. -/
theorem operands_both (hl : RoundedLiterals A lit pf π) (hπ : 0 < π) (h : Hasher) (m : ℝ)
    (f : ℝ → ℝ → ℝ) (σ : ℝ) (hσ : |σ| = 1) (hf : ∀ x y, f x y = x + σ * y) (a b r : Quantity (Fl A))
    (ha : DimOK (loaded saneTable π h) a.dim) (hb : DimOK (loaded saneTable π h) b.dim)
    (hma : ∀ kv ∈ a.dim, ((errsOf kv.1).1 : ℝ) + ((errsOf kv.1).2 : ℝ) ≤ m)
    (hmb : ∀ kv ∈ b.dim, ((errsOf kv.1).1 : ℝ) + ((errsOf kv.1).2 : ℝ) ≤ m) (hd : r.dim = a.dim)
    (hv : ∀ v : FlValuation (loadedWith lit saneTable pf h), ∃ p, NDArr.bin Prod.mk (v.phys a) (v.phys b) = .ok p ∧
      WithinOperandErrors A (dimCost (fun u => ((errsOf u).2 : ℝ)) b.dim + dimCost (fun u => ((errsOf u).2 : ℝ)) a.dim + 5)
        f (v.phys r) p) (V : Valuation (loaded saneTable π h)) :
    ∃ p, NDArr.bin Prod.mk (exactPhys V a) (exactPhys V b) = .ok p ∧
      WithinOperandErrors A (unitSteps m a.dim + unitSteps m b.dim + 5) f (exactPhys V r) p := by
  obtain ⟨v, sa, sb, a1, b1, a2, b2, l, hp⟩ := pairs_both hl hπ h a b ha hb V (lit := lit) (pf := pf)
  obtain ⟨p, p1, p2, p3⟩ := hv v
  obtain ⟨p', q1, q2, q3⟩ := hp p p1
  refine ⟨p', q1, ?_, fun i => ?_⟩
  · rw [q2, ← p2]; rfl
  · have h3 := p3 i
    rw [q3 i] at h3
    simp only [hf, FlValuation.phys, NDArr.map, hd, a2] at h3
    rw [← mul_assoc] at h3
    have n1 := dimCost_nonneg (cost := fun u => ((errsOf u).2 : ℝ)) (fun u => Nat.cast_nonneg _) b.dim
    have n2 := dimCost_nonneg (cost := fun u => ((errsOf u).2 : ℝ)) (fun u => Nat.cast_nonneg _) a.dim
    have h4 := operand_transfer hσ (by linarith) (add_nonneg (sum_nonneg_errs b.dim) (sum_nonneg_errs a.dim)) a1 b1 l h3
    simp only [hf, exactPhys, NDArr.map, hd]
    refine h4.trans (mul_le_mul_of_nonneg_right (A.bound_mono (steps_split m _ _ hma hmb 5)) ?_)
    exact add_nonneg (abs_nonneg _) (abs_nonneg _)

/-- Comparisons, from what is known with the stored sizes. -/
theorem compare_both (hl : RoundedLiterals A lit pf π) (hπ : 0 < π) (h : Hasher) (m : ℝ)
    {r : ℝ → ℝ → Prop} (hr : Robust r) (a b : Quantity (Fl A)) (x : NDArr Bool)
    (ha : DimOK (loaded saneTable π h) a.dim) (hb : DimOK (loaded saneTable π h) b.dim)
    (hma : ∀ kv ∈ a.dim, ((errsOf kv.1).1 : ℝ) + ((errsOf kv.1).2 : ℝ) ≤ m)
    (hmb : ∀ kv ∈ b.dim, ((errsOf kv.1).1 : ℝ) + ((errsOf kv.1).2 : ℝ) ≤ m)
    (hv : ∀ v : FlValuation (loadedWith lit saneTable pf h), ∃ p, NDArr.bin Prod.mk (v.phys a) (v.phys b) = .ok p ∧
      RightUnlessClose A (dimCost (fun u => ((errsOf u).2 : ℝ)) b.dim + dimCost (fun u => ((errsOf u).2 : ℝ)) a.dim + 4)
        r x p) (V : Valuation (loaded saneTable π h)) :
    ∃ p, NDArr.bin Prod.mk (exactPhys V a) (exactPhys V b) = .ok p ∧
      RightUnlessClose A (unitSteps m a.dim + unitSteps m b.dim + 4) r x p := by
  obtain ⟨v, sa, sb, a1, b1, a2, b2, l, hp⟩ := pairs_both hl hπ h a b ha hb V (lit := lit) (pf := pf)
  obtain ⟨p, p1, p2, p3⟩ := hv v
  obtain ⟨p', q1, q2, q3⟩ := hp p p1
  refine ⟨p', q1, by rw [q2]; exact p2, fun i hi => ?_⟩
  have h3 := p3 i
  rw [q3 i] at h3
  have n1 := dimCost_nonneg (cost := fun u => ((errsOf u).2 : ℝ)) (fun u => Nat.cast_nonneg _) b.dim
  have n2 := dimCost_nonneg (cost := fun u => ((errsOf u).2 : ℝ)) (fun u => Nat.cast_nonneg _) a.dim
  refine close_transfer hr (by linarith) a1 b1 l h3 (lt_of_le_of_lt ?_ hi)
  exact mul_le_mul_of_nonneg_right (A.bound_mono (steps_split m _ _ hma hmb 4)) (abs_nonneg _)

theorem compatible_both (hl : RoundedLiterals A lit pf π) (hπ : 0 < π) (h : Hasher) {a b : Dim}
    (ha : DimOK (loaded saneTable π h) a) (hb : DimOK (loaded saneTable π h) b) :
    FlCompatible (loadedWith lit saneTable pf h) a b ↔ Compatible (loaded saneTable π h) a b := by
  obtain ⟨κ, hw⟩ := (sane_with hl hπ h).flWF _ (budget_with h)
  rw [hw.compatible_iff (fun _ => Nat.cast_nonneg _) (dimOK_same h ha) (dimOK_same h hb),
    PQ.compatible_iff (sane_reachable h hπ).wf ha hb, ref_same hl hπ h ha, ref_same hl hπ h hb]

/-! ## The property -/

/-- C153: the sum of two quantities in units and constants of the library exists exactly when the exact definitions
make their units convertible and the shapes broadcast. -/
theorem C153_add_returns (hl : RoundedLiterals A lit pf π) (hπ : 0 < π) (h : Hasher) (a b : Quantity (Fl A))
    (ha : DimOK (loaded saneTable π h) a.dim) (hb : DimOK (loaded saneTable π h) b.dim)
    (hs : HashSafe (loaded saneTable π h) b.dim a.dim) :
    Returns (a.add (loadedWith lit saneTable pf h) (.quantity b)) ↔
      Compatible (loaded saneTable π h) b.dim a.dim ∧ (NDArr.bshape a.mag.shape b.mag.shape).isSome := by
  rw [C94_add_returns (sane_with hl hπ h) a (.quantity b) (dimOK_same h ha) (dimOK_same h hb)
    (safe_same hl hπ h hb ha hs)]
  exact and_congr (compatible_both hl hπ h hb ha) Iff.rfl

/-- C153: the sum has the units of the left operand, and its exact physical value is off by at most what 122 rounding
errors for each unit to the first power, two for each unit and five make of the two operands. -/
theorem C153_add (hl : RoundedLiterals A lit pf π) (hπ : 0 < π) (h : Hasher) (a b r : Quantity (Fl A))
    (ha : DimOK (loaded saneTable π h) a.dim) (hb : DimOK (loaded saneTable π h) b.dim)
    (hs : HashSafe (loaded saneTable π h) b.dim a.dim) (hres : a.add (loadedWith lit saneTable pf h) (.quantity b) = .ok r) :
    r.dim = a.dim ∧ ∀ V : Valuation (loaded saneTable π h), ∃ p,
      NDArr.bin Prod.mk (exactPhys V a) (exactPhys V b) = .ok p ∧
      WithinOperandErrors A (unitSteps 122 a.dim + unitSteps 122 b.dim + 5) (· + ·) (exactPhys V r) p := by
  obtain ⟨h1, h2⟩ := C94_add (sane_with hl hπ h) _ (budget_with h) a r (.quantity b) (dimOK_same h ha) (dimOK_same h hb)
    (safe_same hl hπ h hb ha hs) hres
  exact ⟨h1, operands_both hl hπ h 122 (· + ·) 1 abs_one (fun x y => by rw [one_mul]) a b r ha hb
    (fun kv _ => by exact_mod_cast errsOf_le kv.1) (fun kv _ => by exact_mod_cast errsOf_le kv.1) h1 h2⟩

/-- C153: the same for differences. -/
theorem C153_sub (hl : RoundedLiterals A lit pf π) (hπ : 0 < π) (h : Hasher) (a b r : Quantity (Fl A))
    (ha : DimOK (loaded saneTable π h) a.dim) (hb : DimOK (loaded saneTable π h) b.dim)
    (hs : HashSafe (loaded saneTable π h) b.dim a.dim) (hres : a.sub (loadedWith lit saneTable pf h) (.quantity b) = .ok r) :
    r.dim = a.dim ∧ ∀ V : Valuation (loaded saneTable π h), ∃ p,
      NDArr.bin Prod.mk (exactPhys V a) (exactPhys V b) = .ok p ∧
      WithinOperandErrors A (unitSteps 122 a.dim + unitSteps 122 b.dim + 5) (· - ·) (exactPhys V r) p := by
  obtain ⟨h1, h2⟩ := C94_sub (sane_with hl hπ h) _ (budget_with h) a r (.quantity b) (dimOK_same h ha) (dimOK_same h hb)
    (safe_same hl hπ h hb ha hs) hres
  exact ⟨h1, operands_both hl hπ h 122 (· - ·) (-1) (by simp) (fun x y => by ring) a b r ha hb
    (fun kv _ => by exact_mod_cast errsOf_le kv.1) (fun kv _ => by exact_mod_cast errsOf_le kv.1) h1 h2⟩

/-- C153: comparisons give the truth about the exact physical values except where these agree up to the rounding
errors of the conversion. -/
theorem C153_order (hl : RoundedLiterals A lit pf π) (hπ : 0 < π) (h : Hasher) (a b : Quantity (Fl A)) (x : NDArr Bool)
    (ha : DimOK (loaded saneTable π h) a.dim) (hb : DimOK (loaded saneTable π h) b.dim)
    (hs : HashSafe (loaded saneTable π h) b.dim a.dim) (V : Valuation (loaded saneTable π h)) :
    (a.lt (loadedWith lit saneTable pf h) (.quantity b) = .ok x → ∃ p,
      NDArr.bin Prod.mk (exactPhys V a) (exactPhys V b) = .ok p ∧
      RightUnlessClose A (unitSteps 122 a.dim + unitSteps 122 b.dim + 4) (· < ·) x p) ∧
    (a.le (loadedWith lit saneTable pf h) (.quantity b) = .ok x → ∃ p,
      NDArr.bin Prod.mk (exactPhys V a) (exactPhys V b) = .ok p ∧
      RightUnlessClose A (unitSteps 122 a.dim + unitSteps 122 b.dim + 4) (· ≤ ·) x p) ∧
    (a.gt (loadedWith lit saneTable pf h) (.quantity b) = .ok x → ∃ p,
      NDArr.bin Prod.mk (exactPhys V a) (exactPhys V b) = .ok p ∧
      RightUnlessClose A (unitSteps 122 a.dim + unitSteps 122 b.dim + 4) (· > ·) x p) ∧
    (a.ge (loadedWith lit saneTable pf h) (.quantity b) = .ok x → ∃ p,
      NDArr.bin Prod.mk (exactPhys V a) (exactPhys V b) = .ok p ∧
      RightUnlessClose A (unitSteps 122 a.dim + unitSteps 122 b.dim + 4) (· ≥ ·) x p) := by
  have key := C94_order (sane_with hl hπ h) _ (budget_with h) a b x (dimOK_same h ha) (dimOK_same h hb)
    (safe_same hl hπ h hb ha hs)
  have e : ∀ u : UKey, ((errsOf u).1 : ℝ) + ((errsOf u).2 : ℝ) ≤ 122 := fun u => by exact_mod_cast errsOf_le u
  refine ⟨fun hx => ?_, fun hx => ?_, fun hx => ?_, fun hx => ?_⟩
  · exact compare_both hl hπ h 122 robust_lt a b x ha hb (fun _ _ => e _) (fun _ _ => e _) (fun v => (key v).1 hx) V
  · exact compare_both hl hπ h 122 robust_le a b x ha hb (fun _ _ => e _) (fun _ _ => e _) (fun v => (key v).2.1 hx) V
  · exact compare_both hl hπ h 122 robust_gt a b x ha hb (fun _ _ => e _) (fun _ _ => e _) (fun v => (key v).2.2.1 hx) V
  · exact compare_both hl hπ h 122 robust_ge a b x ha hb (fun _ _ => e _) (fun _ _ => e _) (fun v => (key v).2.2.2 hx) V

/-- C153: `==` of quantities in convertible units is right except where the exact physical values agree up to the
rounding errors of the conversion. -/
theorem C153_equal (hl : RoundedLiterals A lit pf π) (hπ : 0 < π) (h : Hasher) (a b : Quantity (Fl A)) (x : NDArr Bool)
    (ha : DimOK (loaded saneTable π h) a.dim) (hb : DimOK (loaded saneTable π h) b.dim)
    (hs : HashSafe (loaded saneTable π h) b.dim a.dim) (hc : Compatible (loaded saneTable π h) b.dim a.dim)
    (hx : a.eq (loadedWith lit saneTable pf h) (.quantity b) = .ok x) (V : Valuation (loaded saneTable π h)) :
    ∃ p, NDArr.bin Prod.mk (exactPhys V a) (exactPhys V b) = .ok p ∧
      RightUnlessClose A (unitSteps 122 a.dim + unitSteps 122 b.dim + 4) (· = ·) x p := by
  have e : ∀ u : UKey, ((errsOf u).1 : ℝ) + ((errsOf u).2 : ℝ) ≤ 122 := fun u => by exact_mod_cast errsOf_le u
  exact compare_both hl hπ h 122 robust_eq a b x ha hb (fun _ _ => e _) (fun _ _ => e _)
    (fun v => C94_equal (sane_with hl hπ h) _ (budget_with h) a b x (dimOK_same h ha) (dimOK_same h hb)
      (safe_same hl hπ h hb ha hs) ((compatible_both hl hπ h hb ha).2 hc) hx v) V

theorem unit_steps (m : ℝ) (hm : 0 ≤ m) (u : UKey) : unitSteps m (unitDim u) ≤ m + 2 := by
  unfold unitSteps unitDim
  split
  · rw [dimCost_nil]; linarith
  · rw [dimCost_cons, dimCost_nil]; norm_num

/-- Two hundred and fifty-three rounding errors of doubles are less than `10 ^ -13`. -/
theorem bound_doubles (heps : A.eps ≤ 1 / 2 ^ 52) {n : ℝ} (hn : n ≤ 253) : A.bound n ≤ 1 / 10 ^ 13 := by
  refine (A.bound_mono hn).trans ?_
  unfold Arith.bound
  have he := A.eps_nonneg
  have hb : 1 - 253 * A.eps ≤ (1 - A.eps) ^ (253 : ℝ) := by
    have b2 : 1 + (253 : ℝ) * (-A.eps) ≤ (1 + -A.eps) ^ (253 : ℝ) :=
      one_add_mul_self_le_rpow_one_add (by linarith [A.eps_lt_one]) (by norm_num)
    have b3 : (1 + -A.eps) = 1 - A.eps := by ring
    rw [b3] at b2
    linarith
  have hsmall : 253 * A.eps ≤ 253 / 2 ^ 52 := by linarith
  have hlow : (0 : ℝ) < 1 - 253 / 2 ^ 52 := by norm_num
  have h3 : ((1 - A.eps) ^ (253 : ℝ))⁻¹ ≤ (1 - 253 / 2 ^ 52)⁻¹ := inv_anti₀ hlow (by linarith)
  have h4 : ((1 : ℝ) - 253 / 2 ^ 52)⁻¹ ≤ 1 + 1 / 10 ^ 13 := by norm_num
  linarith

/-- C153: with doubles, the sum of numbers in two units or constants of the library is off by at most `10 ^ -13` of
the two operands. -/
theorem C153_add_thirteen_digits (heps : A.eps ≤ 1 / 2 ^ 52) (hl : RoundedLiterals A lit pf π) (hπ : 0 < π) (h : Hasher)
    (s t : Row) (hs : s ∈ saneTable) (ht : t ∈ saneTable)
    (hsafe : HashSafe (loaded saneTable π h) (unitDim t.key) (unitDim s.key)) (x y : NDArr (Fl A)) (r : Quantity (Fl A))
    (hres : (⟨x, unitDim s.key⟩ : Quantity (Fl A)).add (loadedWith lit saneTable pf h) (.quantity ⟨y, unitDim t.key⟩)
      = .ok r) (V : Valuation (loaded saneTable π h)) :
    ∃ p, NDArr.bin Prod.mk (exactPhys V ⟨x, unitDim s.key⟩) (exactPhys V ⟨y, unitDim t.key⟩) = .ok p ∧
      (exactPhys V r).shape = p.shape ∧ ∀ i, |(exactPhys V r).elem i - ((p.elem i).1 + (p.elem i).2)| ≤
        1 / 10 ^ 13 * (|(p.elem i).1| + |(p.elem i).2|) := by
  obtain ⟨p, p1, p2, p3⟩ := (C153_add hl hπ h ⟨x, unitDim s.key⟩ ⟨y, unitDim t.key⟩ r (unitDim_ok (sane_known h π hs))
    (unitDim_ok (sane_known h π ht)) hsafe hres).2 V
  refine ⟨p, p1, p2, fun i => (p3 i).trans (mul_le_mul_of_nonneg_right (bound_doubles heps ?_)
    (add_nonneg (abs_nonneg _) (abs_nonneg _)))⟩
  have h1 := unit_steps 122 (by norm_num) s.key
  have h2 := unit_steps 122 (by norm_num) t.key
  simp only
  linarith

/-- C153: with doubles, numbers in two units or constants of the library whose exact values differ by more than
`10 ^ -13` of the right one are compared correctly. -/
theorem C153_less_thirteen_digits (heps : A.eps ≤ 1 / 2 ^ 52) (hl : RoundedLiterals A lit pf π) (hπ : 0 < π) (h : Hasher)
    (s t : Row) (hs : s ∈ saneTable) (ht : t ∈ saneTable)
    (hsafe : HashSafe (loaded saneTable π h) (unitDim t.key) (unitDim s.key)) (x y : NDArr (Fl A)) (m : NDArr Bool)
    (hres : (⟨x, unitDim s.key⟩ : Quantity (Fl A)).lt (loadedWith lit saneTable pf h) (.quantity ⟨y, unitDim t.key⟩)
      = .ok m) (V : Valuation (loaded saneTable π h)) :
    ∃ p, NDArr.bin Prod.mk (exactPhys V ⟨x, unitDim s.key⟩) (exactPhys V ⟨y, unitDim t.key⟩) = .ok p ∧
      m.shape = p.shape ∧ ∀ i, 1 / 10 ^ 13 * |(p.elem i).2| < |(p.elem i).1 - (p.elem i).2| →
        (m.elem i = true ↔ (p.elem i).1 < (p.elem i).2) := by
  obtain ⟨p, p1, p2, p3⟩ := (C153_order hl hπ h ⟨x, unitDim s.key⟩ ⟨y, unitDim t.key⟩ m (unitDim_ok (sane_known h π hs))
    (unitDim_ok (sane_known h π ht)) hsafe V).1 hres
  refine ⟨p, p1, p2, fun i hi => p3 i (lt_of_le_of_lt (mul_le_mul_of_nonneg_right (bound_doubles heps ?_)
    (abs_nonneg _)) hi)⟩
  have h1 := unit_steps 122 (by norm_num) s.key
  have h2 := unit_steps 122 (by norm_num) t.key
  simp only
  linarith

/-- Metres and feet can be added in an arithmetic that is ten percent off. -/
example : ∃ (h : Hasher) (s t : Row) (r : Quantity (Fl exArith)), s ∈ saneTable ∧ t ∈ saneTable ∧
    HashSafe (loaded saneTable Real.pi h) (unitDim t.key) (unitDim s.key) ∧
    (⟨NDArr.scalar ⟨3⟩, unitDim s.key⟩ : Quantity (Fl exArith)).add (loadedWith exLit saneTable ⟨Real.pi⟩ h)
      (.quantity ⟨NDArr.scalar ⟨2⟩, unitDim t.key⟩) = .ok r := by
  obtain ⟨t, s, t1, s1, t3, s3, hd, hsafe⟩ := foot_meter
  have hs : s ∈ saneTable := List.mem_filter.2 ⟨List.mem_of_getElem? s1, s3⟩
  have ht : t ∈ saneTable := List.mem_filter.2 ⟨List.mem_of_getElem? t1, t3⟩
  obtain ⟨x, hx, -⟩ := dims_get t1
  have hy : dims[34]? = some x := by rw [← hd]; exact hx
  obtain ⟨r, hr⟩ := (C153_add_returns exLiterals Real.pi_pos libH
    (⟨NDArr.scalar ⟨3⟩, unitDim s.key⟩ : Quantity (Fl exArith)) ⟨NDArr.scalar ⟨2⟩, unitDim t.key⟩
    (unitDim_ok (sane_known libH Real.pi hs)) (unitDim_ok (sane_known libH Real.pi ht))
    (hsafe Real.pi Real.pi_pos)).2 ⟨(row_compat libH Real.pi_pos t1 hx t3 s1 hy s3).2 rfl, rfl⟩
  exact ⟨libH, s, t, r, hs, ht, hsafe Real.pi Real.pi_pos, hr⟩

end PQ
