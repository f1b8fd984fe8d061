import Verif.Spec.Rounding
import Verif.Lemmas.Quantity

/-! # Error analysis of conversions -/

namespace PQ

open Dict World

variable {A : Arith}

@[simp] theorem Fl.mul_val (x y : Fl A) : (x * y).val = A.mul x.val y.val := rfl
@[simp] theorem Fl.div_val (x y : Fl A) : (x / y).val = A.div x.val y.val := rfl
@[simp] theorem Fl.rpow_val (x : Fl A) (p : ℚ) : (rpow x p).val = A.pow x.val p := rfl
@[simp] theorem Fl.one_val : (1 : Fl A).val = 1 := rfl
theorem Fl.pos_iff (x : Fl A) : 0 < x ↔ 0 < x.val := Iff.rfl

/-- Logarithmic size of one rounding error. -/
noncomputable def Arith.L (A : Arith) : ℝ := -Real.log (1 - A.eps)

theorem Arith.one_sub_pos (A : Arith) : 0 < 1 - A.eps := by linarith [A.eps_lt_one]

theorem Arith.L_nonneg (A : Arith) : 0 ≤ A.L := by
  unfold Arith.L
  have := Real.log_nonpos A.one_sub_pos.le (by linarith [A.eps_nonneg])
  linarith

/-- A relative error is a factor. -/
theorem Arith.factor (A : Arith) {x y : ℝ} (h : |x - y| ≤ A.eps * |y|) :
    ∃ t, 0 < t ∧ |Real.log t| ≤ A.L ∧ x = t * y := by
  by_cases hy : y = 0
  · subst hy
    have : x = 0 := by simpa using h
    exact ⟨1, one_pos, by simpa using A.L_nonneg, by simp [this]⟩
  have hp := A.one_sub_pos
  have hyp : 0 < |y| := abs_pos.2 hy
  have h1 : |x / y - 1| ≤ A.eps := by
    have : x / y - 1 = (x - y) / y := by field_simp
    rw [this, abs_div, div_le_iff₀ hyp]; exact h
  rw [abs_le] at h1
  have ht : 0 < x / y := by linarith
  refine ⟨x / y, ht, ?_, by field_simp⟩
  rw [abs_le]
  constructor
  · have : Real.log (1 - A.eps) ≤ Real.log (x / y) := Real.log_le_log hp (by linarith)
    unfold Arith.L; linarith
  · have h2 : x / y ≤ (1 - A.eps)⁻¹ := by
      rw [le_inv_comm₀ ht hp]
      have e := A.eps_nonneg
      rw [inv_eq_one_div, le_div_iff₀ ht]
      nlinarith
    have := Real.log_le_log ht h2
    rw [Real.log_inv] at this
    unfold Arith.L; linarith

theorem Arith.mul_factor (A : Arith) (x y : ℝ) : ∃ t, 0 < t ∧ |Real.log t| ≤ A.L ∧ A.mul x y = t * (x * y) :=
  A.factor (A.mul_err x y)

theorem Arith.mul_log (A : Arith) {x y : ℝ} (hx : 0 < x) (hy : 0 < y) :
    0 < A.mul x y ∧ |Real.log (A.mul x y) - (Real.log x + Real.log y)| ≤ A.L := by
  obtain ⟨t, h1, h2, h3⟩ := A.mul_factor x y
  rw [h3]
  have hxy := mul_pos hx hy
  refine ⟨mul_pos h1 hxy, ?_⟩
  rw [Real.log_mul h1.ne' hxy.ne', Real.log_mul hx.ne' hy.ne']
  simpa using h2

theorem Arith.div_log (A : Arith) {x y : ℝ} (hx : 0 < x) (hy : 0 < y) :
    0 < A.div x y ∧ |Real.log (A.div x y) - (Real.log x - Real.log y)| ≤ A.L := by
  obtain ⟨t, h1, h2, h3⟩ := A.factor (A.div_err x y hy.ne')
  rw [h3]
  have hxy := div_pos hx hy
  refine ⟨mul_pos h1 hxy, ?_⟩
  rw [Real.log_mul h1.ne' hxy.ne', Real.log_div hx.ne' hy.ne']
  simpa using h2

theorem Arith.pow_log (A : Arith) {x : ℝ} (hx : 0 < x) (p : ℚ) :
    0 < A.pow x p ∧ |Real.log (A.pow x p) - p * Real.log x| ≤ A.L := by
  obtain ⟨t, h1, h2, h3⟩ := A.factor (A.pow_err x p hx)
  rw [h3]
  have hxy : 0 < x ^ (p : ℝ) := Real.rpow_pos_of_pos hx _
  refine ⟨mul_pos h1 hxy, ?_⟩
  rw [Real.log_mul h1.ne' hxy.ne', Real.log_rpow hx]
  simpa using h2

/-! ## Sizes -/

theorem log_dsize {val : UKey → ℝ} (hv : ∀ u, 0 < val u) (d : Dim) :
    Real.log (dsize val d) = (d.map (fun kv => (kv.2 : ℝ) * Real.log (val kv.1))).sum := by
  induction d with
  | nil => simp
  | cons kv d ih =>
    rw [dsize_cons, List.map_cons, List.sum_cons, ← ih, Real.log_mul]
    · rw [real_rpow_def, Real.log_rpow (hv _)]
    · exact (Real.rpow_pos_of_pos (hv _) _).ne'
    · exact (dsize_pos hv _).ne'

theorem FlValuation.size_pos {w : World (Fl A)} (v : FlValuation w) (d : Dim) : 0 < v.size d :=
  dsize_pos v.pos d

theorem dimCost_nonneg {cost : UKey → ℝ} (h : ∀ u, 0 ≤ cost u) (d : Dim) : 0 ≤ dimCost cost d := by
  unfold dimCost
  refine List.sum_nonneg fun x hx => ?_
  obtain ⟨kv, -, rfl⟩ := List.mem_map.1 hx
  have := mul_nonneg (abs_nonneg (kv.2 : ℝ)) (h kv.1)
  linarith

/-! ## The invariant -/

/-- The exact factor of a dimensionality whose units have the exact factors `κ`. -/
noncomputable def kap (κ : UKey → ℝ) (d : Dim) : ℝ := dsize κ d

/-- The invariant of worlds reached with rounded arithmetic.  `κ u` is the exact size of the unit `u`
in terms of its base units. -/
structure FlWF (w : World (Fl A)) (κ cost : UKey → ℝ) : Prop where
  κpos : ∀ u, 0 < κ u
  nodup : Dict.Nodup w.units
  conv : ∀ u i, w.info u = some i → i.convRef = i.definition.map w.reference
  defOK : ∀ u i q, w.info u = some i → i.definition = some q → 0 < q.mag ∧ DimOK w q.dim
  refBase : ∀ u r, w.convRef u = some r → 0 < r.mag ∧ BaseDim w r.dim
  κbase : ∀ u, w.convRef u = none → κ u = 1
  refSize : ∀ u r (v : FlValuation w), w.convRef u = some r → v.val u = κ u * v.size r.dim
  err : ∀ u r, w.convRef u = some r → |Real.log r.mag.val - Real.log (κ u)| ≤ cost u * A.L
  dimless : ∀ u, u.cls = .dimensionless → w.convRef u = none
  defaultsOK : ∀ c d, w.defaults c = some d → DimOK w d
  registered : ∀ l u, Dict.get? w.registry l = some u → u ∈ w.units.map Prod.fst
  /-- sizes of base units can be chosen freely -/
  free : ∀ b : UKey → ℝ, (∀ u, 0 < b u) → ∃ v : FlValuation w,
    ∀ u, w.convRef u = none → u.cls ≠ .dimensionless → v.val u = b u

section
variable {w : World (Fl A)} {κ cost : UKey → ℝ}

theorem FlWF.unitRef (hw : FlWF w κ cost) (hc : ∀ u, 0 ≤ cost u) {u : UKey}
    (hk : u ∈ w.units.map Prod.fst) (hd : u.cls ≠ .dimensionless) :
    0 < (w.unitRef u).mag.val ∧ BaseDim w (w.unitRef u).dim ∧
      (∀ v : FlValuation w, v.val u = κ u * v.size (w.unitRef u).dim) ∧
      |Real.log (w.unitRef u).mag.val - Real.log (κ u)| ≤ cost u * A.L := by
  unfold World.unitRef
  rcases h : w.convRef u with _ | r
  · refine ⟨one_pos, ⟨unitDim_ok hk, ?_⟩, ?_, ?_⟩
    · intro kv hkv
      simp only [unitDim, hd, if_false, List.mem_singleton] at hkv
      subst hkv; exact h
    · intro v
      rw [hw.κbase u h]
      simp [FlValuation.size, unitDim, hd, dsize_cons, LawfulRPow.rpow_one]
    · rw [hw.κbase u h]
      simpa using mul_nonneg (hc u) A.L_nonneg
  · obtain ⟨h1, h2⟩ := hw.refBase u r h
    exact ⟨h1, h2, fun v => hw.refSize u r v h, hw.err u r h⟩

/-- The loop of `_reference`. -/
theorem FlWF.refFold (hw : FlWF w κ cost) (hc : ∀ u, 0 ≤ cost u) (d : Dim)
    (hk : ∀ kv ∈ d, kv.1 ∈ w.units.map Prod.fst) (hd : ∀ kv ∈ d, kv.1.cls ≠ .dimensionless)
    (rq : SQ (Fl A)) (h0 : 0 < rq.mag.val) (hb : BaseDim w rq.dim) (x e : ℝ) (hx : 0 < x)
    (he : |Real.log rq.mag.val - Real.log x| ≤ e * A.L) :
    0 < (d.foldl (refStep w) rq).mag.val ∧ BaseDim w (d.foldl (refStep w) rq).dim ∧
      (∀ v : FlValuation w, x * kap κ d * v.size (d.foldl (refStep w) rq).dim
        = x * v.size rq.dim * v.size d) ∧
      |Real.log (d.foldl (refStep w) rq).mag.val - Real.log (x * kap κ d)| ≤ (e + dimCost cost d) * A.L := by
  induction d generalizing rq x e with
  | nil => exact ⟨h0, hb, fun v => by simp [FlValuation.size, kap], by simpa [kap, dimCost] using he⟩
  | cons kv d ih =>
    rw [List.foldl_cons]
    obtain ⟨r1, r2, r3, r4⟩ := hw.unitRef hc (hk kv (by simp)) (hd kv (by simp))
    obtain ⟨p1, p2⟩ := A.pow_log r1 kv.2
    obtain ⟨m1, m2⟩ := A.mul_log h0 p1
    have hκ := hw.κpos kv.1
    have hκp : 0 < κ kv.1 ^ (kv.2 : ℝ) := Real.rpow_pos_of_pos hκ _
    have s1 : 0 < (refStep w rq kv).mag.val := m1
    have s2 : BaseDim w (refStep w rq kv).dim := hb.mul (r2.pow _)
    have sm : (refStep w rq kv).mag.val = A.mul rq.mag.val (A.pow (w.unitRef kv.1).mag.val kv.2) := rfl
    have s3 : |Real.log (refStep w rq kv).mag.val - Real.log (x * κ kv.1 ^ (kv.2 : ℝ))| ≤
        (e + (|(kv.2 : ℝ)| * cost kv.1 + 2)) * A.L := by
      rw [sm, Real.log_mul hx.ne' hκp.ne', Real.log_rpow hκ]
      have q1 : |(kv.2 : ℝ) * Real.log (w.unitRef kv.1).mag.val - kv.2 * Real.log (κ kv.1)| ≤
          |(kv.2 : ℝ)| * cost kv.1 * A.L := by
        rw [← mul_sub, abs_mul, mul_assoc]
        exact mul_le_mul_of_nonneg_left r4 (abs_nonneg _)
      rw [abs_le] at m2 p2 he q1 ⊢
      constructor <;> nlinarith [m2.1, m2.2, p2.1, p2.2, he.1, he.2, q1.1, q1.2]
    obtain ⟨t1, t2, t3, t4⟩ := ih (fun x hx => hk x (by simp [hx])) (fun x hx => hd x (by simp [hx]))
      _ s1 s2 _ _ (mul_pos hx hκp) s3
    have ek : kap κ (kv :: d) = κ kv.1 ^ (kv.2 : ℝ) * kap κ d := by
      unfold kap; rw [dsize_cons]; rfl
    have ec : dimCost cost (kv :: d) = (|(kv.2 : ℝ)| * cost kv.1 + 2) + dimCost cost d := by
      unfold dimCost; rw [List.map_cons, List.sum_cons]
    refine ⟨t1, t2, fun v => ?_, ?_⟩
    · have h := t3 v
      rw [ek, ← mul_assoc, h]
      have e1 : v.size (refStep w rq kv).dim = v.size rq.dim * v.size (w.unitRef kv.1).dim ^ (kv.2 : ℝ) := by
        simp only [refStep, FlValuation.size]
        rw [dsize_mul v.pos, dsize_pow v.pos]; rfl
      have e2 : v.size (kv :: d) = κ kv.1 ^ (kv.2 : ℝ) * v.size (w.unitRef kv.1).dim ^ (kv.2 : ℝ) * v.size d := by
        simp only [FlValuation.size]
        rw [dsize_cons, r3 v, real_rpow_def, Real.mul_rpow hκ.le (v.size_pos _).le]
        rfl
      rw [e1, e2]; ring
    · rw [ek, ← mul_assoc, ec, ← add_assoc]; exact t4

theorem FlWF.refUnits (hw : FlWF w κ cost) (hc : ∀ u, 0 ≤ cost u) {d : Dim} (h : DimOK w d) :
    0 < (w.refUnits d).mag.val ∧ BaseDim w (w.refUnits d).dim ∧
      (∀ v : FlValuation w, kap κ d * v.size (w.refUnits d).dim = v.size d) ∧
      |Real.log (w.refUnits d).mag.val - Real.log (kap κ d)| ≤ dimCost cost d * A.L := by
  obtain ⟨h1, h2, h3, h4⟩ := hw.refFold hc d h.known h.notDimless ⟨1, []⟩ one_pos (BaseDim.nil w) 1 0
    one_pos (by simp)
  refine ⟨h1, h2, fun v => ?_, ?_⟩
  · have := h3 v
    simp only [one_mul] at this
    have e : v.size ([] : Dim) = 1 := rfl
    rw [e, one_mul] at this
    exact this
  · rw [one_mul, zero_add] at h4; exact h4

theorem FlWF.reference (hw : FlWF w κ cost) (hc : ∀ u, 0 ≤ cost u) {q : SQ (Fl A)} (h : DimOK w q.dim)
    (hq : 0 < q.mag.val) :
    0 < (w.reference q).mag.val ∧ BaseDim w (w.reference q).dim ∧
      |Real.log (w.reference q).mag.val - Real.log (kap κ q.dim * q.mag.val)| ≤
        (1 + dimCost cost q.dim) * A.L := by
  obtain ⟨h1, h2, -, h4⟩ := hw.refUnits hc h
  obtain ⟨m1, m2⟩ := A.mul_log h1 hq
  refine ⟨m1, h2, ?_⟩
  have : (w.reference q).mag.val = A.mul (w.refUnits q.dim).mag.val q.mag.val := rfl
  have hk : 0 < kap κ q.dim := dsize_pos hw.κpos _
  rw [this, Real.log_mul hk.ne' hq.ne']
  rw [abs_le] at m2 h4 ⊢
  constructor <;> nlinarith [m2.1, m2.2, h4.1, h4.2]

/-- The conversion factor. -/
theorem FlWF.convFactor (hw : FlWF w κ cost) (hc : ∀ u, 0 ≤ cost u) {a b : Dim} (ha : DimOK w a)
    (hb : DimOK w b) (hs : NoColl w (w.refUnits a).dim (w.refUnits b).dim) {cf : Fl A}
    (h : w.convFactor a b = .ok cf) :
    0 < cf.val ∧ ∃ c : ℝ, 0 < c ∧ (∀ v : FlValuation w, v.size a = c * v.size b) ∧
      |Real.log cf.val - Real.log c| ≤ (dimCost cost a + dimCost cost b + 3) * A.L := by
  unfold World.convFactor at h
  simp only at h
  split at h
  · rename_i he
    simp only [Except.ok.injEq] at h; subst h
    obtain ⟨a1, a2, a3⟩ := hw.reference hc (q := ⟨1, a⟩) ha one_pos
    obtain ⟨b1, b2, b3⟩ := hw.reference hc (q := ⟨1, b⟩) hb one_pos
    obtain ⟨d1, d2⟩ := A.div_log a1 b1
    obtain ⟨-, a5, a6, -⟩ := hw.refUnits hc ha
    obtain ⟨-, b5, b6, -⟩ := hw.refUnits hc hb
    have hka : 0 < kap κ a := dsize_pos hw.κpos _
    have hkb : 0 < kap κ b := dsize_pos hw.κpos _
    have hsame : SameContent (w.refUnits a).dim (w.refUnits b).dim := hs he
    refine ⟨d1, kap κ a / kap κ b, div_pos hka hkb, fun v => ?_, ?_⟩
    · have e : v.size (w.refUnits a).dim = v.size (w.refUnits b).dim :=
        dsize_same v.val a5.canon.nodup b5.canon.nodup hsame
      rw [← a6 v, ← b6 v, e]; field_simp
    · rw [Real.log_div hka.ne' hkb.ne']
      simp only [Fl.one_val, mul_one] at a3 b3
      have hv : (w.reference ⟨1, a⟩ : SQ (Fl A)).mag.val = (w.reference ⟨1, a⟩ : SQ (Fl A)).mag.val := rfl
      rw [Fl.div_val]
      rw [abs_le] at d2 a3 b3 ⊢
      constructor <;> nlinarith [d2.1, d2.2, a3.1, a3.2, b3.1, b3.2]
  · exact absurd h (by simp)

end
end PQ
