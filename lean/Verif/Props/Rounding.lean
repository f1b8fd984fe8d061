import Verif.Lemmas.Rounding2
import Verif.Lemmas.Example

/-!
# Property C58: conversions are accurate up to a counted number of rounding errors
-/

namespace PQ

open Dict World LawfulRPow

variable {A : Arith} {h : Hasher} {w : World (Fl A)}

/-! ## Compatibility -/

theorem FlWF.compatible_iff {κ cost : UKey → ℝ} (hw : FlWF w κ cost) (hc : ∀ u, 0 ≤ cost u) {a b : Dim}
    (ha : DimOK w a) (hb : DimOK w b) :
    FlCompatible w a b ↔ SameContent (w.refUnits a).dim (w.refUnits b).dim := by
  obtain ⟨-, a2, a3, -⟩ := hw.refUnits hc ha
  obtain ⟨-, b2, b3, -⟩ := hw.refUnits hc hb
  have hka : 0 < kap κ a := dsize_pos hw.κpos _
  have hkb : 0 < kap κ b := dsize_pos hw.κpos _
  constructor
  · rintro ⟨c, hcv⟩
    have hv : ∀ v : FlValuation w,
        v.size (w.refUnits a).dim = (c * kap κ b / kap κ a) * v.size (w.refUnits b).dim := by
      intro v
      have := hcv v
      rw [← a3 v, ← b3 v] at this
      field_simp
      rw [mul_comm, this]; ring
    have sz : ∀ (f : UKey → ℝ) (v : FlValuation w),
        (∀ u, w.convRef u = none → u.cls ≠ .dimensionless → v.val u = f u) → ∀ d, BaseDim w d →
        v.size d = dsize f d := by
      intro f v hf d hd
      exact dsize_congr fun kv hkv => hf kv.1 (hd.base kv hkv) (hd.notDimless kv hkv)
    have c1 : c * kap κ b / kap κ a = 1 := by
      obtain ⟨v, hf⟩ := hw.free (fun _ => 1) (fun _ => one_pos)
      have := hv v
      have e : ∀ d, BaseDim w d → v.size d = 1 := by
        intro d hd
        rw [sz _ v hf d hd]
        unfold dsize; simp [rpow_one_left]
      rw [e _ a2, e _ b2, mul_one] at this
      exact this.symm
    refine a2.canon.sameContent b2.canon fun k => ?_
    let f : UKey → ℝ := fun u => if u = k then 2 else 1
    have hf : ∀ u, 0 < f u := by
      intro u; simp only [f]; split
      · exact zero_lt_two
      · exact one_pos
    obtain ⟨v, hvf⟩ := hw.free f hf
    have e : ∀ d, BaseDim w d → v.size d = rpow (2 : ℝ) (expo d k) := by
      intro d hd
      rw [sz _ v hvf d hd]
      exact dsize_update hd.canon.nodup (fun u hu => by simp [f, hu]) (by simp [f]) rpow_one_left
        (rpow_zero _)
    have := hv v
    rw [c1, one_mul, e _ a2, e _ b2] at this
    by_contra hne
    have h2 : rpow (2 : ℝ) (expo (w.refUnits a).dim k - expo (w.refUnits b).dim k) = 1 := by
      have h3 : rpow (2 : ℝ) (expo (w.refUnits a).dim k - expo (w.refUnits b).dim k) *
          rpow (2 : ℝ) (expo (w.refUnits b).dim k) = 1 * rpow 2 (expo (w.refUnits b).dim k) := by
        rw [← rpow_add _ _ _ zero_lt_two, sub_add_cancel, this, one_mul]
      exact mul_right_cancel₀ (rpow_pos _ _ zero_lt_two).ne' h3
    exact rpow_ne_one 2 _ one_lt_two (sub_ne_zero.2 hne) h2
  · intro hs
    refine ⟨kap κ a / kap κ b, fun v => ?_⟩
    have e : v.size (w.refUnits a).dim = v.size (w.refUnits b).dim :=
      dsize_same v.val a2.canon.nodup b2.canon.nodup hs
    rw [← a3 v, ← b3 v, e]; field_simp

/-! ## The theorems -/

theorem withinErrors_of_log {n : ℝ} {x y : NDArr ℝ} (hs : x.shape = y.shape)
    (hx : ∀ i, ∃ t, 0 < t ∧ |Real.log t| ≤ n * A.L ∧ x.elem i = t * y.elem i) : WithinErrors A n x y := by
  refine ⟨hs, fun i => ?_⟩
  obtain ⟨t, t1, t2, t3⟩ := hx i
  have hp := A.one_sub_pos
  have hr : 0 < (1 - A.eps) ^ n := Real.rpow_pos_of_pos hp _
  have hl : Real.log ((1 - A.eps) ^ n) = -(n * A.L) := by
    rw [Real.log_rpow hp]; unfold Arith.L; ring
  rw [abs_le] at t2
  refine ⟨t, ?_, ?_, t3⟩
  · exact (Real.log_le_log_iff hr t1).1 (by rw [hl]; exact t2.1)
  · refine (Real.log_le_log_iff t1 (inv_pos.2 hr)).1 ?_
    rw [Real.log_inv, hl]; linarith [t2.2]

/-- C58: a conversion that returns gives the requested units, and element by element the exact
physical value up to the number of rounding errors that the two compound units stand for, plus four. -/
theorem C58_rescale (hr : Reachable h w) (cost : UKey → ℝ) (hb : ErrorBudget w cost)
    (q r : Quantity (Fl A)) (d : Dim) (hq : DimOK w q.dim) (hd : DimOK w d) (hs : HashSafe w q.dim d)
    (hres : q.rescale w d = .ok r) :
    SameContent r.dim d ∧ ∀ v : FlValuation w,
      WithinErrors A (dimCost cost q.dim + dimCost cost d + 4) (v.phys r) (v.phys q) := by
  obtain ⟨κ, hw⟩ := hr.flWF cost hb
  have n1 := dimCost_nonneg hb.nonneg q.dim
  have n2 := dimCost_nonneg hb.nonneg d
  have hL := A.L_nonneg
  unfold Quantity.rescale at hres
  split at hres
  · rename_i he
    simp only [Except.ok.injEq] at hres; subst hres
    refine ⟨hs.direct he, fun v => withinErrors_of_log rfl fun i => ⟨1, one_pos, ?_, (one_mul _).symm⟩⟩
    rw [Real.log_one, abs_zero]
    exact mul_nonneg (by linarith) hL
  · rcases hc : w.convFactor q.dim d with e | cf
    · rw [hc] at hres
      have := convFactor_error hc
      subst this
      exact absurd hres (by simp)
    · rw [hc] at hres
      simp only [Except.ok.injEq] at hres; subst hres
      obtain ⟨c1, c, c2, c3, c4⟩ := hw.convFactor hb.nonneg hq hd hs.refs hc
      refine ⟨SameContent.refl _, fun v => withinErrors_of_log rfl fun i => ?_⟩
      obtain ⟨t, t1, t2, t3⟩ := A.mul_factor cf.val (q.mag.elem i).val
      refine ⟨t * (cf.val / c), mul_pos t1 (div_pos c1 c2), ?_, ?_⟩
      · rw [Real.log_mul t1.ne' (div_pos c1 c2).ne', Real.log_div c1.ne' c2.ne']
        rw [abs_le] at t2 c4 ⊢
        constructor <;> nlinarith [t2.1, t2.2, c4.1, c4.2]
      · show A.mul cf.val (q.mag.elem i).val * v.size d = _ * ((q.mag.elem i).val * v.size q.dim)
        rw [t3, c3 v]
        field_simp

/-- C58: rounding never decides whether a conversion is possible: it returns exactly when the ratio of
the exact sizes is fixed by the definitions. -/
theorem C58_returns (hr : Reachable h w) (q : Quantity (Fl A)) (d : Dim) (hq : DimOK w q.dim)
    (hd : DimOK w d) (hs : HashSafe w q.dim d) : Returns (q.rescale w d) ↔ FlCompatible w q.dim d := by
  obtain ⟨cost, hb⟩ := exists_budget hr
  obtain ⟨κ, hw⟩ := hr.flWF cost hb
  rw [hw.compatible_iff hb.nonneg hq hd]
  obtain ⟨-, a2, -, -⟩ := hw.refUnits hb.nonneg hq
  obtain ⟨-, b2, -, -⟩ := hw.refUnits hb.nonneg hd
  unfold Quantity.rescale
  split
  · rename_i he
    refine ⟨fun _ => ?_, fun _ => returns_ok _⟩
    have : FlCompatible w q.dim d := ⟨1, fun v => by
      rw [one_mul]; exact dsize_same v.val hq.canon.nodup hd.canon.nodup (hs.direct he)⟩
    exact (hw.compatible_iff hb.nonneg hq hd).1 this
  · rcases hc : w.convFactor q.dim d with e | cf
    · have := convFactor_error hc
      subst this
      refine ⟨fun h => absurd h (not_returns_error _), fun hsame => ?_⟩
      exfalso
      rw [convFactor_def] at hc
      rw [if_pos (deq_same a2.canon.nodup b2.canon.nodup hsame)] at hc
      exact absurd hc (by simp)
    · refine ⟨fun _ => ?_, fun _ => returns_ok _⟩
      rw [convFactor_def] at hc
      split at hc
      · rename_i he; exact hs.refs he
      · exact absurd hc (by simp)

/-- C58: converting there and back gives the original magnitudes up to twice the errors. -/
theorem C58_round_trip (hr : Reachable h w) (cost : UKey → ℝ) (hb : ErrorBudget w cost)
    (q r s : Quantity (Fl A)) (d : Dim) (hq : DimOK w q.dim) (hd : DimOK w d) (hs : HashSafe w q.dim d)
    (hs' : HashSafe w r.dim q.dim) (hrd : DimOK w r.dim)
    (hres : q.rescale w d = .ok r) (hback : r.rescale w q.dim = .ok s) :
    SameContent s.dim q.dim ∧
      WithinErrors A (2 * (dimCost cost q.dim + dimCost cost d + 4)) (s.mag.map Fl.val) (q.mag.map Fl.val) := by
  obtain ⟨κ, hw⟩ := hr.flWF cost hb
  obtain ⟨v, -⟩ := hw.free (fun _ => 1) (fun _ => one_pos)
  obtain ⟨r1, r2⟩ := C58_rescale hr cost hb q r d hq hd hs hres
  obtain ⟨s1, s2⟩ := C58_rescale hr cost hb r s q.dim hrd hq hs' hback
  have hcost : dimCost cost r.dim = dimCost cost d := by
    unfold dimCost
    have : r.dim.Perm d := perm_of_get?_eq hrd.canon.nodup hd.canon.nodup r1
    exact (this.map _).sum_eq
  refine ⟨s1, ?_, fun i => ?_⟩
  · have e1 := (r2 v).1
    have e2 := (s2 v).1
    exact e2.trans e1
  · obtain ⟨t, t1, t2, t3⟩ := (r2 v).2 i
    obtain ⟨t', t1', t2', t3'⟩ := (s2 v).2 i
    have hp := A.one_sub_pos
    have hr0 : 0 < (1 - A.eps) ^ (dimCost cost q.dim + dimCost cost d + 4) := Real.rpow_pos_of_pos hp _
    have hN : dimCost cost r.dim + dimCost cost q.dim + 4 = dimCost cost q.dim + dimCost cost d + 4 := by
      rw [hcost]; ring
    rw [hN] at t1' t2'
    have hpow : (1 - A.eps) ^ (2 * (dimCost cost q.dim + dimCost cost d + 4)) =
        (1 - A.eps) ^ (dimCost cost q.dim + dimCost cost d + 4) *
        (1 - A.eps) ^ (dimCost cost q.dim + dimCost cost d + 4) := by
      rw [two_mul, Real.rpow_add hp]
    refine ⟨t' * t, ?_, ?_, ?_⟩
    · rw [hpow]
      exact mul_le_mul t1' t1 hr0.le (hr0.le.trans t1')
    · rw [hpow, mul_inv]
      exact mul_le_mul t2' t2 (hr0.le.trans t1) (inv_nonneg.2 hr0.le)
    · have e : v.size s.dim = v.size q.dim := by
        have hsd : DimOK w s.dim := by
          unfold Quantity.rescale at hback
          split at hback
          · simp only [Except.ok.injEq] at hback; subst hback; exact hrd
          · rcases hc : w.convFactor r.dim q.dim with e | cf
            · rw [hc] at hback
              have := convFactor_error hc
              subst this
              exact absurd hback (by simp)
            · rw [hc] at hback
              simp only [Except.ok.injEq] at hback; subst hback; exact hq
        exact dsize_same v.val hsd.canon.nodup hq.canon.nodup s1
      have hpos := (v.size_pos q.dim).ne'
      have h1 : (s.mag.elem i).val * v.size s.dim = t' * (v.phys r).elem i := t3'
      have h2 : (v.phys r).elem i = t * ((q.mag.elem i).val * v.size q.dim) := t3
      rw [h2, e] at h1
      show (s.mag.elem i).val = t' * t * (q.mag.elem i).val
      refine mul_right_cancel₀ hpos ?_
      rw [h1]; ring

/-- C58: every state reached by any history has a budget, so the theorems above always apply. -/
theorem C58_budget_exists (hr : Reachable h w) : ∃ cost, ErrorBudget w cost := exists_budget hr

/-! ## A concrete case -/

/-- An arithmetic in which every result comes out ten percent too small. -/
noncomputable def exArith : Arith where
  eps := 1/10
  eps_nonneg := by norm_num
  eps_lt_one := by norm_num
  add x y := 9/10 * (x + y)
  sub x y := 9/10 * (x - y)
  mul x y := 9/10 * (x * y)
  div x y := 9/10 * (x / y)
  pow x p := 9/10 * x ^ (p : ℝ)
  add_err x y := by
    rw [show 9/10 * (x + y) - (x + y) = -(1/10) * (x + y) by ring, abs_mul, abs_neg, abs_of_pos (by norm_num)]
  sub_err x y := by
    rw [show 9/10 * (x - y) - (x - y) = -(1/10) * (x - y) by ring, abs_mul, abs_neg, abs_of_pos (by norm_num)]
  mul_err x y := by
    rw [show 9/10 * (x * y) - x * y = -(1/10) * (x * y) by ring, abs_mul, abs_neg, abs_of_pos (by norm_num)]
  div_err x y _ := by
    rw [show 9/10 * (x / y) - x / y = -(1/10) * (x / y) by ring, abs_mul, abs_neg, abs_of_pos (by norm_num)]
  pow_err x p _ := by
    rw [show 9/10 * x ^ (p : ℝ) - x ^ (p : ℝ) = -(1/10) * x ^ (p : ℝ) by ring, abs_mul, abs_neg,
      abs_of_pos (by norm_num)]
  sq_err x := by
    rw [show x ^ ((2 : ℚ) : ℝ) = x ^ 2 by rw [show ((2 : ℚ) : ℝ) = ((2 : ℕ) : ℝ) by norm_num, Real.rpow_natCast],
      show 9/10 * x ^ 2 - x ^ 2 = -(1/10) * x ^ 2 by ring, abs_mul, abs_neg, abs_of_pos (by norm_num)]
  pow_zero p hp := by
    rw [Real.zero_rpow (by exact_mod_cast hp.ne'), mul_zero]

/-- The constructor calls for metre and kilometre. -/
noncomputable def flM : World.NewUnit (Fl exArith) :=
  { cls := .length, name := "meter", definition := .none, symbol := some "m" }
noncomputable def flKm : World.NewUnit (Fl exArith) :=
  { cls := .length, name := "kilometer", definition := .quantity ⟨⟨1000⟩, [(uM, 1)]⟩, symbol := some "km" }

/-- Metre and kilometre, defined in this arithmetic. -/
noncomputable def flWorld1 : World (Fl exArith) := (Op.run (World.init exH) (.newUnit flM)).2
noncomputable def flWorld : World (Fl exArith) := (Op.run flWorld1 (.newUnit flKm)).2

theorem flKeys1 : flWorld1.units.map Prod.fst = [uM] := by rfl
theorem flKeys : flWorld.units.map Prod.fst = [uM, uKm] := by rfl

theorem flWorld_reachable : Reachable exH flWorld := by
  refine Reachable.step _ (Reachable.step _ Reachable.init ?_) ?_
  · exact ⟨by simp [flM, DefArg.toDef], by simp [flM]⟩
  · refine ⟨?_, by simp [flKm]⟩
    intro q hq
    simp only [flKm, DefArg.toDef, Option.some.injEq] at hq
    subst hq
    refine ⟨by rw [Fl.pos_iff]; norm_num, ⟨by decide, by simp⟩, ?_, by simp [uM]⟩
    show ∀ kv ∈ [(uM, (1 : ℚ))], kv.1 ∈ flWorld1.units.map Prod.fst
    rw [flKeys1]; simp

theorem fl_dimOK (d : Dim) (hd : d = dKm ∨ d = dM) : DimOK flWorld d := by
  rcases hd with rfl | rfl
  · exact ⟨⟨by decide, by simp [dKm]⟩, by rw [flKeys]; simp [dKm], by simp [dKm, uKm]⟩
  · exact ⟨⟨by decide, by simp [dM]⟩, by rw [flKeys]; simp [dM], by simp [dM, uM]⟩

theorem flRef_km : (flWorld.refUnits dKm).dim = dM := by decide +kernel
theorem flRef_m : (flWorld.refUnits dM).dim = dM := by decide +kernel

theorem fl_safe : HashSafe flWorld dKm dM := by
  refine ⟨?_, fun _ => by rw [flRef_km, flRef_m]; exact SameContent.refl _⟩
  intro he
  have : flWorld.deq dKm dM = false := by
    simp only [World.deq, Dim.eq, dKm, dM]
    rw [show flWorld.hasher = exH from rfl, exHash1, exHash1]
    decide
  rw [this] at he
  exact absurd he (by simp)

/-- Three errors for the kilometre. -/
theorem fl_budget : ErrorBudget flWorld (fun u => if u = uKm then 3 else 0) := by
  refine ⟨fun u => ?_, ?_⟩
  · split <;> norm_num
  · intro u i q hi hq
    have hk := known_of_info hi
    rw [flKeys] at hk
    simp only [List.mem_cons, List.not_mem_nil, or_false] at hk
    rcases hk with rfl | rfl
    · have : flWorld.info uM = some i := hi
      have e : (flWorld.info uM).bind UnitInfo.definition = none := rfl
      rw [this, Option.bind_some, hq] at e
      exact absurd e (by simp)
    · have e : (flWorld.info uKm).bind UnitInfo.definition = some ⟨⟨1000⟩, [(uM, 1)]⟩ := rfl
      rw [hi, Option.bind_some, hq] at e
      simp only [Option.some.injEq] at e
      subst e
      have : uM ≠ uKm := by decide
      simp [dimCost, this]
      norm_num

/-- `[2, 3] km` in metres. -/
noncomputable def flQ : Quantity (Fl exArith) := ⟨⟨[2], fun i => ⟨if i = [0] then 2 else 3⟩⟩, dKm⟩

/-- The conversion returns, with at most eleven errors of ten percent. -/
example : ∃ r, flQ.rescale flWorld dM = .ok r ∧ ∀ v : FlValuation flWorld,
    WithinErrors exArith (5 + 2 + 4) (v.phys r) (v.phys flQ) := by
  have hret : Returns (flQ.rescale flWorld dM) := by
    rw [C58_returns flWorld_reachable flQ dM (fl_dimOK _ (.inl rfl)) (fl_dimOK _ (.inr rfl)) fl_safe]
    obtain ⟨κ, hw⟩ := flWorld_reachable.flWF _ fl_budget
    show FlCompatible flWorld dKm dM
    rw [hw.compatible_iff fl_budget.nonneg (fl_dimOK _ (.inl rfl)) (fl_dimOK _ (.inr rfl))]
    show SameContent (flWorld.refUnits dKm).dim _
    rw [flRef_km, flRef_m]; exact SameContent.refl _
  obtain ⟨r, hr⟩ := hret
  refine ⟨r, hr, fun v => ?_⟩
  have := (C58_rescale flWorld_reachable _ fl_budget flQ r dM (fl_dimOK _ (.inl rfl)) (fl_dimOK _ (.inr rfl))
    fl_safe hr).2 v
  have e1 : dimCost (fun u => if u = uKm then 3 else 0) flQ.dim = 5 := by
    simp [dimCost, flQ, dKm]; norm_num
  have e2 : dimCost (fun u => if u = uKm then 3 else 0) dM = 2 := by
    have : uM ≠ uKm := by decide
    simp [dimCost, dM, this]
  rw [e1, e2] at this
  exact this

end PQ
