import Verif.Props.UncertainReturns
import Verif.Props.UncertainNan

/-!
# C136: the square root of a measurement; C137: what an uncertain quantity cannot do
-/

namespace PQ

open NDArr LawfulRPow

variable {K : Type _} [Field K] [LinearOrder K] [IsStrictOrderedRing K] [RPow K] [LawfulRPow K]
variable {h : Hasher} {w : World K}

/-- `x.sqrt()` always returns; the units are those of `x` to the power one half; where the value is positive the
result is the non-negative number whose square is the value, with the uncertainty `s` that satisfies
`2 * result * s = uncertainty of x`. -/
theorem C136_sqrt (hw : Reachable h w) (a : UQ K) (ha : UQ.Built w a) :
    ∃ r, a.sqrt w = .ok r ∧ r.val.mag.shape = a.val.mag.shape ∧ UQ.Built w r ∧
      (∀ u, expo r.val.dim u = expo a.val.dim u / 2) ∧
      ∀ (v : Valuation w) (i : List Nat), NDArr.InB a.val.mag.shape i → 0 < ((v.meas a).elem i).value →
        0 ≤ ((v.meas a).elem i).sigma →
        0 ≤ ((v.meas r).elem i).value ∧ ((v.meas r).elem i).value ^ 2 = ((v.meas a).elem i).value ∧
        2 * ((v.meas r).elem i).value * ((v.meas r).elem i).sigma = ((v.meas a).elem i).sigma := by
  obtain ⟨r, hr⟩ := (C75_power_returns_partial hw a (expOf (1/2)) ha).1.2
    ⟨fun d hd => absurd (show (none : Option Dim) = some d from hd) (by simp),
      ⟨[], 1/2, List.Forall₂.nil, rfl, fun _ _ => rfl⟩, by
        show (NDArr.bshape a.val.mag.shape []).isSome = true
        rw [NDArr.bshape_nil_right]; rfl⟩
  obtain ⟨p, p1, p2, p3⟩ := C75_power_partial hw a r (expOf (1/2)) ha hr
  have hp : p = 1/2 := (p1 [] .nil).symm
  subst hp
  have hsh : r.val.mag.shape = a.val.mag.shape := by
    obtain ⟨v⟩ := exists_valuation hw.wf
    have e : NDArr.bshape a.val.mag.shape [] = some r.val.mag.shape := (p3 v).1
    rw [NDArr.bshape_nil_right] at e
    exact (Option.some.inj e).symm
  refine ⟨r, hr, hsh, .sqrt ha hr, fun u => ?_, fun v i hi hpos hsig => ?_⟩
  · rw [p2, expo_pow]; ring
  · have hi' : NDArr.InB r.val.mag.shape i := hsh ▸ hi
    have hx := (p3 v).2 i hi'
    have hb : NDArr.bidx (v.meas a).shape i = i := NDArr.bidx_self hi
    rw [hb] at hx
    obtain ⟨⟨h1, h2⟩, h3⟩ := (hx (.inl hpos)).2 (by norm_num) hpos hsig
    generalize (v.meas a).elem i = x at *
    generalize (v.meas r).elem i = z at *
    have hv0 : 0 < z.value := by rw [h1]; exact rpow_pos _ _ hpos
    have hv2 : z.value ^ 2 = x.value := by rw [h1]; exact rpow_half_sq hpos.le
    refine ⟨hv0.le, hv2, ?_⟩
    have hm : rpow x.value ((1/2 : ℚ) - 1) * z.value = 1 := by
      rw [h1, ← rpow_add _ _ _ hpos, show ((1/2 : ℚ) - 1 + 1/2) = 0 by norm_num, rpow_zero]
    have hsq : (2 * z.value * z.sigma) ^ 2 = x.sigma ^ 2 := by
      have : (2 * z.value * z.sigma) ^ 2 = 4 * z.value ^ 2 * z.sigma ^ 2 := by ring
      rw [this, h2]
      have h12 : ((1/2 : ℚ) : K) = 1/2 := by norm_num
      rw [h12]
      calc 4 * z.value ^ 2 * (1 / 2 * rpow x.value ((1/2 : ℚ) - 1) * x.sigma) ^ 2
          = (rpow x.value ((1/2 : ℚ) - 1) * z.value) ^ 2 * x.sigma ^ 2 := by ring
        _ = x.sigma ^ 2 := by rw [hm]; ring
    exact (sq_eq_sq₀ (by positivity) hsig).mp hsq

/-- `sqrt` of 500 m ± 50 m. -/
example : ∃ r, exUM.sqrt exWorld = .ok r ∧ ∀ v : Valuation exWorld,
    ((v.meas r).elem []).value ^ 2 = ((v.meas exUM).elem []).value := by
  obtain ⟨r, h1, -, -, -, h2⟩ := C136_sqrt exWorld_reachable exUM exUM_built
  refine ⟨r, h1, fun v => (h2 v [] .nil ?_ ?_).2.1⟩
  · have := v.size_pos exUM.val.dim
    simp only [Valuation.meas, exUM, NDArr.scalar] at this ⊢
    positivity
  · have := v.size_pos exUM.unc.dim
    simp only [Valuation.meas, exUM, NDArr.scalar] at this ⊢
    positivity

/-! ## C137 -/

/-- `UncertainQuantity(x)` and `UncertainQuantity(x, units)` of an uncertain quantity never return. -/
theorem C137_copy_false (a : UQ K) (d : Dim) : ¬ Returns (UQ.newFromUncertain w a d) :=
  uq_construct_from_uncertain_raises a d

/-- `x.units = d` raises `AttributeError` for every uncertain quantity and every `d`, the units it already has
included, although `x.rescale(d)` returns for those. -/
theorem C137_units_false (a : UQ K) (d : Dim) : a.setUnits w d = (some .attributeError, a) :=
  uq_units_setter_raises a d

/-- `pq.nansum(x)` and `x.nansum()` disagree: for `[1, 1] m` with uncertainties `[1, 1] m` the method gives an
uncertainty, which is not zero, and the function a quantity without any. -/
theorem C137_nansum_false : ∃ (a b : UQ (Option ℝ)) (ra rb : UQ (Option ℝ)),
    a.nansum .all = .ok ra ∧ b.nansum .all = .ok rb ∧ ra.unc.mag.elem [] ≠ rb.unc.mag.elem [] ∧
    a.umathNansum .all = b.umathNansum .all ∧ a.umathNansum .all = .ok ra.val := by
  refine ⟨⟨⟨⟨[1], fun _ => some 1⟩, dM⟩, ⟨⟨[1], fun _ => some 1⟩, dM⟩⟩,
    ⟨⟨⟨[1], fun _ => some 1⟩, dM⟩, ⟨⟨[1], fun _ => some 2⟩, dM⟩⟩, _, _, rfl, rfl, ?_, rfl, rfl⟩
  intro e
  have e' : some (rpow (List.sum [rpow (1 : ℝ) 2]) (1/2)) = some (rpow (List.sum [rpow (2 : ℝ) 2]) (1/2)) := e
  simp only [List.sum_cons, List.sum_nil, add_zero, rpow_two, Option.some.injEq, rpow_half_of_sq] at e'
  norm_num at e'

/-- C137, proved part: values and units of `pq.nansum(x)` are those of `x.nansum()`.  Missing: the
uncertainty. -/
theorem C137_nansum_partial (a r : UQ (Option K)) (ax : Axis) (hr : a.nansum ax = .ok r) :
    a.umathNansum ax = .ok r.val := by
  unfold UQ.nansum at hr
  unfold UQ.umathNansum
  rcases hm : a.val.mag.reduce (Quantity.nanOver List.sum (some 0)) ax with e | m
  · rw [hm] at hr; cases hr
  · rw [hm] at hr
    simp only [except_bind_ok] at hr
    rcases hs : (a.unc.mag.map (Option.map (fun x => rpow x 2))).reduce (Quantity.nanOver List.sum (some 0)) ax with e | s
    · rw [hs] at hr; cases hr
    · rw [hs] at hr
      simp only [except_bind_ok, UQ.ofArrays] at hr
      split at hr
      · cases hr; rfl
      · cases hr

/-- `pq.nansum(x)` is `pq.nansum` of the values alone, errors included. -/
theorem C137_nansum_values (a : UQ (Option K)) (ax : Axis) : a.umathNansum ax = a.val.nansum ax := by
  unfold UQ.umathNansum Quantity.nansum
  cases a.val.mag.reduce (Quantity.nanOver List.sum (some 0)) ax <;> rfl

end PQ
