import Verif.Lemmas.Reduce2
import Verif.Lemmas.Example

/-!
# Properties C32, C33, C44: reductions, clip, searchsorted

`DenotesReduction w op red`: the method keeps the units, and its outcome is numpy's `red` on the
physical values. `CommutesWithRescale w op`: converting first or last makes no difference.
-/

namespace PQ

open LawfulRPow

variable {K : Type _} [Field K] [LinearOrder K] [IsStrictOrderedRing K] [RPow K] [LawfulRPow K]
variable {h : Hasher} {w : World K}

private theorem both (hw : Reachable h w) {op : Quantity K → Py (Quantity K)}
    {R : NDArr K → Py (NDArr K)} (hR : HomogR R) (hop : ∀ q, op q = attach (R q.mag) q.dim) :
    DenotesReduction w op R ∧ CommutesWithRescale w op :=
  ⟨denotes_of_homog hR hop, commutes_of_homog hw.wf hR hop⟩

/-! ## C32 -/

/-- C32, `sum`: over any axis or axes. -/
theorem C32_sum (hw : Reachable h w) (ax : Axis) :
    DenotesReduction w (fun q => q.sum ax) (NDArr.reduce List.sum ax) ∧
    CommutesWithRescale w (fun q => q.sum ax) :=
  both hw (fun c _ a => NDArr.reduce_map (fun l => NDArr.sum_map_mul c l) ax a) (fun _ => rfl)

/-- C32, `mean`. -/
theorem C32_mean (hw : Reachable h w) (ax : Axis) :
    DenotesReduction w (fun q => q.mean ax) (NDArr.reduce NDArr.lmean ax) ∧
    CommutesWithRescale w (fun q => q.mean ax) :=
  both hw (fun c _ a => NDArr.reduce_map (fun l => NDArr.lmean_map c l) ax a) (fun _ => rfl)

/-- C32, `max`. -/
theorem C32_max (hw : Reachable h w) (ax : Axis) :
    DenotesReduction w (fun q => q.max ax) (NDArr.reduceNE NDArr.lmax ax) ∧
    CommutesWithRescale w (fun q => q.max ax) :=
  both hw (fun _ hc a => NDArr.reduceNE_map (fun l => NDArr.lmax_map hc l) ax a) (fun _ => rfl)

/-- C32, `min`. -/
theorem C32_min (hw : Reachable h w) (ax : Axis) :
    DenotesReduction w (fun q => q.min ax) (NDArr.reduceNE NDArr.lmin ax) ∧
    CommutesWithRescale w (fun q => q.min ax) :=
  both hw (fun _ hc a => NDArr.reduceNE_map (fun l => NDArr.lmin_map hc l) ax a) (fun _ => rfl)

/-- C32, `ptp`. -/
theorem C32_ptp (hw : Reachable h w) (ax : Axis) :
    DenotesReduction w (fun q => q.ptp ax) (NDArr.reduceNE NDArr.lptp ax) ∧
    CommutesWithRescale w (fun q => q.ptp ax) :=
  both hw (fun _ hc a => NDArr.reduceNE_map (fun l => NDArr.lptp_map hc l) ax a) (fun _ => rfl)

/-- C32, `std` for every `ddof`. -/
theorem C32_std (hw : Reachable h w) (ax : Axis) (ddof : ℚ) :
    DenotesReduction w (fun q => q.std ax ddof) (NDArr.reduce (NDArr.lstd ddof) ax) ∧
    CommutesWithRescale w (fun q => q.std ax ddof) :=
  both hw (fun _ hc a => NDArr.reduce_map (fun l => NDArr.lstd_map ddof hc l) ax a) (fun _ => rfl)

/-- C32, `cumsum`. -/
theorem C32_cumsum (hw : Reachable h w) (ax : Axis) :
    DenotesReduction w (fun q => q.cumsum ax) (NDArr.cumulate List.sum ax) ∧
    CommutesWithRescale w (fun q => q.cumsum ax) :=
  both hw (fun c _ a => NDArr.cumulate_map (fun l => NDArr.sum_map_mul c l) ax a) (fun _ => rfl)

/-- C32, `trace`. -/
theorem C32_trace (hw : Reachable h w) (offset axis1 axis2 : Int) :
    DenotesReduction w (fun q => q.trace offset axis1 axis2) (NDArr.trace offset axis1 axis2) ∧
    CommutesWithRescale w (fun q => q.trace offset axis1 axis2) :=
  both hw (fun c _ a => NDArr.trace_map (fun l => NDArr.sum_map_mul c l) _ _ _ a) (fun _ => rfl)

/-- C32, positions (`argmax`, `argmin`, `argsort` with any comparison sort, `nonzero`): the same
in all units. -/
theorem C32_positions (hw : Reachable h w) (ax : Axis) (alg : NDArr.SortAlg) :
    UnitFree w (fun q : Quantity K => q.argmax ax) ∧ UnitFree w (fun q : Quantity K => q.argmin ax) ∧
    UnitFree w (fun q : Quantity K => q.argsort alg ax) ∧
    UnitFree w (fun q : Quantity K => q.nonzero) := by
  refine ⟨?_, ?_, ?_, ?_⟩
  · exact unitFree_of_inv hw.wf (R := fun a => a.argreduce (fun x y => decide (x < y)) ax)
      (fun c hc a => NDArr.argreduce_map (fun x y => by simp [hc]) ax a) (fun _ => rfl)
  · exact unitFree_of_inv hw.wf (R := fun a => a.argreduce (fun x y => decide (y < x)) ax)
      (fun c hc a => NDArr.argreduce_map (fun x y => by simp [hc]) ax a) (fun _ => rfl)
  · exact unitFree_of_inv hw.wf (R := fun a => a.argsort alg ax)
      (fun c hc a => NDArr.argsort_map (fun x y => by simp [hc]) alg ax a) (fun _ => rfl)
  · exact unitFree_of_inv hw.wf (R := fun a => a.nonzero)
      (fun c hc a => NDArr.nonzero_map (fun x => by simp [hc.ne']) a) (fun _ => rfl)

private theorem bothNan (hw : Reachable h w) {op : Quantity (Option K) → Py (Quantity (Option K))}
    {R : NDArr (Option K) → Py (NDArr (Option K))} (hR : HomogNan R)
    (hop : ∀ q, op q = attach (R q.mag) q.dim) :
    DenotesReductionNan w op R ∧ CommutesWithRescaleNan w op :=
  ⟨denotesNan_of_homog hR hop, commutesNan_of_homog hw.wf hR hop⟩

/-- C32, `nansum`: nans count as zero, in any units. -/
theorem C32_nansum (hw : Reachable h w) (ax : Axis) :
    DenotesReductionNan w (fun q => q.nansum ax)
      (NDArr.reduce (Quantity.nanOver List.sum (some 0)) ax) ∧
    CommutesWithRescaleNan w (fun q : Quantity (Option K) => q.nansum ax) :=
  bothNan hw (fun c _ a => NDArr.reduce_map
    (fun l => NDArr.nanOver_map (fun l => NDArr.sum_map_mul c l) (by simp) l) ax a) (fun _ => rfl)

/-- C32, `nanmean`. -/
theorem C32_nanmean (hw : Reachable h w) (ax : Axis) :
    DenotesReductionNan w (fun q => q.nanmean ax)
      (NDArr.reduce (Quantity.nanOver NDArr.lmean none) ax) ∧
    CommutesWithRescaleNan w (fun q : Quantity (Option K) => q.nanmean ax) :=
  bothNan hw (fun c _ a => NDArr.reduce_map
    (fun l => NDArr.nanOver_map (fun l => NDArr.lmean_map c l) rfl l) ax a) (fun _ => rfl)

/-- C32, `nanstd`. -/
theorem C32_nanstd (hw : Reachable h w) (ax : Axis) (ddof : ℚ) :
    DenotesReductionNan w (fun q => q.nanstd ax ddof)
      (NDArr.reduce (fun l => if (l.reduceOption.length : ℚ) ≤ ddof then none
        else Quantity.nanOver (NDArr.lstd ddof) none l) ax) ∧
    CommutesWithRescaleNan w (fun q : Quantity (Option K) => q.nanstd ax ddof) := by
  refine bothNan hw (fun c hc a => NDArr.reduce_map (fun l => ?_) ax a) (fun _ => rfl)
  rw [NDArr.reduceOption_map, List.length_map]
  split
  · rfl
  · exact NDArr.nanOver_map (fun l => NDArr.lstd_map ddof hc l) rfl l

/-- C72, `nanmax` and `nanmin`, proved for `axis=None`.  For other axes the claim is false, see
`C72_axis_false`. -/
theorem C72_nanmax_nanmin_partial (hw : Reachable h w) :
    DenotesReductionNan w (fun q => q.nanmax .all)
      (NDArr.reduceNE (Quantity.nanOver NDArr.lmax none) .all) ∧
    CommutesWithRescaleNan w (fun q : Quantity (Option K) => q.nanmax .all) ∧
    DenotesReductionNan w (fun q => q.nanmin .all)
      (NDArr.reduceNE (Quantity.nanOver NDArr.lmin none) .all) ∧
    CommutesWithRescaleNan w (fun q : Quantity (Option K) => q.nanmin .all) := by
  have h1 := bothNan hw (op := fun q : Quantity (Option K) => q.nanmax .all)
    (fun c hc a => NDArr.reduceNE_map
    (fun l => NDArr.nanOver_map (fun l => NDArr.lmax_map hc l) rfl l) .all a) (fun _ => rfl)
  have h2 := bothNan hw (op := fun q : Quantity (Option K) => q.nanmin .all)
    (fun c hc a => NDArr.reduceNE_map
    (fun l => NDArr.nanOver_map (fun l => NDArr.lmin_map hc l) rfl l) .all a) (fun _ => rfl)
  exact ⟨h1.1, h1.2, h2.1, h2.2⟩

/-- C72 fails for `nanmax(axis)`: the axis is ignored, so the result of a 2x3 array is a scalar. -/
theorem C72_axis_false (w : World K) [Nonempty (Valuation w)] :
    ¬ DenotesReductionNan w (fun q => q.nanmax (.one 0))
      (NDArr.reduceNE (Quantity.nanOver NDArr.lmax none) (.one 0)) := by
  intro hD
  obtain ⟨v⟩ := ‹Nonempty (Valuation w)›
  have h1 := (hD ⟨⟨[2, 3], fun _ => some 1⟩, []⟩).2 v
  have h2 := congrArg (fun r : Py (NDArr (Option K)) =>
    match r with | .ok a => a.shape.length | .error _ => 0) h1
  simp [NDArr.reduceNE, NDArr.axisMask, NDArr.normAxis, Valuation.physNan, NDArr.map, NDArr.size,
    Quantity.nanmax, attach, NDArr.reduceMask, NDArr.pick, Except.map, List.range_succ] at h2

/-! `max` and `min` return an element that bounds all others. -/
example (l : List K) (hl : l ≠ []) :
    (NDArr.lmax l ∈ l ∧ ∀ y ∈ l, y ≤ NDArr.lmax l) ∧ (NDArr.lmin l ∈ l ∧ ∀ y ∈ l, NDArr.lmin l ≤ y) :=
  ⟨NDArr.lmax_spec hl, NDArr.lmin_spec hl⟩

/-- The 2x2 array (1, 2; 3, 4) km. -/
noncomputable def exMat : Quantity ℝ :=
  ⟨⟨[2, 2], fun i => if i = [0, 0] then 1 else if i = [0, 1] then 2 else if i = [1, 0] then 3 else 4⟩,
   dKm⟩

/-- Summing over axis 0 and over axis -1. -/
example : (∃ r, exMat.sum (.one 0) = .ok r ∧ r.dim = dKm ∧ r.mag.toList = [1 + 3, 2 + 4]) ∧
    (∃ r, exMat.sum (.one (-1)) = .ok r ∧ r.dim = dKm ∧ r.mag.toList = [1 + 2, 3 + 4]) ∧
    (∃ r, exMat.trace 0 0 1 = .ok r ∧ r.dim = dKm ∧ r.mag.toList = [1 + 4]) ∧
    exMat.sum (.one 2) = .error .valueError := by
  refine ⟨⟨_, rfl, rfl, ?_⟩, ⟨_, rfl, rfl, ?_⟩, ⟨_, rfl, rfl, ?_⟩, rfl⟩
  · simp [NDArr.toList, NDArr.indices, NDArr.reduceMask, NDArr.pick, exMat, NDArr.merge,
      List.range_succ]
  · simp [NDArr.toList, NDArr.indices, NDArr.reduceMask, NDArr.pick, exMat, NDArr.merge,
      List.range_succ]
  · simp [NDArr.toList, NDArr.indices, NDArr.pick, exMat, NDArr.merge, List.range_succ,
      NDArr.diagLen]

/-- The hypotheses of `CommutesWithRescale` are met: km to m. -/
example : ∃ r, exMat.rescale exWorld dM = .ok r ∧ DimOK exWorld exMat.dim ∧ DimOK exWorld dM ∧
    HashSafe exWorld exMat.dim dM := by
  obtain ⟨r, hr⟩ := (rescale_returns exWorld_wf (q := exMat) (ex_dimOK _ (by simp [exMat]))
    (ex_dimOK dM (by simp)) ex_safe_km_m).2 ex_compat
  exact ⟨r, hr, ex_dimOK _ (by simp [exMat]), ex_dimOK _ (by simp), ex_safe_km_m⟩

/-! ## C33 -/

private theorem attach_ok {m : Py (NDArr K)} {d : Dim} {r : Quantity K} (hr : attach m d = .ok r) :
    r.dim = d ∧ m = .ok r.mag := by
  unfold attach at hr
  rcases m with e | m
  · exact absurd hr (by simp [Except.map])
  · simp only [Except.map, Except.ok.injEq] at hr; subst hr; exact ⟨rfl, rfl⟩

/-- C33, `prod()` over all `n` elements: every unit exponent is multiplied by `n` and the result
denotes the product of the physical values. -/
theorem C33_prod_all (q : Quantity K) (hq : DimOK w q.dim) :
    ∃ r, q.prod .all = .ok r ∧ DimOK w r.dim ∧ (∀ u, expo r.dim u = expo q.dim u * q.mag.size) ∧
      ∀ v : Valuation w, (v.phys q).reduce List.prod .all = .ok (v.phys r) := by
  refine ⟨_, rfl, hq.pow _, fun u => by simp [expo_pow], fun v => ?_⟩
  have e1 : v.size (Dim.pow q.dim (q.mag.size : ℚ)) = v.size q.dim ^ q.mag.size := by
    rw [Valuation.size, dsize_pow v.pos, rpow_natCast]; rfl
  unfold NDArr.reduce Valuation.phys
  rw [show (q.mag.map (fun x => x * v.size q.dim)).shape = q.mag.shape from rfl]
  simp only [NDArr.axisMask]
  rw [NDArr.reduceMask_prod, NDArr.pick_true_replicate, e1]
  rfl

/-- C33, `prod(axis)`: the exponents are multiplied by the length of the axis, negative axes counting
from the end. -/
theorem C33_prod_axis (q : Quantity K) (hq : DimOK w q.dim) (n : Nat) (ax : Int)
    (hn : n < q.mag.shape.length) (hax : ax = n ∨ ax = (n : Int) - q.mag.shape.length) :
    ∃ r, q.prod (.one ax) = .ok r ∧ DimOK w r.dim ∧
      (∀ u, expo r.dim u = expo q.dim u * q.mag.shape[n]) ∧
      ∀ v : Valuation w, (v.phys q).reduce List.prod (.one ax) = .ok (v.phys r) := by
  have ha : NDArr.normAxis q.mag.shape.length ax = .ok n := NDArr.normAxis_ok.2 ⟨hn, hax⟩
  have hg : q.mag.shape.getD n 0 = q.mag.shape[n] := by simp [List.getD, hn]
  have hp : q.prodPower (.one ax) = .ok q.mag.shape[n] := by
    simp only [Quantity.prodPower, Quantity.shapeAt, ha, hg]
  unfold Quantity.prod Quantity.prodBy
  rw [hp]
  simp only [NDArr.reduce, NDArr.axisMask, ha]
  refine ⟨_, rfl, hq.pow _, fun u => by simp [expo_pow], fun v => ?_⟩
  have e1 : v.size (Dim.pow q.dim (q.mag.shape[n] : ℚ)) = v.size q.dim ^ q.mag.shape[n] := by
    rw [Valuation.size, dsize_pow v.pos, rpow_natCast]; rfl
  unfold Valuation.phys
  rw [show (q.mag.map (fun x => x * v.size q.dim)).shape = q.mag.shape from rfl]
  simp only [ha]
  rw [NDArr.reduceMask_prod, NDArr.pick_true_onehot hn, hg, e1]
  simp

/-- C33, `prod` with an axis that does not exist raises `IndexError`. -/
theorem C33_prod_bad_axis (q : Quantity K) (ax : Int)
    (hax : ¬ (-(q.mag.shape.length : Int) ≤ ax ∧ ax < q.mag.shape.length)) :
    q.prod (.one ax) = .error .indexError := by
  rcases hn : NDArr.normAxis q.mag.shape.length ax with e | n
  · simp only [Quantity.prod, Quantity.prodBy, Quantity.prodPower, Quantity.shapeAt, hn]
  · have := NDArr.normAxis_ok.1 hn; omega

/-- C33, `var`: the exponents are doubled and the result denotes the variance of the physical values,
for every axis and `ddof`; it fails exactly when numpy does. -/
theorem C33_var (q : Quantity K) (hq : DimOK w q.dim) (ax : Axis) (ddof : ℚ) :
    (∀ r, q.var ax ddof = .ok r → DimOK w r.dim ∧ ∀ u, expo r.dim u = expo q.dim u * 2) ∧
    ∀ v : Valuation w,
      (v.phys q).reduce (NDArr.lvar ddof) ax = (q.var ax ddof).map v.phys := by
  refine ⟨fun r hr => ?_, fun v => ?_⟩
  · have := (attach_ok hr).1
    rw [this]
    exact ⟨hq.pow _, fun u => by simp [expo_pow]⟩
  · have e1 : v.size (Dim.pow q.dim 2) = v.size q.dim ^ 2 := by
      rw [Valuation.size, dsize_pow v.pos]
      exact_mod_cast rpow_natCast (dsize v.val q.dim) 2
    unfold Valuation.phys
    rw [NDArr.reduce_map (g' := fun x => x * v.size q.dim ^ 2)
      (fun l => NDArr.lvar_map ddof (v.size q.dim) l)]
    unfold Quantity.var attach
    rcases NDArr.reduce (NDArr.lvar ddof) ax q.mag with e | m
    · rfl
    · simp only [Except.map]
      rw [e1]

/-- C33, the variance is the square of the standard deviation, units included. -/
theorem C33_var_std (q : Quantity K) (ax : Axis) (ddof : ℚ) (v : Valuation w) :
    (q.var ax ddof).map v.phys = ((q.std ax ddof).map v.phys).map (NDArr.map (fun x => x ^ 2)) := by
  have hsq : ∀ x : K, 0 ≤ x → rpow x (1 / 2) ^ 2 = x := by
    intro x hx
    rcases hx.lt_or_eq with hp | hz
    · rw [← rpow_natCast, rpow_rpow _ _ _ hp]; norm_num [rpow_one]
    · rw [← hz, zero_rpow _ (by norm_num)]; simp
  have e1 : v.size (Dim.pow q.dim 2) = v.size q.dim ^ 2 := by
    rw [Valuation.size, dsize_pow v.pos]
    exact_mod_cast rpow_natCast (dsize v.val q.dim) 2
  unfold Quantity.var Quantity.std attach NDArr.reduce
  rcases NDArr.axisMask q.mag.shape.length ax with e | m
  · rfl
  · simp only [Except.map, Valuation.phys, Except.ok.injEq]
    rw [e1]
    simp only [NDArr.map, NDArr.reduceMask, NDArr.mk.injEq, true_and]
    funext i
    unfold NDArr.lstd
    rw [mul_pow, hsq _ (NDArr.lvar_nonneg _ _)]

/-- C33, `cumprod` is refused with `ValueError` unless the quantity is dimensionless, and otherwise
denotes the cumulative product. -/
theorem C33_cumprod (q : Quantity K) (ax : Axis) :
    (q.dim ≠ [] → q.cumprod ax = .error .valueError) ∧
    (q.dim = [] → ∀ v : Valuation w,
      (v.phys q).cumulate List.prod ax = (q.cumprod ax).map v.phys) := by
  refine ⟨fun hd => ?_, fun hd v => ?_⟩
  · unfold Quantity.cumprod
    rw [if_pos]
    cases hq : q.dim with
    | nil => exact absurd hq hd
    | cons _ _ => rfl
  · have e1 : ∀ m : NDArr K, v.phys ⟨m, []⟩ = m := fun m => by
      unfold Valuation.phys Valuation.size
      exact NDArr.map_id' (fun x => by simp) _
    obtain ⟨m, d⟩ := q
    simp only at hd; subst hd
    simp only [Quantity.cumprod, attach, e1]
    rcases NDArr.cumulate List.prod ax m with e | m'
    · rfl
    · simp only [List.isEmpty_nil, Bool.not_true, Bool.false_eq_true, if_false, Except.map, e1]

example : ∃ r, exMat.prod (.one 1) = .ok r ∧ ∀ u, expo r.dim u = expo dKm u * 2 := by
  obtain ⟨r, h1, _, h2, _⟩ := C33_prod_axis (w := exWorld) exMat (ex_dimOK _ (by simp [exMat])) 1 1
    (by simp [exMat]) (by simp)
  exact ⟨r, h1, fun u => by simpa [exMat] using h2 u⟩

/-! ## C44 -/

private theorem size_deq {q b r : Quantity K} {v : Valuation w} (hw : WF w) (hq : DimOK w q.dim)
    (hb : DimOK w b.dim) (hs : HashSafe w b.dim q.dim) (hr : b.rescale w q.dim = .ok r) :
    r.mag.map (fun x => x * v.size q.dim) = v.phys b := by
  rw [← rescale_phys hw hb hq hs hr v]
  unfold Valuation.phys
  rw [(rescale_ok hw hb hq hs hr).2.2.2.1 v]

/-- C44, `clip` with bounds that are quantities in any compatible units (or absent): the result is in
the units of the array and denotes the physical values clipped by the physical bounds; it fails only
if the shapes do not broadcast. -/
theorem C44_clip (hw : Reachable h w) (q : Quantity K) (lo hi : Option (Quantity K))
    (hq : DimOK w q.dim) (hne : lo ≠ none ∨ hi ≠ none)
    (hb : ∀ b, (lo = some b ∨ hi = some b) →
      DimOK w b.dim ∧ HashSafe w b.dim q.dim ∧ Compatible w b.dim q.dim) (v : Valuation w) :
    (∀ r, q.clip w (lo.map .quantity) (hi.map .quantity) = .ok r → r.dim = q.dim) ∧
    (v.phys q).clip (lo.map v.phys) (hi.map v.phys) =
      (q.clip w (lo.map .quantity) (hi.map .quantity)).map v.phys := by
  have bound : ∀ o : Option (Quantity K), (o = lo ∨ o = hi) →
      ∃ m, Quantity.clipBound w q (o.map .quantity) = .ok m ∧
        m.map (fun b => b.map (fun x => x * v.size q.dim)) = o.map v.phys := by
    intro o ho
    cases o with
    | none => exact ⟨none, rfl, rfl⟩
    | some b =>
      obtain ⟨h1, h2, h3⟩ := hb b (by rcases ho with rfl | rfl <;> simp)
      obtain ⟨r, hr⟩ := (rescale_returns hw.wf h1 hq h2).2 h3
      refine ⟨some r.mag, by simp only [Option.map_some, Quantity.clipBound, hr]; rfl, ?_⟩
      simp only [Option.map_some]
      exact congrArg some (size_deq hw.wf hq h1 h2 hr)
  obtain ⟨l, hl1, hl2⟩ := bound lo (Or.inl rfl)
  obtain ⟨u, hu1, hu2⟩ := bound hi (Or.inr rfl)
  have hisQ : ∀ o : Option (Quantity K), Quantity.isQBound (o.map Operand.quantity) = true := by
    intro o; cases o <;> rfl
  have hnn : ((lo.map (Operand.quantity (K := K))).isNone && (hi.map (Operand.quantity (K := K))).isNone) = false := by
    cases lo <;> cases hi <;> simp_all
  have hc : q.clip w (lo.map .quantity) (hi.map .quantity) = attach (q.mag.clip l u) q.dim := by
    unfold Quantity.clip
    rw [hnn, hisQ, hisQ, hl1, hu1]
    simp
  rw [hc]
  refine ⟨fun r hr => (attach_ok hr).1, ?_⟩
  rw [← hl2, ← hu2]
  have hs := v.size_pos q.dim
  unfold Valuation.phys
  rw [NDArr.clip_map (g := fun x => x * v.size q.dim)
    (fun x y => max_mul_of_nonneg _ _ hs.le) (fun x y => min_mul_of_nonneg _ _ hs.le)]
  unfold attach
  rcases NDArr.clip q.mag l u with e | m <;> rfl

/-- C44, `clip` with an incompatible bound raises `ValueError`. -/
theorem C44_clip_incompatible (hw : Reachable h w) (q : Quantity K) (lo hi : Option (Quantity K))
    (hq : DimOK w q.dim)
    (hb : ∀ b, (lo = some b ∨ hi = some b) → DimOK w b.dim ∧ HashSafe w b.dim q.dim)
    (hn : ∃ b, (lo = some b ∨ hi = some b) ∧ ¬ Compatible w b.dim q.dim) :
    q.clip w (lo.map .quantity) (hi.map .quantity) = .error .valueError := by
  have bad : ∀ b : Quantity K, (lo = some b ∨ hi = some b) → ¬ Compatible w b.dim q.dim →
      Quantity.clipBound w q (some (.quantity b)) = .error .valueError := fun b h1 h2 => by
    have he := (rescale_eq_error_iff hw.wf (hb b h1).1 hq (hb b h1).2).2 h2
    simp only [Quantity.clipBound, he]; rfl
  have isQ : ∀ o : Option (Quantity K), Quantity.isQBound (o.map (Operand.quantity (K := K))) = true :=
    fun o => by cases o <;> rfl
  have hnone : ((lo.map (Operand.quantity (K := K))).isNone && (hi.map (Operand.quantity (K := K))).isNone) = false := by
    obtain ⟨b, rfl | rfl, -⟩ := hn
    · rfl
    · cases lo <;> rfl
  unfold Quantity.clip
  rw [hnone, isQ, isQ]
  simp only [Bool.and_self, Bool.not_true, Bool.and_false, Bool.false_eq_true, if_false]
  obtain ⟨b, rfl | rfl, h2⟩ := hn
  · rw [Option.map_some, bad b (.inl rfl) h2]
  · rcases hl : Quantity.clipBound w q (lo.map .quantity) with e | l
    · cases lo with
      | none => simp [Quantity.clipBound] at hl
      | some c =>
        simp only [Option.map_some, Quantity.clipBound] at hl
        rcases hc : c.rescale w q.dim with e' | r
        · rw [hc] at hl
          simp only [Except.map, Except.error.injEq] at hl
          subst hl
          have := rescale_error hc
          rw [this]
        · rw [hc] at hl; simp [Except.map] at hl
    · rw [Option.map_some, bad b (.inr rfl) h2]

/-- C44, `clip` of a quantity with units refuses plain numbers. -/
theorem C44_clip_plain_rejected (q : Quantity K) (a : NDArr K) (o : Option (Operand K))
    (hq : q.dim ≠ []) :
    q.clip w (some (.array a)) o = .error .valueError ∧
    q.clip w o (some (.array a)) = .error .valueError := by
  have hd : q.dim.isEmpty = false := by
    cases hq' : q.dim with
    | nil => exact absurd hq' hq
    | cons _ _ => rfl
  unfold Quantity.clip
  rw [hd]
  refine ⟨by simp [Quantity.isQBound], ?_⟩
  cases o <;> simp [Quantity.isQBound]

/-- C80 fails for plain bounds of a dimensionless quantity: a bare number is dimensionless, but
`clip` raises `AttributeError`. -/
theorem C80_clip_plain_dimensionless_false (m a : NDArr K) (w : World K) :
    Quantity.clip w ⟨m, []⟩ (some (.array a)) none = .error .attributeError := rfl

/-- C80, `searchsorted`, proved for values in the same units: the result is that for the physical
values.  Values in other units are refused, see `C80_searchsorted_units_false`. -/
theorem C80_searchsorted_partial (q : Quantity K) (o : Operand K) (right : Bool)
    (hq : DimOK w q.dim) (ho : DimOK w o.dim) (hs : NoColl w o.dim q.dim) (v : Valuation w) :
    (SameContent o.dim q.dim →
      q.searchsorted w o right = (v.phys q).searchsorted right (v.physOp o)) ∧
    (¬ SameContent o.dim q.dim → q.searchsorted w o right = .error .valueError) := by
  unfold Quantity.searchsorted
  simp only [Operand.toQuantity_dim, Operand.toQuantity_mag]
  refine ⟨fun hsame => ?_, fun hn => ?_⟩
  · have hd : w.deq o.dim q.dim = true := deq_same ho.canon.nodup hq.canon.nodup hsame
    have hne : w.dne o.dim q.dim = false := by rw [dne_eq, hd]; rfl
    rw [hne]
    have e : v.size o.dim = v.size q.dim := dsize_same v.val ho.canon.nodup hq.canon.nodup hsame
    rw [physOp_eq', e]
    simp only [Bool.false_eq_true, if_false]
    exact (NDArr.searchsorted_map (g := fun x => x * v.size q.dim)
      (fun x y => by simp [v.size_pos q.dim]) right q.mag o.arr).symm
  · have hne : w.dne o.dim q.dim = true := by
      have : w.deq o.dim q.dim = false := by
        rcases hb : w.deq o.dim q.dim with _ | _
        · rfl
        · exact absurd (hs hb) hn
      rw [dne_eq, this]; rfl
    rw [if_pos hne]

/-- C80, on a sorted one-dimensional array `searchsorted` returns the number of elements before the
key: smaller ones (`side='left'`), smaller or equal ones (`side='right'`). -/
theorem C80_searchsorted_count_partial (w : World K) (q : Quantity K) (n : Nat) (key : K) (right : Bool)
    (hshape : q.mag.shape = [n])
    (hsorted : ∀ i j, i ≤ j → j < n → q.mag.elem [i] ≤ q.mag.elem [j])
    (r : NDArr Nat) (hr : q.searchsorted w (.quantity ⟨NDArr.scalar key, q.dim⟩) right = .ok r) :
    r.elem [] = q.mag.toList.countP
      (fun x => if right then decide (x ≤ key) else decide (x < key)) := by
  have hne : w.dne q.dim q.dim = false := by
    rw [dne_eq, deq_self w q.dim]; rfl
  unfold Quantity.searchsorted at hr
  simp only [Operand.toQuantity, hne, Bool.false_eq_true, if_false, NDArr.searchsorted, hshape,
    Except.ok.injEq] at hr
  subst hr
  have hlist : q.mag.toList = (List.range n).map (fun j => q.mag.elem [j]) := by
    unfold NDArr.toList
    rw [hshape]
    simp [NDArr.indices, List.flatMap]
    induction List.range n with
    | nil => rfl
    | cons a l ih => simp [ih]
  rw [hlist]
  set before : K → Bool := fun x => if right then decide (x ≤ key) else decide (x < key) with hbef
  set l := (List.range n).map (fun j => q.mag.elem [j]) with hl
  have hget : ∀ (j : Nat) (x : K), l[j]? = some x → j < n ∧ q.mag.elem [j] = x := by
    intro j x hj
    rw [hl, List.getElem?_map] at hj
    by_cases hjn : j < n
    · rw [List.getElem?_range hjn] at hj
      exact ⟨hjn, by simpa using hj⟩
    · rw [List.getElem?_eq_none (by simpa using hjn)] at hj; simp at hj
  have hb := NDArr.countP_boundary before l (by
    intro i j x y hij hx hy hb
    obtain ⟨h1, rfl⟩ := hget i x hx
    obtain ⟨h2, rfl⟩ := hget j y hy
    have hle := hsorted i j hij h2
    rw [hbef] at hb ⊢
    cases right
    · simp only [Bool.false_eq_true, if_false, decide_eq_true_eq] at hb ⊢; exact lt_of_le_of_lt hle hb
    · simp only [if_true, decide_eq_true_eq] at hb ⊢; exact le_trans hle hb)
  have hsz : l.toArray.size = n := by simp [hl]
  have hcle : l.countP before ≤ n := by
    have := List.countP_le_length (p := before) (l := l)
    simpa [hl] using this
  exact NDArr.bsearch_spec before l.toArray (l.countP before)
    (fun j x hj => hb j x (by simpa using hj)) n 0 n (by omega) (Nat.zero_le _) hcle (by omega)

/-- C80 fails for `searchsorted` with compatible but different units: it raises instead of
converting. -/
theorem C80_searchsorted_units_false : ∃ (q : Quantity ℝ) (o : Quantity ℝ),
    Compatible exWorld o.dim q.dim ∧
    q.searchsorted exWorld (.quantity o) false = .error .valueError := by
  refine ⟨⟨⟨[1], fun _ => 1⟩, dM⟩, ⟨NDArr.scalar 1, dKm⟩, ex_compat, ?_⟩
  unfold Quantity.searchsorted
  rw [if_pos]
  simp only [Operand.toQuantity, dne_eq, ex_deq_km_m, Bool.not_false]

/-- C44, `round` keeps the units and rounds the stored numbers. -/
theorem C44_round (q : Quantity K) (rnd : K → K) :
    ∃ r, q.round rnd = .ok r ∧ r.dim = q.dim ∧ r.mag.shape = q.mag.shape ∧
      ∀ i, r.mag.elem i = rnd (q.mag.elem i) := ⟨_, rfl, rfl, rfl, fun _ => rfl⟩

/-- The hypotheses of `C44_clip` are met: clip (1, 2; 3, 4) km at 1500 m. -/
example : ∀ b, (some (⟨NDArr.scalar 1500, dM⟩ : Quantity ℝ) = some b ∨ (none : Option (Quantity ℝ)) = some b) →
    DimOK exWorld b.dim ∧ HashSafe exWorld b.dim exMat.dim ∧ Compatible exWorld b.dim exMat.dim := by
  rintro b (hb | hb)
  · simp only [Option.some.injEq] at hb; subst hb
    exact ⟨ex_dimOK _ (by simp), ex_safe_m_km, compatible_symm exWorld_wf ex_compat⟩
  · simp at hb

end PQ
