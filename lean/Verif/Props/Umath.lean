import Verif.Spec.Umath
import Verif.Lemmas.NumpyLib
import Verif.Lemmas.Simplified
import Verif.Lemmas.ExampleAngle
import Verif.Props.Ufuncs
import Verif.Props.Reductions

/-!
# Properties C35, C36, C48: `quantities/umath.py`
-/

namespace PQ

open LawfulRPow Dict

variable {K : Type _} [Field K] [LinearOrder K] [IsStrictOrderedRing K] [RPow K] [LawfulRPow K]
variable {h : Hasher} {w : World K}

private theorem radian_size' (hr : RadianOK w) (v : Valuation w) : v.size radianDim = 1 := by
  obtain ⟨i, h2, h3⟩ := hr
  have hv := v.defined radianKey i _ h2 h3
  rw [Valuation.size, radianDim, unitDim]
  split
  · rfl
  · simp [dsize, rpow_one, hv]

private theorem radian_dimOK (hr : RadianOK w) : DimOK w radianDim := by
  obtain ⟨i, h2, -⟩ := hr
  exact unitDim_ok (List.mem_map.2 ⟨_, Dict.mem_of_get? h2, rfl⟩)

private theorem size_nil (v : Valuation w) : v.size [] = 1 := rfl

private theorem radian_compat (hw : WF w) (hr : RadianOK w) (d : Dim) :
    Compatible w d radianDim ↔ Compatible w d [] := by
  have hc : Compatible w radianDim [] := ⟨1, fun v => by rw [radian_size' hr v, size_nil, one_mul]⟩
  exact ⟨fun h => compatible_trans h hc, fun h => compatible_trans h (compatible_symm hw hc)⟩

/-- The common argument: convert to `need` (of size 1), apply `g`, attach `out` (of size 1). -/
private theorem pureFunction (hw : WF w) {need out : Dim} (hn : DimOK w need)
    (hnc : ∀ d, Compatible w d need ↔ Compatible w d [])
    (hns : ∀ v : Valuation w, v.size need = 1) (hos : ∀ v : Valuation w, v.size out = 1)
    {f : Operand K → Py (Operand K)} {g : K → K}
    (ha : ∀ a, f (.array a) = .ok (.array (a.map g)))
    (hq : ∀ q : Quantity K, f (.quantity q) =
      (q.rescale w need).map (fun r => .quantity ⟨r.mag.map g, out⟩)) :
    PureFunction w f g need out := by
  refine ⟨ha, fun q hdq hs => ⟨fun hc => ?_, fun hc => ?_⟩⟩
  · obtain ⟨r, hr⟩ := (rescale_returns hw hdq hn hs).2 ((hnc _).2 hc)
    refine ⟨⟨r.mag.map g, out⟩, by rw [hq, hr]; rfl, rfl, fun v => ?_⟩
    have hp := rescale_phys hw hdq hn hs hr v
    have hsz := (rescale_ok hw hdq hn hs hr).2.2.2.1 v
    rw [hns v] at hsz
    unfold Valuation.phys at hp ⊢
    rw [← hp, hsz, hos v]
    simp only [NDArr.map_map, mul_one]
  · have := (rescale_eq_error_iff hw hdq hn hs).2 (fun hh => hc ((hnc _).1 hh))
    rw [hq, this]; rfl

/-! ## C35: trigonometric functions -/

/-- C35: `umath.sin`, `cos`, `tan`: the argument is any angle in any unit, the result is the
function of the physical angle, anything else raises `ValueError`. -/
theorem C35_trig (hw : Reachable h w) (hr : RadianOK w) (g : K → K) :
    PureFunction w (Umath.trig w g) g radianDim [] :=
  pureFunction hw.wf (radian_dimOK hr) (radian_compat hw.wf hr) (radian_size' hr) (fun _ => rfl)
    (fun _ => rfl) (fun _ => rfl)

/-- C35: `umath.arcsin`, `arccos`, `arctan` take pure numbers and return radians. -/
theorem C35_arc (hw : Reachable h w) (hr : RadianOK w) (g : K → K) :
    PureFunction w (Umath.arc w g) g [] radianDim :=
  pureFunction hw.wf (DimOK.nil _) (fun _ => Iff.rfl) (fun _ => rfl) (radian_size' hr)
    (fun _ => rfl) (fun _ => rfl)

/-- C35: `umath.sinh`, `cosh`, `tanh` and their inverses map pure numbers to pure numbers. -/
theorem C35_hyperbolic (hw : Reachable h w) (g : K → K) :
    PureFunction w (Umath.hyperbolic w g) g [] [] :=
  pureFunction hw.wf (DimOK.nil _) (fun _ => Iff.rfl) (fun _ => rfl) (fun _ => rfl)
    (fun _ => rfl) (fun _ => rfl)

/-- C35: the result depends on the physical angle only, not on the unit it is written in. -/
theorem C35_same_angle (hw : Reachable h w) (hr : RadianOK w) (g : K → K) (a b : Quantity K)
    (ha : DimOK w a.dim) (hb : DimOK w b.dim) (sa : HashSafe w a.dim radianDim)
    (sb : HashSafe w b.dim radianDim) (ca : Compatible w a.dim []) (cb : Compatible w b.dim [])
    (hab : ∀ v : Valuation w, v.phys a = v.phys b) :
    Umath.trig w g (.quantity a) = Umath.trig w g (.quantity b) := by
  obtain ⟨v⟩ := exists_valuation hw.wf
  obtain ⟨r, r1, r2, r3⟩ := ((C35_trig hw hr g).2 a ha sa).1 ca
  obtain ⟨s, s1, s2, s3⟩ := ((C35_trig hw hr g).2 b hb sb).1 cb
  have e : ∀ t : Quantity K, t.dim = [] → t = ⟨v.phys t, []⟩ := by
    rintro ⟨m, d⟩ rfl
    simp only [Quantity.mk.injEq, and_true]
    exact (NDArr.map_id' (fun x => by rw [size_nil, mul_one]) _).symm
  rw [r1, s1, e r r2, e s s2, r3 v, s3 v, hab v]

/-- The shipped radian and degree, an array of 180 and 90 degrees, and the same angles in radians. -/
theorem exAngle_radianOK : RadianOK exAngle := exAngle_info_rad

example : ∃ r : Quantity ℝ,
    Umath.trig exAngle Real.sin (.quantity ⟨NDArr.scalar 180, dDeg⟩) = .ok (.quantity r) ∧
    r.dim = [] ∧ ∀ v : Valuation exAngle, (v.phys r).elem [] = 0 := by
  obtain ⟨r, r1, r2, r3⟩ := ((C35_trig exAngle_reachable exAngle_radianOK Real.sin).2
    ⟨NDArr.scalar 180, dDeg⟩ (exAngle_dimOK _ (by simp)) exAngle_safe_deg_rad).1 exAngle_compat_nil
  refine ⟨r, r1, r2, fun v => ?_⟩
  rw [r3 v]
  have hs : v.size dDeg = Real.pi / 180 := by
    obtain ⟨i, h1, h2⟩ := exAngle_info_deg
    have hv := v.defined uDeg i _ h1 h2
    obtain ⟨j, h3, h4⟩ := exAngle_info_rad
    have hu := v.defined uRad j _ h3 h4
    simp only [dsize_cons, dsize_nil, rpow_one, mul_one] at hu hv
    simp only [Valuation.size, dDeg, dsize_cons, dsize_nil, rpow_one, mul_one, hv, hu]
  change Real.sin (180 * v.size dDeg) = 0
  rw [hs, show (180 : ℝ) * (Real.pi / 180) = Real.pi by ring, Real.sin_pi]

/-! ## C36: `hypot` and `arctan2` -/

/-- C36, proved part of `hypot`: two quantities in the same units give the physical hypotenuse
(`g` stands for any function homogeneous of degree 1, see `C34_uniform_functions`).  Missing: operands
in different units of the same kind are refused, see `C36_hypot_false`. -/
theorem C36_hypot_partial (g : K → K → K)
    (hg : ∀ c x y : K, 0 < c → g (x * c) (y * c) = g x y * c) (a b r : Quantity K)
    (ha : DimOK w a.dim) (hb : DimOK w b.dim) (hn : NoColl w a.dim b.dim)
    (hr : Umath.hypot w g (.quantity a) (.quantity b) = .ok (.quantity r)) :
    r.dim = a.dim ∧ ∀ v : Valuation w, NDArr.bin g (v.phys a) (v.phys b) = .ok (v.phys r) := by
  simp only [Umath.hypot, dne_eq] at hr
  rcases hd : w.deq a.dim b.dim with _ | _
  · simp [hd] at hr
  · simp only [hd, Bool.not_true, Bool.false_eq_true, if_false] at hr
    rcases hb' : NDArr.bin g a.mag b.mag with e | m
    · rw [hb'] at hr; simp [Except.map] at hr
    · rw [hb'] at hr
      simp only [Except.map, Except.ok.injEq, Operand.quantity.injEq] at hr
      subst hr
      refine ⟨rfl, fun v => ?_⟩
      have hsz : v.size b.dim = v.size a.dim :=
        (dsize_same v.val ha.canon.nodup hb.canon.nodup (hn hd)).symm
      unfold Valuation.phys
      rw [hsz, NDArr.bin_scale (z := v.size a.dim) (fun p q => hg _ _ _ (v.size_pos _)), hb']
      rfl

/-- C36 fails for `hypot`: 3 km and 4 m have a physical hypotenuse, but `umath.hypot` raises
`ValueError`. -/
theorem C36_hypot_false : Compatible exWorld dKm dM ∧ ∀ g : ℝ → ℝ → ℝ,
    Umath.hypot exWorld g (.quantity ⟨NDArr.scalar 3, dKm⟩) (.quantity ⟨NDArr.scalar 4, dM⟩)
      = .error .valueError := by
  refine ⟨ex_compat, fun g => ?_⟩
  have : exWorld.deq dKm dM = false := ex_deq_km_m
  simp only [Umath.hypot, dne_eq, this, Bool.not_false, if_true]

/-- C36, proved part of `arctan2`: two quantities in the same units give the physical angle, in
radians.  Missing: with different units of the same kind the magnitudes are not converted, see
`C36_arctan2_false`. -/
theorem C36_arctan2_partial (hrad : RadianOK w) (fuel : Nat) (g : K → K → K)
    (hg : ∀ c x y : K, 0 < c → g (x * c) (y * c) = g x y) (a b r : Quantity K)
    (ha : DimOK w a.dim) (hb : DimOK w b.dim) (hab : SameContent a.dim b.dim)
    (hr : Umath.arctan2 w fuel g (.quantity a) (.quantity b) = .ok (.quantity r)) :
    r.dim = radianDim ∧ ∀ v : Valuation w, NDArr.bin g (v.phys a) (v.phys b) = .ok (v.phys r) := by
  simp only [Umath.arctan2] at hr
  rcases h1 : Dim.simplified w fuel a.dim with e | d1
  · rw [h1] at hr; simp at hr
  rcases h2 : Dim.simplified w fuel b.dim with e | d2
  · rw [h1, h2] at hr; simp at hr
  rw [h1, h2] at hr
  simp only at hr
  split at hr
  · simp at hr
  rcases hb' : NDArr.bin g a.mag b.mag with e | m
  · rw [hb'] at hr; simp [Except.map] at hr
  rw [hb'] at hr
  simp only [Except.map, Except.ok.injEq, Operand.quantity.injEq] at hr
  subst hr
  refine ⟨rfl, fun v => ?_⟩
  have hsz : v.size b.dim = v.size a.dim :=
    (dsize_same v.val ha.canon.nodup hb.canon.nodup hab).symm
  unfold Valuation.phys
  rw [hsz, NDArr.bin_scale (z := v.size radianDim) (fun p q => ?_), hb']
  · rfl
  · rw [radian_size' hrad v, mul_one]; exact hg _ _ _ (v.size_pos _)

/-- C36 fails for `arctan2` of different units of the same kind: `arctan2(1 km, 1 m)` is accepted and
gives 45 degrees. -/
theorem C36_arctan2_false : Compatible exAngle dKm dM ∧
    ∃ r : Quantity ℝ, Umath.arctan2 exAngle 10 rarctan2 (.quantity ⟨NDArr.scalar 1, dKm⟩)
      (.quantity ⟨NDArr.scalar 1, dM⟩) = .ok (.quantity r) ∧
    ∀ v : Valuation exAngle, NDArr.bin rarctan2 (v.phys ⟨NDArr.scalar 1, dKm⟩)
      (v.phys ⟨NDArr.scalar 1, dM⟩) ≠ .ok (v.phys r) := by
  have hkm : ∀ v : Valuation exAngle, v.size dKm = 1000 * v.size dM := fun v => by
    have := v.defined uKm (exAngle.info uKm |>.get (by rfl)) ⟨1000, dM⟩ (by rfl) (by rfl)
    simp only [Valuation.size, dKm, dM, dsize_cons, dsize_nil, mul_one, LawfulRPow.rpow_one] at this ⊢
    exact this
  refine ⟨⟨1000, hkm⟩, ⟨NDArr.scalar (rarctan2 1 1), radianDim⟩, ?_, fun v hv => ?_⟩
  · have hkm' : exAngle.deq dKm dM = false := by
      simp only [World.deq, Dim.eq, dKm, dM]
      rw [show exAngle.hasher = exH from rfl, exHash1, exHash1]
      decide
    have hr1 : ∃ c, exAngle.rescaleS ⟨1, dKm⟩ dM = .ok ⟨c, dM⟩ := by
      have hcf : ∃ c, exAngle.convFactor dKm dM = .ok c := by
        unfold World.convFactor
        have e1 : (exAngle.reference ⟨1, dKm⟩).dim = [(uM, 1)] := exAngleRef_km
        have e2 : (exAngle.reference ⟨1, dM⟩).dim = [(uM, 1)] := exAngleRef_m
        simp only [e1, e2, deq_self, if_true]
        exact ⟨_, rfl⟩
      obtain ⟨c, hc⟩ := hcf
      refine ⟨c * 1, ?_⟩
      simp [World.rescaleS, hkm', hc]
    have hr2 : exAngle.rescaleS ⟨1, dM⟩ dM = .ok ⟨1, dM⟩ := by
      simp [World.rescaleS, deq_self]
    have key : ∀ u, u.cls = .length → (∃ c, exAngle.rescaleS ⟨1, [(u, 1)]⟩ dM = .ok ⟨c, dM⟩) →
        Dim.simplified exAngle 10 [(u, 1)] = .ok dM := by
      rintro u hu ⟨c, hc⟩
      have hd : exAngle.defaults .length = some dM := rfl
      have hi : UClass.irreducible .length = true := rfl
      have hud : unitDim u = [(u, 1)] := unitDim_of_ne (by rw [hu]; simp)
      unfold Dim.simplified simplifiedLoop unitSimplified simplifiedLoop
      have hm : Dim.mul [] (Dim.pow dM 1) = dM := by decide +kernel
      simp only [hu, hi, if_true, hd, hud, hc, hm]
      rfl
    have h1 : Dim.simplified exAngle 10 dKm = .ok dM := key uKm rfl hr1
    have h2 : Dim.simplified exAngle 10 dM = .ok dM := key uM rfl ⟨1, hr2⟩
    have h3 : exAngle.deq dM dM = true := deq_self _ _
    simp only [Umath.arctan2, h1, h2, dne_eq, h3, Bool.not_true, Bool.false_eq_true, if_false]
    rfl
  · have hel : rarctan2 (1 * v.size dKm) (1 * v.size dM) = rarctan2 1 1 * v.size radianDim := by
      have := congrArg (fun x : Py (NDArr ℝ) => match x with | .ok m => m.elem [] | .error _ => 0) hv
      exact this
    rw [radian_size' exAngle_radianOK v, mul_one, hkm v, ← mul_assoc, C34_arctan2_function _ _ _ (v.size_pos _)] at hel
    have := congrArg Real.tan hel
    unfold rarctan2 at this
    rw [Complex.tan_arg, Complex.tan_arg] at this
    norm_num at this

/-- C36, the exact condition: `arctan2` accepts two quantities whenever their units are of the same
kind (equal simplified dimensionalities), and refuses incompatible ones with `ValueError`. -/
theorem C36_arctan2_accepts (hw : Reachable h w) (hds : DefaultsSafe w) (hg : GoodDefaults w)
    (fuel : Nat) (g : K → K → K) (a b : Quantity K) (ha : DimOK w a.dim) (hb : DimOK w b.dim)
    (sa sb : Dim) (hsa : Dim.simplified w fuel a.dim = .ok sa)
    (hsb : Dim.simplified w fuel b.dim = .ok sb) (hn : NoColl w sa sb)
    (hshape : Returns (NDArr.bin g a.mag b.mag)) :
    (Compatible w a.dim b.dim → ∃ r, Umath.arctan2 w fuel g (.quantity a) (.quantity b) = .ok r) ∧
    (¬ Compatible w a.dim b.dim →
      Umath.arctan2 w fuel g (.quantity a) (.quantity b) = .error .valueError) := by
  have loop : ∀ (d s : Dim), Dim.simplified w fuel d = .ok s →
      ∃ rq : SQ K, simplifiedLoop w fuel ⟨1, []⟩ d = .ok rq ∧ rq.dim = s := by
    intro d s hd
    unfold Dim.simplified at hd
    split at hd
    · rename_i he
      simp only [Except.ok.injEq] at hd
      subst hd
      have : d = [] := by simpa using he
      subst this
      exact ⟨⟨1, []⟩, by unfold simplifiedLoop; rfl, rfl⟩
    · rcases hl : simplifiedLoop w fuel ⟨1, []⟩ d with e | rq
      · rw [hl] at hd; simp at hd
      · rw [hl] at hd
        simp only [Except.ok.injEq] at hd
        exact ⟨rq, rfl, hd⟩
  obtain ⟨ra, ra1, ra2⟩ := loop _ _ hsa
  obtain ⟨rb, rb1, rb2⟩ := loop _ _ hsb
  have hiff := simplified_content hw.wf hds hg ha hb ra1 rb1
  have ca := (simplifiedLoop_spec hw.wf hds ha ra1).2.1.canon
  have cb := (simplifiedLoop_spec hw.wf hds hb rb1).2.1.canon
  rw [ra2, rb2] at hiff
  rw [ra2] at ca; rw [rb2] at cb
  obtain ⟨m, hm⟩ := hshape
  constructor
  · intro hc
    have hdeq : w.deq sa sb = true := deq_same ca.nodup cb.nodup (hiff.2 hc)
    refine ⟨.quantity ⟨m, radianDim⟩, ?_⟩
    simp only [Umath.arctan2, hsa, hsb, dne_eq, hdeq, hm]
    rfl
  · intro hc
    have hdeq : w.deq sa sb = false := by
      by_contra hne
      exact hc (hiff.1 (hn (by simpa using hne)))
    simp only [Umath.arctan2, hsa, hsb, dne_eq, hdeq]
    rfl

/-! ## C48: differences, integrals, gradients -/

private theorem diffStep_eq (ax : Nat) (q : Quantity K) : Umath.diffStep w ax q =
    attach (NDArr.bin (· - ·) (q.mag.tailAx ax) (q.mag.initAx ax)) q.dim := by
  unfold Umath.diffStep applyUF2
  simp only [ufunc2Dim, dCheckUniform, deq_self, if_true, Operand.arr]
  rcases NDArr.bin (· - ·) (q.mag.tailAx ax) (q.mag.initAx ax) with e | m <;> rfl

private theorem diffLoop_eq (ax n : Nat) (q : Quantity K) : Umath.diffLoop w ax n q =
    attach (NDArr.diffLoop ax n q.mag) q.dim := by
  induction n generalizing q with
  | zero => rfl
  | succ n ih =>
    unfold Umath.diffLoop NDArr.diffLoop
    rw [diffStep_eq]
    rcases NDArr.bin (· - ·) (q.mag.tailAx ax) (q.mag.initAx ax) with e | m
    · rfl
    · exact ih ⟨m, q.dim⟩

theorem umath_diff_eq (q : Quantity K) (n ax : Int) : Umath.diff w q n ax =
    attach (q.mag.diff n ax) q.dim := by
  unfold Umath.diff NDArr.diff
  split
  · rfl
  · split
    · rfl
    · split
      · rfl
      · rcases NDArr.normAxis q.mag.shape.length ax with e | k
        · rfl
        · exact diffLoop_eq _ _ _

/-- C48: `umath.diff` of any order along any axis keeps the units and is numpy's `diff` of the
physical values, exceptions included. -/
theorem C48_diff (w : World K) (n ax : Int) :
    DenotesReduction w (fun q => Umath.diff w q n ax) (NDArr.diff n ax) := by
  intro q
  simp only [umath_diff_eq]
  refine ⟨fun r hr => ?_, fun v => ?_⟩
  · rcases hd : q.mag.diff n ax with e | m
    · rw [hd] at hr; simp [attach, Except.map] at hr
    · rw [hd] at hr
      simp only [attach, Except.map, Except.ok.injEq] at hr
      subst hr; rfl
  · unfold Valuation.phys
    rw [NDArr.diff_scale]
    rcases q.mag.diff n ax with e | m <;> rfl

/-- C48: `umath.cumsum` delegates to the method, see `C32_cumsum`. -/
theorem C48_cumsum (hw : Reachable h w) (ax : Axis) :
    DenotesReduction w (fun q => q.cumsum ax) (NDArr.cumulate List.sum ax) := (C32_cumsum hw ax).1

/-- C81, proved part of `ediff1d`: without `to_end` and `to_begin`, or with quantities in the very
units of the array, the result is physical.  Missing: other units, see `C81_ediff1d_false`. -/
theorem C81_ediff1d_partial (q : Quantity K) (e b : Option (Quantity K))
    (he : ∀ x ∈ e, x.dim = q.dim) (hb : ∀ x ∈ b, x.dim = q.dim) (v : Valuation w) :
    (Umath.ediff1d q (e.map .quantity) (b.map .quantity)).dim = q.dim ∧
    NDArr.ediff1d (v.phys q) (e.map v.phys) (b.map v.phys) =
      v.phys (Umath.ediff1d q (e.map .quantity) (b.map .quantity)) := by
  refine ⟨rfl, ?_⟩
  have hopt : ∀ o : Option (Quantity K), (∀ x ∈ o, x.dim = q.dim) →
      o.map v.phys = (o.map (fun x => x.mag)).map (NDArr.map (· * v.size q.dim)) := by
    intro o ho
    cases o with
    | none => rfl
    | some x =>
      have := ho x rfl
      simp only [Option.map_some, Valuation.phys, this]
  rw [hopt e he, hopt b hb]
  unfold Valuation.phys
  rw [NDArr.ediff1d_scale]
  simp only [Umath.ediff1d, Option.map_map]
  rfl

/-- C81 fails for `ediff1d` with `to_end` in other units: appending 1 km to differences in metres
appends 1 m. -/
theorem C81_ediff1d_false : ∃ q e : Quantity ℝ, DimOK exWorld q.dim ∧ Compatible exWorld e.dim q.dim ∧
    ∀ v : Valuation exWorld, NDArr.ediff1d (v.phys q) (some (v.phys e)) none ≠
      v.phys (Umath.ediff1d q (some (.quantity e)) none) := by
  refine ⟨⟨⟨[1], fun _ => 0⟩, dM⟩, ⟨NDArr.scalar 1, dKm⟩, ex_dimOK dM (by simp), ex_compat, fun v hv => ?_⟩
  have hkm : v.size dKm = 1000 * v.size dM := by
    have := v.defined uKm (exWorld.info uKm |>.get (by rfl)) ⟨1000, dM⟩ (by rfl) (by rfl)
    simp only [Valuation.size, dKm, dM, dsize_cons, dsize_nil, mul_one, LawfulRPow.rpow_one] at this ⊢
    exact this
  have h0 : (1 : ℝ) * v.size dKm = 1 * v.size dM := congrArg (fun a : NDArr ℝ => a.elem [0]) hv
  have := v.size_pos dM
  rw [hkm] at h0
  linarith

private theorem physOp_scale (v : Valuation w) (o : Operand K) :
    v.physOp o = o.toQuantity.mag.map (· * v.size o.toQuantity.dim) := by
  cases o with
  | quantity q => rfl
  | array a => exact (NDArr.map_id' (fun x => by simp [Operand.toQuantity, size_nil]) _).symm

/-- C48: the trapezoidal rule.  For every mixture of quantities and plain arrays, with sample points
or a spacing, along any axis: the result (or exception) is that of the rule on the physical values. -/
theorem C48_trapz (y : Operand K) (x : Option (Operand K)) (dx : Operand K) (ax : Int)
    (v : Valuation w) :
    NDArr.trapz (v.physOp y) (x.map v.physOp) (v.physOp dx) ax =
      (Umath.trapz y x dx ax).map v.physOp := by
  have mulsz : ∀ a b : Dim, v.size (Dim.mul a b) = v.size a * v.size b := fun a b => dsize_mul v.pos a b
  have gen : NDArr.trapz (v.physOp y) (x.map v.physOp) (v.physOp dx) ax =
      (match x.map Operand.toQuantity with
       | none => (y.toQuantity.mag.trapz none dx.toQuantity.mag ax).map
          (fun m => Operand.quantity ⟨m, Dim.mul y.toQuantity.dim dx.toQuantity.dim⟩)
       | some x => (y.toQuantity.mag.trapz (some x.mag) dx.toQuantity.mag ax).map
          (fun m => Operand.quantity ⟨m, Dim.mul y.toQuantity.dim x.dim⟩) : Py (Operand K)).map v.physOp := by
    rw [physOp_scale v y, physOp_scale v dx]
    cases x with
    | none =>
      have := NDArr.trapz_scale y.toQuantity.mag none dx.toQuantity.mag ax (v.size y.toQuantity.dim) 1
        (v.size dx.toQuantity.dim) (v.size dx.toQuantity.dim) (by simp) (fun _ => rfl)
      simp only [Option.map_none] at this ⊢
      rw [this, ← mulsz]
      rcases y.toQuantity.mag.trapz none dx.toQuantity.mag ax with e | m <;> rfl
    | some x =>
      have := NDArr.trapz_scale y.toQuantity.mag (some x.toQuantity.mag) dx.toQuantity.mag ax
        (v.size y.toQuantity.dim) (v.size x.toQuantity.dim)
        (v.size dx.toQuantity.dim) (v.size x.toQuantity.dim) (fun _ => rfl) (by simp)
      simp only [Option.map_some, physOp_scale v x] at this ⊢
      rw [this, ← mulsz]
      rcases y.toQuantity.mag.trapz (some x.toQuantity.mag) dx.toQuantity.mag ax with e | m <;> rfl
  rcases y with y | y <;> rcases x with _ | x | x <;> rcases dx with dx | dx <;>
    first
    | exact gen
    | (simp only [Umath.trapz, Valuation.physOp, Option.map_none, Option.map_some]
       rcases NDArr.trapz y _ dx ax with e | m <;> rfl)

/-- C48: the units of an integral. -/
theorem C48_trapz_units (y x : Quantity K) (dx : Operand K) (ax : Int) (r : Operand K)
    (hr : Umath.trapz (.quantity y) (some (.quantity x)) dx ax = .ok r) :
    ∃ q : Quantity K, r = .quantity q ∧ q.dim = Dim.mul y.dim x.dim := by
  rcases dx with dx | dx <;>
  · simp only [Umath.trapz, Option.map_some, Operand.toQuantity] at hr
    revert hr
    rcases NDArr.trapz _ _ _ ax with e | m
    · simp [Except.map]
    · simp only [Except.map, Except.ok.injEq]
      rintro rfl
      exact ⟨_, rfl, rfl⟩

/-- C48: the gradient with at least one spacing given: the results denote numpy's gradient of the
physical values with the physical spacings, in the units of `f` divided by those of the spacing. -/
theorem C48_gradient (f : Quantity K) (hs : List (Operand K)) (h0 : hs ≠ []) (rs : List (Quantity K))
    (hr : Umath.gradient f hs = .ok rs) (v : Valuation w) :
    NDArr.gradientIter (v.phys f) (v.physOps hs) = .ok (rs.map v.phys) ∧
    (∀ x, hs = [x] → ∀ r ∈ rs, r.dim = Dim.div f.dim x.dimU) ∧
    (∀ (k : Nat) r x, hs.length ≠ 1 → rs[k]? = some r → hs[k]? = some x →
      r.dim = Dim.div f.dim x.dimU) := by
  have divsz : ∀ a b : Dim, v.size (Dim.div a b) = v.size a / v.size b := fun a b => dsize_div v.pos a b
  have hdu : ∀ x : Operand K, x.toQuantity.dim = x.dimU := fun x => by cases x <;> rfl
  have hmag : ∀ x : Operand K, x.toQuantity.mag = x.arr := fun x => by cases x <;> rfl
  unfold Umath.gradient at hr
  rcases hg : f.mag.gradientIter (hs.map Operand.arr) with e | ret
  · rw [hg] at hr; simp at hr
  rw [hg] at hr
  simp only at hr
  match hs, h0 with
  | [x], _ =>
    simp only [List.map_cons, List.map_nil] at hg hr
    have hscale := NDArr.gradientIter_one f.mag x.arr (v.size f.dim) (v.size x.toQuantity.dim)
      (v.size_pos _).ne'
    rw [hg] at hscale
    have hphys : v.physOps [x] = [x.arr.map (· * v.size x.toQuantity.dim)] := by
      simp only [Valuation.physOps, List.map_cons, List.map_nil, physOp_scale, hmag]
    rw [hphys]
    unfold Valuation.phys
    rw [hscale]
    split at hr
    · rename_i hemp
      have : ret = [] := by simpa using hemp
      subst this
      simp only [Except.ok.injEq] at hr
      subst hr
      exact ⟨rfl, by simp, by simp⟩
    · rcases x with q | a
      · simp only [Umath.unitsOf, Except.ok.injEq] at hr
        subst hr
        refine ⟨?_, ?_, by simp⟩
        · simp only [Except.map, Operand.toQuantity, List.map_map, Except.ok.injEq]
          apply List.map_congr_left
          intro g _
          simp only [Function.comp, divsz]
        · rintro x hx r hr
          simp only [List.cons.injEq, and_true] at hx
          subst hx
          obtain ⟨g, -, rfl⟩ := List.mem_map.1 hr
          rfl
      · simp [Umath.unitsOf] at hr
  | x :: y :: t, _ =>
    simp only [Except.ok.injEq] at hr
    subst hr
    generalize hL : x :: y :: t = hs at hg
    have h2 : 2 ≤ hs.length := by rw [← hL]; simp
    have hscale := NDArr.gradientIter_many f.mag (hs.map Operand.arr)
      (hs.map (fun x => v.size x.toQuantity.dim)) (v.size f.dim) (by simp) (by simpa using h2)
      (by intro c hc; obtain ⟨x, -, rfl⟩ := List.mem_map.1 hc; exact (v.size_pos _).ne')
    rw [hg] at hscale
    have hphys : v.physOps hs = List.zipWith (fun c h => NDArr.map (· * c) h)
        (hs.map (fun x => v.size x.toQuantity.dim)) (hs.map Operand.arr) := by
      rw [List.zipWith_map, List.zipWith_self]
      unfold Valuation.physOps
      apply List.map_congr_left
      intro x _
      rw [physOp_scale, hmag]
    refine ⟨?_, ?_, ?_⟩
    · rw [hphys]
      unfold Valuation.phys
      rw [hscale]
      simp only [Except.map, Except.ok.injEq]
      rw [List.map_zipWith, List.zipWith_map_left, List.zipWith_comm]
      congr 1
      funext g x
      simp only [divsz]
    · intro x' hx'
      rw [hx'] at h2; simp at h2
    · intro k r x' _ hrk hxk
      rw [List.getElem?_zipWith] at hrk
      rw [hxk] at hrk
      rcases hret : ret[k]? with _ | g
      · rw [hret] at hrk; simp at hrk
      · rw [hret] at hrk
        simp only [Option.some.injEq] at hrk
        rw [← hrk, ← hdu]

/-- C81 fails for `gradient` without a spacing: every array on which numpy computes gradients gives
the empty tuple. -/
theorem C81_gradient_default_false (f : Quantity K) (gs : List (NDArr K))
    (hg : NDArr.gradientIter f.mag [] = .ok gs) : Umath.gradient f [] = .ok [] := by
  unfold Umath.gradient
  simp only [List.map_nil, hg]
  simp

/-- ... and with one plain number as spacing it raises `AttributeError`. -/
theorem C81_gradient_plain_false (f : Quantity K) (a : NDArr K) (gs : List (NDArr K)) (hne : gs ≠ [])
    (hg : NDArr.gradientIter f.mag [a] = .ok gs) :
    Umath.gradient f [.array a] = .error .attributeError := by
  unfold Umath.gradient
  simp only [List.map_cons, List.map_nil, Operand.arr, hg]
  have : gs.isEmpty = false := by simpa using hne
  simp [this, Umath.unitsOf]

/-- C48: the cross product of two quantities. -/
theorem C48_cross (a b : Quantity K) (v : Valuation w) :
    NDArr.cross (v.phys a) (v.phys b) = (Umath.cross (.quantity a) (.quantity b)).map v.physOp := by
  have : v.size (Dim.mul a.dim b.dim) = v.size a.dim * v.size b.dim := dsize_mul v.pos _ _
  unfold Valuation.phys
  rw [NDArr.cross_scale]
  simp only [Umath.cross]
  rcases a.mag.cross b.mag with e | m
  · rfl
  · simp only [Except.map, Valuation.physOp, Valuation.phys, this]

/-- C81 fails for the cross product with a plain array: the units disappear. -/
theorem C81_cross_plain_false (q : Quantity K) (a m : NDArr K) (hm : a.cross q.mag = .ok m) :
    Umath.cross (.array a) (.quantity q) = .ok (.array m) := by
  simp only [Umath.cross, Operand.arr, hm]; rfl

/-! ### Instances -/

/-- `[0, 1, 4]` -/
noncomputable def exTri : NDArr ℝ := ⟨[3], fun i => if i = [0] then 0 else if i = [1] then 1 else 4⟩

/-- Differences, integral over sample points in other units, gradient along a line and cross product
all return. -/
example : (∃ r, Umath.diff exWorld ⟨exTri, dM⟩ 2 0 = .ok r) ∧
    (∃ r, Umath.trapz (.quantity ⟨exTri, dM⟩) (some (.quantity ⟨exTri, dS⟩)) (.array (NDArr.scalar 1)) (-1)
      = .ok r) ∧
    (∃ r, Umath.gradient ⟨exTri, dM⟩ [.quantity ⟨NDArr.scalar 2, dS⟩] = .ok r ∧ r.length = 3) ∧
    (∃ r, Umath.cross (.quantity ⟨exTri, dM⟩) (.quantity ⟨exTri, dKm⟩) = .ok r) := by
  refine ⟨?_, ⟨_, rfl⟩, ⟨_, rfl, rfl⟩, ⟨_, rfl⟩⟩
  rw [umath_diff_eq]
  exact ⟨_, rfl⟩

/-! ## C51: `unwrap` -/

/-- C51, proved part: with both arguments quantities and the angle in a unit of size 1 (radians), the
result has the units of the angle and is numpy's `unwrap` of the physical angles.  Missing: other
angular units, see `C51_unwrap_false`. -/
theorem C51_unwrap_partial (hw : Reachable h w) (floor : K → K) (period : K) (p d r : Quantity K)
    (ax : Int) (hp : DimOK w p.dim) (hd : DimOK w d.dim) (hs : HashSafe w d.dim p.dim)
    (h1 : ∀ v : Valuation w, v.size p.dim = 1)
    (hr : Umath.unwrap w floor period (.quantity p) (.quantity d) ax = .ok (.quantity r))
    (v : Valuation w) :
    r.dim = p.dim ∧ NDArr.unwrap floor period (v.phys p) (v.phys d) ax = .ok (v.phys r) := by
  simp only [Umath.unwrap] at hr
  rcases hd' : d.rescale w p.dim with e | d'
  · rw [hd'] at hr; simp at hr
  rw [hd'] at hr
  simp only at hr
  rcases hu : NDArr.unwrap floor period p.mag d'.mag ax with e | m
  · rw [hu] at hr; simp [Except.map] at hr
  rw [hu] at hr
  simp only [Except.map, Except.ok.injEq, Operand.quantity.injEq] at hr
  subst hr
  have e1 : ∀ m : NDArr K, m.map (fun x => x * v.size p.dim) = m := fun m => by
    rw [h1 v]; exact NDArr.map_id' (fun x => mul_one x) _
  have e2 : v.phys d = d'.mag := by
    have := rescale_phys hw.wf hd hp hs hd' v
    rw [← this]
    have hsz := (rescale_ok hw.wf hd hp hs hd').2.2.2.1 v
    unfold Valuation.phys
    rw [hsz, e1]
  refine ⟨rfl, ?_⟩
  rw [e2]
  unfold Valuation.phys
  rw [e1, e1, hu]

/-- C51: angles and discontinuity that cannot be converted into each other are refused. -/
theorem C51_unwrap_incompatible (hw : Reachable h w) (floor : K → K) (period : K) (p d : Quantity K)
    (ax : Int) (hp : DimOK w p.dim) (hd : DimOK w d.dim) (hs : HashSafe w d.dim p.dim)
    (hc : ¬ Compatible w d.dim p.dim) :
    Umath.unwrap w floor period (.quantity p) (.quantity d) ax = .error .valueError := by
  have := (rescale_eq_error_iff hw.wf hd hp hs).2 hc
  simp only [Umath.unwrap, this]

/-- `[0, 90]` and the discontinuity 10, both in degrees. -/
noncomputable def exUnwrapP : Quantity ℝ := ⟨⟨[2], fun i => if i = [1] then 90 else 0⟩, dDeg⟩
noncomputable def exUnwrapD : Quantity ℝ := ⟨NDArr.scalar 10, dDeg⟩

/-- C51 fails in degrees: the period `2*pi` is subtracted from the number of degrees.  Unwrapping
`[0, 90]` degrees moves the second angle although no jump is larger than half a turn. -/
theorem C51_unwrap_false : ∃ r, Umath.unwrap exAngle pfloor (2 * Real.pi) (.quantity exUnwrapP)
      (.quantity exUnwrapD) (-1) = .ok (.quantity r) ∧
    ∀ v : Valuation exAngle, ∀ m, NDArr.unwrap pfloor (2 * Real.pi) (v.phys exUnwrapP)
      (v.phys exUnwrapD) (-1) = .ok m → m ≠ v.phys r := by
  have hr : exUnwrapD.rescale exAngle exUnwrapP.dim = .ok exUnwrapD := by
    unfold Quantity.rescale
    rw [show exUnwrapD.dim = exUnwrapP.dim from rfl, deq_self]
    rfl
  simp only [Umath.unwrap, hr]
  refine ⟨_, rfl, fun v m hm hmr => ?_⟩
  have hs : v.size dDeg = Real.pi / 180 := by
    obtain ⟨i, h1, h2⟩ := exAngle_info_deg
    have hv := v.defined uDeg i _ h1 h2
    obtain ⟨j, h3, h4⟩ := exAngle_info_rad
    have hu := v.defined uRad j _ h3 h4
    simp only [dsize_cons, dsize_nil, rpow_one, mul_one] at hu hv
    simp only [Valuation.size, dDeg, dsize_cons, dsize_nil, rpow_one, mul_one, hv, hu]
  have hpi := Real.pi_pos
  have hpi4 := Real.pi_le_four
  -- the physical result leaves the second angle alone
  have hphys : m.elem [1] = 90 * v.size dDeg := by
    have h1 : m.elem [1] = 90 * v.size dDeg + ((if |90 * v.size dDeg - 0 * v.size dDeg| < 10 * v.size dDeg
        then 0 else NDArr.unwrapCorr pfloor (2 * Real.pi) (90 * v.size dDeg - 0 * v.size dDeg)) + 0) := by
      have := congrArg (fun x : Py (NDArr ℝ) => match x with | .ok m => m.elem [1] | .error _ => 0) hm
      exact this.symm
    have h2 : NDArr.unwrapCorr (pfloor : ℝ → ℝ) (2 * Real.pi) (90 * v.size dDeg - 0 * v.size dDeg) = 0 := by
      have e : 90 * v.size dDeg - 0 * v.size dDeg = Real.pi / 2 := by rw [hs]; ring
      rw [e]
      have hfl : (pfloor ((Real.pi / 2 - -(2 * Real.pi / 2)) / (2 * Real.pi)) : ℝ) = 0 := by
        change ((⌊(Real.pi / 2 - -(2 * Real.pi / 2)) / (2 * Real.pi)⌋ : ℤ) : ℝ) = 0
        have : (Real.pi / 2 - -(2 * Real.pi / 2)) / (2 * Real.pi) = 3 / 4 := by field_simp; norm_num
        rw [this]; norm_num
      simp only [NDArr.unwrapCorr, NDArr.unwrapMod, hfl]
      rw [if_neg]
      · ring
      · rintro ⟨h, -⟩
        linarith
    rw [h1, h2]; simp
  -- the computed one does not
  rw [hmr] at hphys
  have h3 : ((90 : ℝ) + ((if |(90 : ℝ) - 0| < 10 then 0 else
      NDArr.unwrapCorr pfloor (2 * Real.pi) (90 - 0)) + 0)) * v.size dDeg = 90 * v.size dDeg := hphys
  have h4 := mul_right_cancel₀ (v.size_pos dDeg).ne' h3
  have h5 : NDArr.unwrapCorr (pfloor : ℝ → ℝ) (2 * Real.pi) (90 - 0) < 0 := by
    simp only [NDArr.unwrapCorr, NDArr.unwrapMod]
    have hfl : (1 : ℝ) ≤ pfloor ((90 - 0 - -(2 * Real.pi / 2)) / (2 * Real.pi)) := by
      change (1 : ℝ) ≤ ((⌊(90 - 0 - -(2 * Real.pi / 2)) / (2 * Real.pi)⌋ : ℤ) : ℝ)
      have : (1 : ℤ) ≤ ⌊(90 - 0 - -(2 * Real.pi / 2)) / (2 * Real.pi)⌋ := by
        rw [Int.le_floor, le_div_iff₀ (by positivity)]
        push_cast
        linarith
      exact_mod_cast this
    have hmul : 2 * Real.pi * 1 ≤ 2 * Real.pi * pfloor ((90 - 0 - -(2 * Real.pi / 2)) / (2 * Real.pi)) :=
      mul_le_mul_of_nonneg_left hfl (by positivity)
    have hx : ∀ (P : Prop) [Decidable P] (a b c : ℝ), a < c → b < c → (if P then a else b) - c < 0 := by
      intro P _ a b c h1 h2
      split <;> linarith
    apply hx <;> linarith
  rw [if_neg (by norm_num)] at h4
  linarith

end PQ
