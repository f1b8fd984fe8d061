import Verif.Spec.Ufuncs
import Verif.Lemmas.Reduce
import Verif.Lemmas.ExampleAngle
import Mathlib.Analysis.SpecialFunctions.Complex.Arg
import Mathlib.Analysis.SpecialFunctions.Pow.Real

/-!
# Property C34: the unit rules of ufuncs (`p_dict`) are sound
-/

namespace PQ

open LawfulRPow Dict

variable {K : Type _} [Field K] [LinearOrder K] [IsStrictOrderedRing K] [RPow K] [LawfulRPow K]
variable {h : Hasher} {w : World K}

private theorem applyUF1_units {f : UF1} {g : K → K} {q r : Quantity K} {d : Dim}
    (hd : ufunc1Dim w f (.quantity q) = .ok (.units d)) (hr : applyUF1 w f g q = .ok r) :
    r = ⟨q.mag.map g, d⟩ := by
  unfold applyUF1 at hr
  rw [hd] at hr
  simp only [Except.ok.injEq] at hr
  exact hr.symm

private theorem same_map {f g : K → K} {P : K → Prop} {a : NDArr K} (ha : NDArr.All P a)
    (hfg : ∀ x, P x → f x = g x) : NDArr.Same (a.map f) (a.map g) :=
  ⟨rfl, fun i hi => hfg _ (ha i hi)⟩

/-- Generic argument for a unary ufunc whose result has the dimensionality `k q.dim`. -/
private theorem sound1 {f : UF1} {g : K → K} {P : K → Prop} (k : Dim → Dim)
    (hk : ∀ q : Quantity K, ufunc1Dim w f (.quantity q) = .ok (.units (k q.dim)))
    (hok : ∀ d, DimOK w d → DimOK w (k d))
    (hg : ∀ (v : Valuation w) (d : Dim) (x : K), P x → g (x * v.size d) = g x * v.size (k d)) :
    Sound1 w f g P := by
  intro q r hq hP hr
  have := applyUF1_units (hk q) hr
  subst this
  refine ⟨hok _ hq, fun v => ?_⟩
  unfold Valuation.phys
  simp only [NDArr.map_map]
  exact same_map hP (fun x hx => hg v q.dim x hx)

/-! ## C34: unary ufuncs -/

/-- C34, `square`. -/
theorem C34_square : Sound1 w .square (fun x => x ^ 2) (fun _ => True) :=
  sound1 (fun d => Dim.pow d 2) (fun _ => rfl) (fun _ hd => hd.pow 2) (fun v d x _ => by
    have : v.size (Dim.pow d 2) = v.size d ^ 2 := by
      rw [Valuation.size, dsize_pow v.pos]
      exact_mod_cast rpow_natCast (dsize v.val d) 2
    rw [this]; ring)

/-- C34, `reciprocal`. -/
theorem C34_reciprocal : Sound1 w .reciprocal (fun x => x⁻¹) (fun _ => True) :=
  sound1 (fun d => Dim.pow d (-1)) (fun _ => rfl) (fun _ hd => hd.pow (-1)) (fun v d x _ => by
    have : v.size (Dim.pow d (-1)) = (v.size d)⁻¹ := by
      rw [Valuation.size, dsize_pow v.pos, rpow_neg_one (dsize_pos v.pos d)]; rfl
    rw [this, mul_inv])

/-- C34, `sqrt` of non-negative elements. -/
theorem C34_sqrt : Sound1 w .sqrt (fun x => rpow x (1 / 2)) (fun x => 0 ≤ x) :=
  sound1 (fun d => Dim.pow d (1 / 2)) (fun _ => rfl) (fun _ hd => hd.pow _) (fun v d x hx => by
    have : v.size (Dim.pow d (1 / 2)) = rpow (v.size d) (1 / 2) := by
      rw [Valuation.size, dsize_pow v.pos]; rfl
    rw [this]
    rcases hx.lt_or_eq with hp | hz
    · exact mul_rpow _ _ _ hp (v.size_pos d)
    · rw [← hz, zero_mul, zero_rpow _ (by norm_num), zero_mul])

/-- C34, `absolute`, `fabs`. -/
theorem C34_absolute : Sound1 w .absolute (fun x => |x|) (fun _ => True) ∧
    Sound1 w .fabs (fun x => |x|) (fun _ => True) := by
  have e : ∀ (v : Valuation w) (d : Dim) (x : K), |x * v.size d| = |x| * v.size d := fun v d x => by
    rw [abs_mul, abs_of_pos (v.size_pos d)]
  exact ⟨sound1 id (fun _ => rfl) (fun _ hd => hd) (fun v d x _ => e v d x),
    sound1 id (fun _ => rfl) (fun _ hd => hd) (fun v d x _ => e v d x)⟩

/-- C34, `negative`, and `conjugate` of real numbers. -/
theorem C34_negative : Sound1 w .negative (fun x => -x) (fun _ => True) ∧
    Sound1 w .conjugate (fun x => x) (fun _ => True) :=
  ⟨sound1 id (fun _ => rfl) (fun _ hd => hd) (fun v d x _ => neg_mul_eq_neg_mul x (v.size d)),
   sound1 id (fun _ => rfl) (fun _ hd => hd) (fun _ _ _ _ => rfl)⟩

/-- The ufuncs that demand a dimensionless argument and give a dimensionless result. -/
def UF1.IsExpLog (f : UF1) : Prop :=
  f = .log ∨ f = .log10 ∨ f = .log2 ∨ f = .log1p ∨ f = .exp ∨ f = .exp2 ∨ f = .expm1

/-- The ufuncs that demand radians and give a dimensionless result. -/
def UF1.IsTrig (f : UF1) : Prop :=
  f = .sin ∨ f = .cos ∨ f = .tan ∨ f = .sinh ∨ f = .cosh ∨ f = .tanh

/-- The ufuncs that demand a dimensionless argument and give radians. -/
def UF1.IsArcTrig (f : UF1) : Prop :=
  f = .arcsin ∨ f = .arccos ∨ f = .arctan ∨ f = .arcsinh ∨ f = .arccosh ∨ f = .arctanh

omit [IsStrictOrderedRing K] [LawfulRPow K] in
private theorem phys_nil (v : Valuation w) (m : NDArr K) : v.phys ⟨m, []⟩ = m := by
  unfold Valuation.phys Valuation.size
  exact NDArr.map_id' (fun x => by simp [dsize]) _

/-- C34, exponentials and logarithms: whatever the numeric function, the rule is sound; an argument
with units is refused with `ValueError`. -/
theorem C34_exp_log (f : UF1) (hf : f.IsExpLog) (g : K → K) :
    Sound1 w f g (fun _ => True) ∧
    ∀ q : Quantity K, q.dim ≠ [] → applyUF1 w f g q = .error .valueError := by
  have e : ∀ q : Quantity K, ufunc1Dim w f (.quantity q) =
      (dDimensionless (.quantity q)).map Wrapped.units := by
    intro q
    rcases hf with rfl | rfl | rfl | rfl | rfl | rfl | rfl <;> rfl
  refine ⟨?_, ?_⟩
  · intro q r hq _ hr
    obtain ⟨m, d⟩ := q
    have he := e ⟨m, d⟩
    cases d with
    | nil =>
      have := applyUF1_units (d := []) he hr
      subst this
      refine ⟨DimOK.nil _, fun v => ?_⟩
      rw [phys_nil, phys_nil]
      exact NDArr.Same.refl _
    | cons a d =>
      unfold applyUF1 at hr
      rw [he] at hr
      exact absurd hr (by simp [dDimensionless, Except.map])
  · intro q hq
    obtain ⟨m, d⟩ := q
    unfold applyUF1
    rw [e]
    cases d with
    | nil => exact absurd rfl hq
    | cons a d => rfl

private theorem radian_size (hr : IsRadian w "radian") (v : Valuation w) {d : Dim}
    (hd : w.labelDim "radian" = .ok d) : v.size d = 1 := by
  obtain ⟨u, i, h1, h2, h3⟩ := hr
  have hd' : d = unitDim u := by
    unfold World.labelDim at hd
    rw [h1] at hd
    simpa using hd.symm
  have hv := v.defined u i _ h2 h3
  rw [hd', Valuation.size, unitDim]
  split
  · rfl
  · simp [dsize, rpow_one, hv]

private theorem label_dimOK (hw : WF w) {label : String} {u : UKey} {i : UnitInfo K} {d : Dim}
    (h1 : Dict.get? w.registry label = some u) (h2 : w.info u = some i)
    (hd : w.labelDim label = .ok d) : DimOK w d := by
  have hd' : d = unitDim u := by
    unfold World.labelDim at hd
    rw [h1] at hd
    simpa using hd.symm
  subst hd'
  exact unitDim_ok (List.mem_map.2 ⟨_, Dict.mem_of_get? h2, rfl⟩)

/-- C34, `sin`, `cos`, ... applied directly: accepted only in a unit that equals the radian, and then
sound for every numeric function. -/
theorem C34_trig (hw : Reachable h w) (hrad : IsRadian w "radian") (f : UF1) (hf : f.IsTrig)
    (g : K → K) (q r : Quantity K) (hq : DimOK w q.dim)
    (hs : ∀ d, w.labelDim "radian" = .ok d → HashSafe w q.dim d) (hr : applyUF1 w f g q = .ok r) :
    r.dim = [] ∧ ∀ v : Valuation w, v.size q.dim = 1 ∧ (v.phys q).map g = v.phys r := by
  have e : ufunc1Dim w f (.quantity q) = (dTrig w (.quantity q)).map Wrapped.units := by
    rcases hf with rfl | rfl | rfl | rfl | rfl | rfl <;> rfl
  have hrad' := hrad
  obtain ⟨u, i, h1, h2, h3⟩ := hrad
  have hl : w.labelDim "radian" = .ok (unitDim u) := by unfold World.labelDim; rw [h1]
  have hdok := label_dimOK hw.wf h1 h2 hl
  unfold applyUF1 at hr
  rw [e] at hr
  unfold dTrig World.unitsEqLabel at hr
  rw [hl] at hr
  rcases hb : w.eqS ⟨1, unitDim u⟩ ⟨1, q.dim⟩ with _ | _
  · simp [hb, Except.map] at hr
  · simp only [hb, Except.map, Except.ok.injEq] at hr
    subst hr
    refine ⟨rfl, fun v => ?_⟩
    have hm := eqS_meaning hw.wf (a := ⟨1, unitDim u⟩) (b := ⟨1, q.dim⟩) hdok hq (hs _ hl) hb v
    have hsz : v.size q.dim = 1 := by
      have h4 := radian_size hrad' v hl
      simp only [Valuation.scalar, one_mul] at hm
      rw [← hm, h4]
    refine ⟨hsz, ?_⟩
    rw [phys_nil]
    unfold Valuation.phys
    rw [NDArr.map_map, hsz]
    simp only [mul_one]

/-- C34, the inverse functions: dimensionless argument, result in radians, sound for every numeric
function; an argument with units is refused. -/
theorem C34_arctrig (hw : Reachable h w) (hrad : IsRadian w "radian") (f : UF1) (hf : f.IsArcTrig)
    (g : K → K) :
    Sound1 w f g (fun _ => True) ∧
    (∀ q r : Quantity K, applyUF1 w f g q = .ok r → w.labelDim "radian" = .ok r.dim) ∧
    ∀ q : Quantity K, q.dim ≠ [] → applyUF1 w f g q = .error .valueError := by
  have e : ∀ q : Quantity K, ufunc1Dim w f (.quantity q) =
      (dArctrig w (.quantity q)).map Wrapped.units := by
    intro q
    rcases hf with rfl | rfl | rfl | rfl | rfl | rfl <;> rfl
  have hrad' := hrad
  obtain ⟨u, i, h1, h2, h3⟩ := hrad
  have hl : w.labelDim "radian" = .ok (unitDim u) := by unfold World.labelDim; rw [h1]
  have hdok := label_dimOK hw.wf h1 h2 hl
  have key : ∀ q r : Quantity K, applyUF1 w f g q = .ok r → q.dim = [] ∧ r = ⟨q.mag.map g, unitDim u⟩ := by
    intro q r hr
    obtain ⟨m, d⟩ := q
    have he := e ⟨m, d⟩
    cases d with
    | nil =>
      refine ⟨rfl, applyUF1_units (d := unitDim u) ?_ hr⟩
      rw [he]; simp only [dArctrig, List.isEmpty_nil, if_true, hl]; rfl
    | cons a d =>
      unfold applyUF1 at hr
      rw [he] at hr
      exact absurd hr (by simp [dArctrig, Except.map])
  refine ⟨?_, ?_, ?_⟩
  · intro q r _ _ hr
    obtain ⟨k1, k2⟩ := key q r hr
    obtain ⟨m, d⟩ := q
    simp only at k1; subst k1 k2
    refine ⟨hdok, fun v => ?_⟩
    rw [phys_nil]
    unfold Valuation.phys
    rw [radian_size hrad' v hl]
    simp only [mul_one, NDArr.map_map]
    exact NDArr.Same.refl _
  · intro q r hr
    rw [(key q r hr).2]; exact hl
  · intro q hq
    obtain ⟨m, d⟩ := q
    unfold applyUF1
    rw [e]
    cases d with
    | nil => exact absurd rfl hq
    | cons a d => rfl

/-- C34, `radians` and `degrees`: with `degree` defined as `c` radians, numpy's conversion
(`x * c`, `x / c`) leaves the physical angle unchanged, and other units are refused. -/
theorem C34_angle_conversion (hw : Reachable h w) {c : K} (hc : 0 < c)
    (hrad : IsRadian w "radian") (hdeg : IsDegree w c "degree") (q r : Quantity K)
    (hq : DimOK w q.dim) (hs : ∀ l d, w.labelDim l = .ok d → HashSafe w q.dim d) :
    (applyUF1 w .radians (fun x => x * c) q = .ok r → ∀ v : Valuation w, v.phys r = v.phys q) ∧
    (applyUF1 w .degrees (fun x => x / c) q = .ok r → ∀ v : Valuation w, v.phys r = v.phys q) := by
  have hrad' := hrad
  obtain ⟨u, i, h1, h2, h3⟩ := hrad
  obtain ⟨ud, id, ur, g1, g2, g3, g4⟩ := hdeg
  have hur : ur = u := by rw [h1] at g3; simpa using g3.symm
  subst hur
  have hl : w.labelDim "radian" = .ok (unitDim ur) := by unfold World.labelDim; rw [h1]
  have hld : w.labelDim "degree" = .ok (unitDim ud) := by unfold World.labelDim; rw [g1]
  have hdok := label_dimOK hw.wf h1 h2 hl
  have hdokd := label_dimOK hw.wf g1 g2 hld
  have hvr : ∀ v : Valuation w, v.val ur = 1 := fun v => by
    rw [v.defined ur i _ h2 h3]; simp [dsize]
  have hsr : ∀ v : Valuation w, v.size (unitDim ur) = 1 := fun v => radian_size hrad' v hl
  have hsd : ∀ v : Valuation w, v.size (unitDim ud) = c := fun v => by
    have hv := v.defined ud id _ g2 g4
    simp only [dsize, List.map_cons, List.map_nil, List.prod_cons, List.prod_nil, hvr v, rpow_one,
      mul_one] at hv
    rw [Valuation.size, unitDim]
    split
    · rename_i hcls
      rw [v.dimless ud hcls] at hv
      simpa [dsize] using hv
    · simp [dsize, rpow_one, hv]
  have units : ∀ (l l' : String) (du du' : Dim) (g : K → K) (f : UF1),
      w.labelDim l = .ok du → w.labelDim l' = .ok du' → DimOK w du →
      ufunc1Dim w f (.quantity q) = (dAngle w l l' (.quantity q)).map Wrapped.units →
      applyUF1 w f g q = .ok r →
      r = ⟨q.mag.map g, du'⟩ ∧ ∀ v : Valuation w, v.size q.dim = v.size du := by
    intro l l' du du' g f hlu hlu' hduok hu hr
    unfold applyUF1 at hr
    rw [hu] at hr
    unfold dAngle World.unitsEqLabel at hr
    rw [hlu] at hr
    rcases hb : w.eqS ⟨1, du⟩ ⟨1, q.dim⟩ with _ | _
    · simp [hb, Except.map] at hr
    · simp only [hb, hlu', Except.map, Except.ok.injEq] at hr
      refine ⟨hr.symm, fun v => ?_⟩
      have hm := eqS_meaning hw.wf (a := ⟨1, du⟩) (b := ⟨1, q.dim⟩) hduok hq (hs _ _ hlu) hb v
      simpa [Valuation.scalar] using hm.symm
  refine ⟨fun hr v => ?_, fun hr v => ?_⟩
  · obtain ⟨rfl, hsz⟩ := units "degree" "radian" _ _ _ .radians hld hl hdokd rfl hr
    unfold Valuation.phys
    rw [hsz v, hsd v, hsr v]
    simp only [NDArr.map_map, mul_one]
  · obtain ⟨rfl, hsz⟩ := units "radian" "degree" _ _ _ .degrees hl hld hdok rfl hr
    unfold Valuation.phys
    rw [hsz v, hsd v, hsr v]
    simp only [NDArr.map_map, mul_one]
    exact NDArr.map_congr (fun x => by field_simp) _

/-- C34: a ufunc that is not in the table raises `ValueError`; the predicates `isnan`, `isinf`,
`isfinite` give plain arrays. -/
theorem C34_unsupported (q : Quantity K) (x y : Operand K) (g : K → K) (g2 : K → K → K) :
    applyUF1 w .other g q = .error .valueError ∧ applyUF2 w .other g2 x y = .error .valueError ∧
    (∀ f, f = .isnan ∨ f = .isinf ∨ f = .isfinite →
      ufunc1Dim w f (.quantity q) = .ok .plain) := by
  refine ⟨rfl, rfl, ?_⟩
  rintro f (rfl | rfl | rfl) <;> rfl

/-! ## C34: binary ufuncs -/

/-- The ufuncs that compare the units of their arguments and keep them. -/
def UF2.IsUniform (f : UF2) : Prop :=
  f = .add ∨ f = .subtract ∨ f = .mod ∨ f = .fmod ∨ f = .remainder ∨ f = .hypot ∨ f = .maximum ∨
  f = .minimum

private theorem anyNonzero_false {a : NDArr K} (ha : a.anyNonzero = false) :
    NDArr.All (fun x => x = 0) a := by
  rw [NDArr.all_iff_toList]
  unfold NDArr.anyNonzero at ha
  rw [List.any_eq_false] at ha
  intro x hx
  have := ha x hx
  simpa using this

/-- A ufunc with the rule `_d_check_uniform`, for a numeric function `g` whose value changes by `t c`
when both arguments are multiplied by `c`. -/
private theorem uniform_core {f : UF2} {g : K → K → K} (t : K → K → K)
    (hg : ∀ c x y : K, 0 < c → g (x * c) (y * c) = t c (g x y)) (h1 : ∀ z, t 1 z = z)
    {x y : Operand K} {r : Quantity K} (hx : DimOK w x.dimOf) (hy : DimOK w y.dimOf)
    (hn : NoColl w x.dimOf y.dimOf) (e : ufunc2Dim w f x y = dCheckUniform w x y)
    (hr : applyUF2 w f g x y = .ok r) :
    (r.dim = x.dimOf ∨ r.dim = y.dimOf) ∧ ∀ v : Valuation w,
      ∃ m, NDArr.bin g (v.physOp x) (v.physOp y) = .ok m ∧
        NDArr.Same m (r.mag.map (t (v.size r.dim))) := by
  unfold applyUF2 at hr
  rw [e] at hr
  rcases hd : dCheckUniform w x y with err | d
  · rw [hd] at hr; exact absurd hr (by simp)
  rw [hd] at hr
  simp only at hr
  rcases hb : NDArr.bin g x.arr y.arr with err | m
  · rw [hb] at hr; exact absurd hr (by simp)
  rw [hb] at hr
  simp only [Except.ok.injEq] at hr
  subst hr
  -- the scaled operation
  have hgoal : ∀ (v : Valuation w) (P Q : K → Prop), NDArr.All P x.arr → NDArr.All Q y.arr →
      (∀ a b, P a → Q b → t (v.size d) (g a b) = g (a * v.size x.dimOf) (b * v.size y.dimOf)) →
      ∃ m', NDArr.bin g (v.physOp x) (v.physOp y) = .ok m' ∧ NDArr.Same m' (m.map (t (v.size d))) := by
    intro v P Q hP hQ hPQ
    have hmb := NDArr.map_bin g (t (v.size d)) x.arr y.arr
    rw [hb] at hmb
    obtain ⟨m', hm', hs'⟩ := NDArr.bin_same hP hQ hPQ hmb.symm
    refine ⟨m', ?_, hs'.symm⟩
    have hx' : v.physOp x = x.arr.map (fun z => z * v.size x.dimOf) := by
      cases x with
      | quantity q => rfl
      | array a => exact (NDArr.map_id' (fun z => by simp [Operand.dimOf, Valuation.size]) _).symm
    have hy' : v.physOp y = y.arr.map (fun z => z * v.size y.dimOf) := by
      cases y with
      | quantity q => rfl
      | array a => exact (NDArr.map_id' (fun z => by simp [Operand.dimOf, Valuation.size]) _).symm
    rw [hx', hy', NDArr.bin_map]
    exact hm'
  have allT : ∀ a : NDArr K, NDArr.All (fun _ => True) a := fun _ _ _ => trivial
  cases x with
  | quantity q1 =>
    cases y with
    | quantity q2 =>
      simp only [dCheckUniform] at hd
      split at hd
      · rename_i hq
        simp only [Except.ok.injEq] at hd; subst hd
        refine ⟨Or.inl rfl, fun v => hgoal v _ _ (allT _) (allT _) (fun a b _ _ => ?_)⟩
        have : v.size q2.dim = v.size q1.dim :=
          (dsize_same v.val hx.canon.nodup hy.canon.nodup (hn hq)).symm
        simp only [Operand.dimOf]
        rw [this, hg _ _ _ (v.size_pos _)]
      · exact absurd hd (by simp)
    | array a =>
      simp only [dCheckUniform] at hd
      split at hd
      · rename_i hc
        simp only [Except.ok.injEq] at hd; subst hd
        refine ⟨Or.inl rfl, fun v => ?_⟩
        by_cases hz : a.anyNonzero = false
        · refine hgoal v _ _ (allT _) (anyNonzero_false hz) (fun s t _ ht => ?_)
          subst ht
          simp only [Operand.dimOf, zero_mul]
          have := hg (v.size q1.dim) s 0 (v.size_pos _)
          rw [zero_mul] at this
          exact this.symm
        · have hnil : q1.dim = [] := by
            rw [Bool.or_eq_true] at hc
            rcases hc with hc | hc
            · simpa using hc
            · simp at hc; exact absurd hc hz
          refine hgoal v _ _ (allT _) (allT _) (fun s t _ _ => ?_)
          simp only [Operand.dimOf, hnil, Valuation.size, dsize_nil, mul_one, h1]
      · exact absurd hd (by simp)
  | array a =>
    cases y with
    | quantity q2 =>
      simp only [dCheckUniform] at hd
      split at hd
      · rename_i hc
        simp only [Except.ok.injEq] at hd; subst hd
        refine ⟨Or.inr rfl, fun v => ?_⟩
        by_cases hz : a.anyNonzero = false
        · refine hgoal v _ _ (anyNonzero_false hz) (allT _) (fun s t hs _ => ?_)
          subst hs
          simp only [Operand.dimOf, zero_mul]
          have := hg (v.size q2.dim) 0 t (v.size_pos _)
          rw [zero_mul] at this
          exact this.symm
        · have hnil : q2.dim = [] := by
            rw [Bool.or_eq_true] at hc
            rcases hc with hc | hc
            · simpa using hc
            · simp at hc; exact absurd hc hz
          refine hgoal v _ _ (allT _) (allT _) (fun s t _ _ => ?_)
          simp only [Operand.dimOf, hnil, Valuation.size, dsize_nil, mul_one, h1]
      · exact absurd hd (by simp)
    | array b => exact absurd hd (by simp [dCheckUniform])

/-- C34: `add`, `subtract`, `mod`, `fmod`, `remainder`, `hypot`, `maximum`, `minimum` are sound for
every numeric function that is homogeneous of degree 1 (as each of these is, see
`C34_uniform_functions`).  In particular a plain array of zeros is accepted next to any units, and
that is sound. -/
theorem C34_uniform (f : UF2) (hf : f.IsUniform) (g : K → K → K)
    (hg : ∀ c x y : K, 0 < c → g (x * c) (y * c) = g x y * c) : Sound2 w f g := by
  intro x y r hx hy hn hr
  have e : ufunc2Dim w f x y = dCheckUniform w x y := by
    rcases hf with rfl | rfl | rfl | rfl | rfl | rfl | rfl | rfl <;> rfl
  obtain ⟨hd, hv⟩ := uniform_core (fun c z => z * c) hg mul_one hx hy hn e hr
  exact ⟨by rcases hd with hd | hd <;> rw [hd] <;> assumption, hv⟩

/-- C fmod: truncated remainder. -/
noncomputable def rfmod (x y : ℝ) : ℝ := x - y * (if 0 ≤ x / y then ⌊x / y⌋ else ⌈x / y⌉ : ℤ)

/-- Hypotenuse. -/
noncomputable def rhypot (x y : ℝ) : ℝ := Real.sqrt (x ^ 2 + y ^ 2)

/-- The angle of the point `(x, y)`. -/
noncomputable def rarctan2 (y x : ℝ) : ℝ := Complex.arg ⟨x, y⟩

/-- C34: the functions in question are homogeneous, so `C34_uniform` applies to each. -/
theorem C34_uniform_functions (c x y : ℝ) (hc : 0 < c) :
    x * c + y * c = (x + y) * c ∧ x * c - y * c = (x - y) * c ∧
    modK (x * c) (y * c) = modK x y * c ∧ rfmod (x * c) (y * c) = rfmod x y * c ∧
    rhypot (x * c) (y * c) = rhypot x y * c ∧ max (x * c) (y * c) = max x y * c ∧
    min (x * c) (y * c) = min x y * c := by
  refine ⟨by ring, by ring, homog_mod c x y hc, ?_, ?_, (max_mul_of_nonneg _ _ hc.le).symm,
    (min_mul_of_nonneg _ _ hc.le).symm⟩
  · unfold rfmod
    rw [mul_div_mul_right _ _ hc.ne']; ring
  · unfold rhypot
    rw [show (x * c) ^ 2 + (y * c) ^ 2 = (x ^ 2 + y ^ 2) * c ^ 2 by ring,
      Real.sqrt_mul (by positivity), Real.sqrt_sq hc.le]

/-- C34: `multiply`, `divide`, `true_divide` are sound for all operands. -/
theorem C34_multiply_divide : Sound2 w .multiply (fun x y => x * y) ∧
    Sound2 w .divide (fun x y => x / y) ∧ Sound2 w .trueDivide (fun x y => x / y) := by
  have gen : ∀ (f : UF2) (g : K → K → K),
      (∀ x y d, ufunc2Dim w f x y = .ok d → DimOK w x.dimOf → DimOK w y.dimOf → DimOK w d ∧
        ∀ (v : Valuation w) a b, g (a * v.size x.dimOf) (b * v.size y.dimOf) = g a b * v.size d) →
      Sound2 w f g := by
    intro f g hfg x y r hx hy _ hr
    rcases hd : ufunc2Dim w f x y with err | d
    · unfold applyUF2 at hr; rw [hd] at hr; exact absurd hr (by simp)
    · obtain ⟨h1, h2⟩ := hfg x y d hd hx hy
      have e : ∀ o : Operand K, o.dimOf = o.dim := fun o => by cases o <;> rfl
      refine ⟨by rw [((applyUF2_spec hd g).2.2 r hr).1]; exact h1, fun v => ⟨_, ?_, NDArr.Same.refl _⟩⟩
      exact applyUF2_phys hd g v (by rw [← e, ← e]; exact h2 v) hr
  have hmul : ∀ x y d, ufunc2Dim w .multiply x y = .ok d → DimOK w x.dimOf → DimOK w y.dimOf →
      DimOK w d ∧ ∀ (v : Valuation w) (a b : K),
        (a * v.size x.dimOf) * (b * v.size y.dimOf) = a * b * v.size d := by
    intro x y d hd hx hy
    cases x <;> cases y <;> simp only [ufunc2Dim, dMultiply, Except.ok.injEq, reduceCtorEq] at hd <;>
      subst hd
    · refine ⟨hx.mul hy, fun v a b => ?_⟩
      simp only [Operand.dimOf, Valuation.size, dsize_mul v.pos]; ring
    · exact ⟨hx, fun v a b => by simp only [Operand.dimOf, Valuation.size, dsize_nil]; ring⟩
    · exact ⟨hy, fun v a b => by simp only [Operand.dimOf, Valuation.size, dsize_nil]; ring⟩
  have hdiv : ∀ f, f = .divide ∨ f = .trueDivide → ∀ x y d, ufunc2Dim w f x y = .ok d →
      DimOK w x.dimOf → DimOK w y.dimOf →
      DimOK w d ∧ ∀ (v : Valuation w) (a b : K),
        (a * v.size x.dimOf) / (b * v.size y.dimOf) = a / b * v.size d := by
    intro f hf x y d hd hx hy
    have hd : dDivide x y = .ok d := by rcases hf with rfl | rfl <;> exact hd
    cases x <;> cases y <;> simp only [dDivide, Except.ok.injEq, reduceCtorEq] at hd <;> subst hd
    · refine ⟨hx.div hy, fun v a b => ?_⟩
      simp only [Operand.dimOf, Valuation.size, dsize_div v.pos]
      exact mul_div_mul_comm _ _ _ _
    · exact ⟨hx, fun v a b => by simp only [Operand.dimOf, Valuation.size, dsize_nil]; ring⟩
    · refine ⟨hy.pow _, fun v a b => ?_⟩
      simp only [Operand.dimOf, Valuation.size, dsize_nil, dsize_pow v.pos, mul_one,
        rpow_neg_one (dsize_pos v.pos _)]
      rw [div_mul_eq_div_div, div_eq_mul_inv (_ / _)]
  exact ⟨gen _ _ hmul, gen _ _ (hdiv _ (Or.inl rfl)), gen _ _ (hdiv _ (Or.inr rfl))⟩

/-- C34: `arctan2` demands two quantities with equal units and is sound for every function invariant
under a common positive factor. -/
theorem C34_arctan2 (g : K → K → K) (hg : ∀ c x y : K, 0 < c → g (x * c) (y * c) = g x y) :
    Sound2 w .arctan2 g := by
  intro x y r hx hy hn hr
  cases x with
  | array a => exact absurd hr (by simp [applyUF2, ufunc2Dim, dArctan2])
  | quantity q1 =>
    cases y with
    | array b => exact absurd hr (by simp [applyUF2, ufunc2Dim, dArctan2])
    | quantity q2 =>
      have hd : ufunc2Dim w .arctan2 (.quantity q1) (.quantity q2) =
          if w.deq q1.dim q2.dim then .ok [] else .error .valueError := rfl
      by_cases hq : w.deq q1.dim q2.dim = true
      · rw [if_pos hq] at hd
        have hsz : ∀ v : Valuation w, v.size q2.dim = v.size q1.dim := fun v =>
          (dsize_same v.val hx.canon.nodup hy.canon.nodup (hn hq)).symm
        refine ⟨by rw [((applyUF2_spec hd g).2.2 r hr).1]; exact DimOK.nil _,
          fun v => ⟨_, ?_, NDArr.Same.refl _⟩⟩
        refine applyUF2_phys hd g v (fun a b => ?_) hr
        simp only [Operand.dim]
        rw [hsz v, hg _ _ _ (v.size_pos _)]
        simp only [Valuation.size, dsize_nil, mul_one]
      · rw [if_neg hq] at hd
        unfold applyUF2 at hr; rw [hd] at hr; exact absurd hr (by simp)

/-- The mathematical `arctan2` is such a function. -/
theorem C34_arctan2_function (c x y : ℝ) (hc : 0 < c) : rarctan2 (x * c) (y * c) = rarctan2 x y := by
  unfold rarctan2
  have : (⟨y * c, x * c⟩ : ℂ) = (c : ℂ) * ⟨y, x⟩ := by
    apply Complex.ext <;> simp [mul_comm]
  rw [this, Complex.arg_real_mul _ hc]

/-! ## C34: the rules that are not sound -/

/-- A valuation of the example world in which the metre has size `c`. -/
noncomputable def exVal (c : ℝ) (hc : 0 < c) : Valuation exWorld :=
  mkValuation exWorld_wf (fun _ => c) (fun _ => hc)

private theorem exVal_m (c : ℝ) (hc : 0 < c) : (exVal c hc).size dM = c := by
  have : (exVal c hc).val uM = c := mkVal_base exConv_m (by simp [uM])
  simp only [Valuation.size, dM, dsize_cons, dsize_nil, mul_one, rpow_one, this]

private theorem exSize_km (v : Valuation exWorld) : v.size dKm = 1000 * v.size dM := by
  have := v.defined uKm (exWorld.info uKm |>.get (by rfl)) ⟨1000, dM⟩ (by rfl) (by rfl)
  simp only [Valuation.size, dKm, dM, dsize_cons, dsize_nil, mul_one, LawfulRPow.rpow_one] at this ⊢
  exact this

/-- C73 fails for `floor` (and likewise for `rint`, `fix`, `ceil`): the units are kept, but rounding
depends on the unit.  1.5 km is accepted, and floor gives 1 km, which is not the floor of 1500 m. -/
theorem C73_floor_false : ¬ Sound1 exWorld .floor (pfloor : ℝ → ℝ) (fun _ => True) := by
  intro hS
  have h := (hS ⟨NDArr.scalar (3/2), dKm⟩ ⟨NDArr.scalar (pfloor (3/2)), dKm⟩
    (ex_dimOK dKm (by simp)) (fun _ _ => trivial) rfl).2 (exVal 1 one_pos)
  have h0 : pfloor ((3/2 : ℝ) * (exVal 1 one_pos).size dKm)
      = pfloor (3/2 : ℝ) * (exVal 1 one_pos).size dKm := h.2 [] (by simp [NDArr.InB, Valuation.phys, NDArr.scalar])
  rw [exSize_km, exVal_m] at h0
  have e1 : pfloor ((3/2 : ℝ) * (1000 * 1)) = 1500 := by
    change ((⌊(3/2 : ℝ) * (1000 * 1)⌋ : ℤ) : ℝ) = 1500
    norm_num
  have e2 : pfloor (3/2 : ℝ) = 1 := by
    change ((⌊(3/2 : ℝ)⌋ : ℤ) : ℝ) = 1
    norm_num
  rw [e1, e2] at h0
  norm_num at h0

/-- C73 fails for the comparison ufuncs called directly (`np.less(a, b)` rather than `a < b`): the
truth values come back as a quantity carrying the units of the operands, so their meaning changes
with the unit. -/
theorem C73_less_false :
    ¬ Sound2 exWorld .less (fun x y : ℝ => if x < y then 1 else 0) := by
  intro hS
  obtain ⟨m, hm, hs⟩ := (hS (.quantity ⟨NDArr.scalar 1, dM⟩) (.quantity ⟨NDArr.scalar 2, dM⟩)
    ⟨NDArr.scalar (if (1 : ℝ) < 2 then 1 else 0), dM⟩ (ex_dimOK dM (by simp)) (ex_dimOK dM (by simp))
    (fun _ => fun _ => rfl) (by
      have : exWorld.deq dM dM = true := deq_refl _ _ _
      simp only [applyUF2, ufunc2Dim, dCheckUniform, this]; rfl)).2 (exVal 2 two_pos)
  have h0 : m.elem [] = (if (1 : ℝ) < 2 then 1 else 0) * (exVal 2 two_pos).size dM :=
    hs.2 [] (by
      have : m.shape = [] := hs.1
      rw [this]; simp [NDArr.InB])
  have h1 : m.elem [] = if (1 : ℝ) * (exVal 2 two_pos).size dM < 2 * (exVal 2 two_pos).size dM
      then 1 else 0 := by
    have := congrArg (fun x : Py (NDArr ℝ) => match x with | .ok m => m.elem [] | .error _ => 0) hm
    exact this.symm
  rw [h0, exVal_m] at h1
  norm_num at h1

/-- C73 fails for `logaddexp`: only the first operand is required to be dimensionless, so
`np.logaddexp(0, 1*m)` is a dimensionless number that depends on the unit of length. -/
theorem C73_logaddexp_false :
    ¬ Sound2 exWorld .logaddexp (fun x y : ℝ => Real.log (Real.exp x + Real.exp y)) := by
  intro hS
  obtain ⟨m, hm, hs⟩ := (hS (.quantity ⟨NDArr.scalar 0, []⟩) (.quantity ⟨NDArr.scalar 1, dM⟩)
    ⟨NDArr.scalar (Real.log (Real.exp 0 + Real.exp 1)), []⟩ (DimOK.nil _) (ex_dimOK dM (by simp))
    (fun h => by
      have : exWorld.deq [] dM = false := by decide +kernel
      exact absurd (this.symm.trans h) (by decide)) rfl).2 (exVal 2 two_pos)
  have h0 : m.elem [] = Real.log (Real.exp 0 + Real.exp 1) * (exVal 2 two_pos).size [] :=
    hs.2 [] (by
      have : m.shape = [] := hs.1
      rw [this]; simp [NDArr.InB])
  have h1 : m.elem [] = Real.log (Real.exp (0 * (exVal 2 two_pos).size [])
      + Real.exp (1 * (exVal 2 two_pos).size dM)) := by
    have := congrArg (fun x : Py (NDArr ℝ) => match x with | .ok m => m.elem [] | .error _ => 0) hm
    exact this.symm
  rw [h0, exVal_m] at h1
  simp only [Valuation.size, dsize_nil, mul_one, one_mul] at h1
  have := Real.log_injOn_pos (by simp only [Set.mem_Ioi]; positivity)
    (by simp only [Set.mem_Ioi]; positivity) h1
  have h2 : Real.exp 1 = Real.exp 2 := by linarith
  have := Real.exp_injective h2
  norm_num at this

/-! ## C73: what does hold -/

/-- The ufuncs that keep the units although the number they compute depends on the unit. -/
def UF1.IsRounding (f : UF1) : Prop :=
  f = .rint ∨ f = .floor ∨ f = .fix ∨ f = .ceil

/-- C73, rounding: it is done in the units the quantity is held in.  Every quantity is accepted, keeps
its units, and the result is the rounded magnitude; when the units have size 1 (dimensionless
numbers, radians) this is the rounded physical value, and otherwise the physical value moves by at
most one unit, if a number moves by at most 1. -/
theorem C73_rounding_partial (f : UF1) (hf : f.IsRounding) (g : K → K) (q : Quantity K) :
    applyUF1 w f g q = .ok ⟨q.mag.map g, q.dim⟩ ∧
    ∀ v : Valuation w, (v.size q.dim = 1 → v.phys ⟨q.mag.map g, q.dim⟩ = (v.phys q).map g) ∧
      ((∀ x, |g x - x| ≤ 1) → ∀ i,
        |(v.phys ⟨q.mag.map g, q.dim⟩).elem i - (v.phys q).elem i| ≤ v.size q.dim) := by
  refine ⟨by rcases hf with rfl | rfl | rfl | rfl <;> rfl, fun v => ⟨fun h1 => ?_, fun hg i => ?_⟩⟩
  · unfold Valuation.phys
    simp only [NDArr.map_map, h1, mul_one]
  · change |g (q.mag.elem i) * v.size q.dim - q.mag.elem i * v.size q.dim| ≤ _
    rw [← sub_mul, abs_mul, abs_of_pos (v.size_pos _)]
    exact mul_le_of_le_one_left (v.size_pos _).le (hg _)

/-- The comparison ufuncs, called directly. -/
def UF2.IsComparison (f : UF2) : Prop :=
  f = .equal ∨ f = .notEqual ∨ f = .less ∨ f = .lessEqual ∨ f = .greater ∨ f = .greaterEqual

/-- C73, comparison ufuncs called directly: apart from the units wrongly attached to them, the truth
values are those of the comparison of the physical values.  `g` is any numeric function that a common
positive factor of its arguments does not change. -/
theorem C73_comparison_partial (f : UF2) (hf : f.IsComparison) (g : K → K → K)
    (hg : ∀ c x y : K, 0 < c → g (x * c) (y * c) = g x y) (x y : Operand K) (r : Quantity K)
    (hx : DimOK w x.dimOf) (hy : DimOK w y.dimOf) (hn : NoColl w x.dimOf y.dimOf)
    (hr : applyUF2 w f g x y = .ok r) :
    (r.dim = x.dimOf ∨ r.dim = y.dimOf) ∧ ∀ v : Valuation w,
      ∃ m, NDArr.bin g (v.physOp x) (v.physOp y) = .ok m ∧ NDArr.Same m r.mag := by
  have e : ufunc2Dim w f x y = dCheckUniform w x y := by
    rcases hf with rfl | rfl | rfl | rfl | rfl | rfl <;> rfl
  obtain ⟨hd, hv⟩ := uniform_core (fun _ z => z) hg (fun _ => rfl) hx hy hn e hr
  refine ⟨hd, fun v => ?_⟩
  obtain ⟨m, h1, h2⟩ := hv v
  exact ⟨m, h1, h2⟩

/-- The six comparisons are such functions. -/
theorem C73_comparison_functions_partial (c x y : K) (hc : 0 < c) :
    (x * c = y * c ↔ x = y) ∧ (x * c ≠ y * c ↔ x ≠ y) ∧ (x * c < y * c ↔ x < y) ∧
    (x * c ≤ y * c ↔ x ≤ y) ∧ (x * c > y * c ↔ x > y) ∧ (x * c ≥ y * c ↔ x ≥ y) := by
  have e : x * c = y * c ↔ x = y := mul_left_inj' hc.ne'
  exact ⟨e, not_congr e, mul_lt_mul_iff_left₀ hc, mul_le_mul_iff_left₀ hc, mul_lt_mul_iff_left₀ hc,
    mul_le_mul_iff_left₀ hc⟩

/-- C73, `logaddexp`, `logaddexp2`: a first operand with units is refused with `ValueError`, and for
operands of size 1 (dimensionless) the rule is sound whatever the numeric function. -/
theorem C73_logaddexp_partial (f : UF2) (hf : f = .logaddexp ∨ f = .logaddexp2) (g : K → K → K)
    (x y : Operand K) :
    (x.dimOf ≠ [] → applyUF2 w f g x y = .error .valueError) ∧
    ∀ r, applyUF2 w f g x y = .ok r → r.dim = [] ∧
      ∀ v : Valuation w, v.size y.dimOf = 1 → NDArr.bin g (v.physOp x) (v.physOp y) = .ok (v.phys r) := by
  have e : ufunc2Dim w f x y = dDimensionless x := by rcases hf with rfl | rfl <;> rfl
  constructor
  · intro hx
    unfold applyUF2
    rw [e]
    cases x with
    | array a => exact absurd rfl hx
    | quantity q =>
      obtain ⟨m, d⟩ := q
      cases d with
      | nil => exact absurd rfl hx
      | cons a d => rfl
  · intro r hr
    have hx : x.dimOf = [] ∧ dDimensionless x = .ok [] := by
      cases x with
      | array a => exact ⟨rfl, rfl⟩
      | quantity q =>
        obtain ⟨m, d⟩ := q
        cases d with
        | nil => exact ⟨rfl, rfl⟩
        | cons a d => unfold applyUF2 at hr; rw [e] at hr; exact absurd hr (by simp [dDimensionless])
    have hd : ufunc2Dim w f x y = .ok [] := e.trans hx.2
    refine ⟨((applyUF2_spec hd g).2.2 r hr).1, fun v hy => applyUF2_phys hd g v (fun a b => ?_) hr⟩
    have ee : ∀ o : Operand K, o.dim = o.dimOf := fun o => by cases o <;> rfl
    rw [ee, ee, hx.1, hy]
    simp only [Valuation.size, dsize_nil, mul_one]

/-! ## The hypotheses are met -/

/-- The world with the shipped radian and degree. -/
theorem exAngle_isRadian : IsRadian exAngle "radian" :=
  ⟨uRad, _, rfl, exAngle_info_rad.choose_spec.1, exAngle_info_rad.choose_spec.2⟩

theorem exAngle_isDegree : IsDegree exAngle (Real.pi / 180) "degree" :=
  ⟨uDeg, _, uRad, rfl, exAngle_info_deg.choose_spec.1, rfl, exAngle_info_deg.choose_spec.2⟩

/-- `[1/2, 1/3]` -/
noncomputable def exPair : NDArr ℝ := ⟨[2], fun i => if i = [0] then 1/2 else 1/3⟩

/-- `np.sin([1/2, 1/3] * rad)` is accepted. -/
example : Reachable exH exAngle ∧ DimOK exAngle dRad ∧
    ∃ r, applyUF1 exAngle .sin Real.sin ⟨exPair, dRad⟩ = .ok r := by
  refine ⟨exAngle_reachable, exAngle_dimOK _ (by simp), ⟨exPair.map Real.sin, []⟩, ?_⟩
  have : exAngle.eqS ⟨1, dRad⟩ ⟨1, dRad⟩ = true := by
    unfold World.eqS World.rescaleS
    have : exAngle.deq dRad dRad = true := deq_refl _ _ _
    simp [this]
  simp only [applyUF1, ufunc1Dim, dTrig, World.unitsEqLabel, exAngle_labels.1, this]
  rfl

/-- `np.arcsin`, `np.exp` of dimensionless numbers and `np.sqrt`, `np.hypot` of lengths. -/
example : (∃ r, applyUF1 exAngle .arcsin Real.arcsin ⟨exPair, []⟩ = .ok r) ∧
    (∃ r, applyUF1 exAngle .exp Real.exp ⟨exPair, []⟩ = .ok r) ∧
    (∃ r, applyUF1 exAngle .sqrt (fun x => rpow x (1/2)) ⟨exPair, dM⟩ = .ok r) ∧
    (∃ r, applyUF2 exAngle .hypot rhypot (.quantity ⟨exPair, dM⟩) (.quantity ⟨exPair, dM⟩) = .ok r) := by
  refine ⟨⟨_, rfl⟩, ⟨_, rfl⟩, ⟨_, rfl⟩, ?_⟩
  have : exAngle.deq dM dM = true := deq_refl _ _ _
  simp only [applyUF2, ufunc2Dim, dCheckUniform, this]
  exact ⟨_, rfl⟩

/-- `np.floor([1/2, 1/3] * km)`, `np.less([1/2, 1/3] * m, [1/2, 1/3] * m)` and
`np.logaddexp([1/2, 1/3], [1/2, 1/3])` are accepted. -/
example : (∃ r, applyUF1 exAngle .floor pfloor ⟨exPair, dM⟩ = .ok r) ∧
    (∃ r, applyUF2 exAngle .less (fun x y : ℝ => if x < y then 1 else 0) (.quantity ⟨exPair, dM⟩)
      (.quantity ⟨exPair, dM⟩) = .ok r) ∧
    (∃ r, applyUF2 exAngle .logaddexp (fun x y : ℝ => Real.log (Real.exp x + Real.exp y))
      (.quantity ⟨exPair, []⟩) (.array exPair) = .ok r) ∧
    (∀ x : ℝ, |pfloor x - x| ≤ 1) ∧
    ∀ c x y : ℝ, 0 < c → (if x * c < y * c then (1 : ℝ) else 0) = if x < y then 1 else 0 := by
  refine ⟨⟨_, rfl⟩, ?_, ⟨_, rfl⟩, fun x => ?_, fun c x y hc => ?_⟩
  · have : exAngle.deq dM dM = true := deq_refl _ _ _
    simp only [applyUF2, ufunc2Dim, dCheckUniform, this]
    exact ⟨_, rfl⟩
  · change |((⌊x⌋ : ℤ) : ℝ) - x| ≤ 1
    rw [abs_le]
    constructor <;> linarith [Int.floor_le x, Int.lt_floor_add_one x]
  · simp only [(C73_comparison_functions_partial c x y hc).2.2.1]

end PQ
