import Verif.Lemmas.Uncertain4
import Verif.Lemmas.ExampleSimplify

/-!
# Properties C37, C38, C39: uncertain quantities

Zero magnitudes: numpy divides by them and yields nan or inf, which the number type of the model does
not have; the theorems that divide say which magnitudes must be non-zero.
-/

namespace PQ

open Dict LawfulRPow World

variable {K : Type _} [Field K] [LinearOrder K] [IsStrictOrderedRing K] [RPow K] [LawfulRPow K]
variable {h : Hasher} {w : World K}

/-! ## C37 -/

theorem add_plain_ne_ok {a r : UQ K} {o : Operand K} : a.add w (.plain o) ≠ .ok r := by
  intro h
  unfold UQ.add at h
  simp only [UQ.scaleOther] at h
  rcases hq : Quantity.scaleOther w a.val o with e | q
  · rw [hq] at h; simp [except_bind_error] at h
  · rw [hq] at h
    simp only [except_bind_ok] at h
    rcases ha : a.val.add w (.quantity q) with e | s
    · rw [ha] at h; simp [except_bind_error] at h
    · rw [ha] at h; simp [except_bind_ok] at h

theorem sub_plain_ne_ok {a r : UQ K} {o : Operand K} : a.sub w (.plain o) ≠ .ok r := by
  intro h
  unfold UQ.sub at h
  simp only [UQ.scaleOther] at h
  rcases hq : Quantity.scaleOther w a.val o with e | q
  · rw [hq] at h; simp [except_bind_error] at h
  · rw [hq] at h
    simp only [except_bind_ok] at h
    rcases ha : a.val.sub w (.quantity q) with e | s
    · rw [ha] at h; simp [except_bind_error] at h
    · rw [ha] at h; simp [except_bind_ok] at h

theorem radd_plain_ne_ok {a r : UQ K} {o : Operand K} : a.radd w (.plain o) ≠ .ok r := by
  intro h
  unfold UQ.radd at h
  simp only [UQ.scaleOther] at h
  rcases hq : Quantity.scaleOther w a.val o with e | q
  · rw [hq] at h; simp [except_bind_error] at h
  · rw [hq] at h
    simp only [except_bind_ok] at h
    exact add_plain_ne_ok h

theorem uq_simplified_spec (hw : WF w) (hds : DefaultsSafe w) (hg : GoodDefaults w) {a r : UQ K}
    {fuel : Nat} (ha : a.OK w) (hr : a.simplified w fuel = .ok r) :
    r.OK w ∧ (∀ u ∈ r.val.dim.map Prod.fst, IsDefaultUnit w u) ∧
      (∀ v : Valuation w, v.meas r = v.meas a) ∧
      ∃ cf : K, 0 < cf ∧ r.val.mag = a.val.mag.map (fun x => cf * x) ∧
        r.unc.mag = a.unc.mag.map (fun x => cf * x) := by
  unfold UQ.simplified Quantity.simplified at hr
  rcases hl : simplifiedLoop w fuel ⟨1, []⟩ a.val.dim with e | rq
  · rw [hl] at hr; simp at hr
  · rcases hl' : simplifiedLoop w fuel ⟨1, []⟩ a.unc.dim with e | ru
    · rw [hl, hl'] at hr; simp at hr
    · rw [hl, hl'] at hr
      simp only at hr
      obtain ⟨p1, p2, p3, p4, -⟩ := simplifiedLoop_spec hw hds ha.vdim hl
      obtain ⟨q1, q2, q3, q4, -⟩ := simplifiedLoop_spec hw hds ha.udim hl'
      have hc : SameContent ru.dim rq.dim := (simplified_content hw hds hg ha.udim ha.vdim hl' hl).2
        (compatible_of_same ha.udim.canon.nodup ha.vdim.canon.nodup ha.aligned.1)
      have hmag : ru.mag = rq.mag := by
        obtain ⟨v⟩ := exists_valuation hw
        have e1 := p3 v
        have e2 := q3 v
        rw [ha.size v, ← e1, show v.size ru.dim = v.size rq.dim from
          dsize_same v.val q2.canon.nodup p2.canon.nodup hc] at e2
        exact mul_right_cancel₀ (v.size_pos _).ne' e2
      rw [setUncertainty_same (self := ⟨⟨a.val.mag.map (fun x => rq.mag * x), rq.dim⟩, a.unc⟩)
        (u := ⟨a.unc.mag.map (fun x => ru.mag * x), ru.dim⟩) p2.canon.nodup q2.canon.nodup hc] at hr
      rw [if_pos (show (a.val.mag.map (fun x => rq.mag * x)).shape =
        (a.unc.mag.map (fun x => ru.mag * x)).shape from ha.aligned.2.symm)] at hr
      simp only [Except.ok.injEq] at hr; subst hr
      refine ⟨⟨p2, q2, hc, ha.aligned.2⟩, p4, fun v => ?_, rq.mag, p1, rfl, ?_⟩
      · have f1 : ∀ x : K, rq.mag * x * v.size rq.dim = x * v.size a.val.dim := fun x => by
          rw [← p3 v]; ring
        have f2 : ∀ x : K, ru.mag * x * v.size ru.dim = x * v.size a.unc.dim := fun x => by
          rw [← q3 v]; ring
        simp only [Valuation.meas, NDArr.map, f1, f2]
      · simp only [hmag]

theorem uq_neg_spec {a : UQ K} (ha : a.OK w) : ∃ r, a.neg w = .ok r ∧ r.OK w ∧
    SameContent r.val.dim a.val.dim ∧ ∀ v : Valuation w,
      Elementwise IsProduct (v.meas a) (v.measOp (.plain (.array (NDArr.scalar (-1))))) (v.meas r) := by
  have ho : DimOK w (Operand.array (NDArr.scalar (-1 : K))).dim := DimOK.nil w
  obtain ⟨h1, -, h3⟩ := uq_mul_plain ha ho
  obtain ⟨r, hr⟩ := h1.2 (by
    show (NDArr.bshape a.val.mag.shape []).isSome
    rw [NDArr.bshape_nil_right]; rfl)
  obtain ⟨r1, r2, r3⟩ := h3 r hr
  exact ⟨r, hr, r1, r2, r3⟩

theorem UQ.Built.ok (hw : WF w) {a : UQ K} (ha : UQ.Built w a) : a.OK w := by
  induction ha with
  | new hd hu hs ho hso h => exact (new_spec hw hd hu hs ho hso h).1
  | set _ ho hs h ih => exact (setUncertainty_spec hw ih.vdim ho hs h).1
  | rescale _ hd hs h ih => exact (uq_rescale_spec hw ih hd hs h).1
  | simplified _ hds hg h ih => exact (uq_simplified_spec hw hds hg ih h).1
  | add _ _ hs h iha ihb =>
    exact ((uq_sumLike hw iha ihb hs (fun x y => x + y) (fun s x y => by ring) IsSum
      (fun x y z => Iff.rfl) Quantity.add add_deq _ rfl).2.2 _ h).1
  | addPlain _ h ih => exact absurd h add_plain_ne_ok
  | radd _ h ih => exact absurd h radd_plain_ne_ok
  | sub _ _ hs h iha ihb =>
    exact ((uq_sumLike hw iha ihb hs (fun x y => x - y) (fun s x y => by ring) IsDifference
      (fun x y z => Iff.rfl) Quantity.sub sub_deq _ rfl).2.2 _ h).1
  | subPlain _ h ih => exact absurd h sub_plain_ne_ok
  | rsub _ ho hs h ih => exact (uq_rsub_plain hw ih ho hs h).1
  | mul _ _ h iha ihb => exact ((uq_mul_uq iha ihb).2.2 _ h).1
  | mulPlain _ ho h ih => exact ((uq_mul_plain ih ho).2.2 _ h).1
  | rmul _ ho h ih => exact ((uq_mul_plain ih ho).2.2 _ h).1
  | neg _ h ih =>
    obtain ⟨r, h1, h2, -⟩ := uq_neg_spec ih
    rw [h1, Except.ok.injEq] at h; subst h; exact h2
  | div _ _ h iha ihb => exact ((uq_div_uq iha ihb).2.2 _ h).1
  | divPlain _ ho h ih => exact ((uq_div_plain ih ho).2.2 _ h).1
  | rdiv _ ho h ih => exact (uq_rdiv_ok ih ho h).1
  | pow _ h ih => exact (uq_pow_spec ih h).1
  | sqrt _ h ih => exact (uq_pow_spec ih h).1
  | getitem _ h ih => exact ((uq_getitem_spec ih _).2 _ h).1
  | sum _ h ih => exact ((uq_sum_spec ih _).2 _ h).1
  | mean _ h ih => exact (uq_mean_spec ih _ _ h).1
  | max _ h ih =>
    exact (uq_best_spec ih _ (fun x y z h1 h2 => by simp only [decide_eq_true_eq] at *; exact h1.trans h2)
      (fun x => by simp) h).1
  | min _ h ih =>
    exact (uq_best_spec ih _ (fun x y z h1 h2 => by simp only [decide_eq_true_eq] at *; exact h2.trans h1)
      (fun x => by simp) h).1

/-- C37: the uncertainty of everything built with the operations of the class has the units and
the shape of the value. -/
theorem C37_aligned (hw : Reachable h w) {a : UQ K} (ha : UQ.Built w a) : a.Aligned :=
  (ha.ok hw.wf).aligned

/-- `UncertainQuantity([3, 4], 'km', [0.1, 0.2])`. -/
noncomputable def exUQ : UQ ℝ :=
  ⟨⟨⟨[2], fun i => if i = [0] then 3 else 4⟩, dKm⟩, ⟨⟨[2], fun i => if i = [0] then 0.1 else 0.2⟩, dKm⟩⟩

/-- `UncertainQuantity(500, 'm', 50)`. -/
noncomputable def exUM : UQ ℝ := ⟨⟨NDArr.scalar 500, dM⟩, ⟨NDArr.scalar 50, dM⟩⟩

theorem exUQ_built : UQ.Built exWorld exUQ := by
  refine UQ.Built.new (data := .array exUQ.val.mag) (units := dKm) (unc := some (.array exUQ.unc.mag))
    (DimOK.nil _) (ex_dimOK _ (by simp)) ⟨fun h => ?_, fun h => ?_⟩ ?_ ?_ ?_
  · exact absurd h (by decide +kernel)
  · exact absurd h (by decide +kernel)
  · intro o ho; simp only [Option.some.injEq] at ho; subst ho; exact DimOK.nil _
  · intro o ho; simp only [Option.some.injEq] at ho; subst ho
    exact ⟨fun h => absurd h (by decide +kernel), fun h => absurd h (by decide +kernel)⟩
  · rw [new_arrays]; rfl

theorem exUM_built : UQ.Built exWorld exUM := by
  refine UQ.Built.new (data := .array exUM.val.mag) (units := dM) (unc := some (.array exUM.unc.mag))
    (DimOK.nil _) (ex_dimOK _ (by simp)) ⟨fun h => ?_, fun h => ?_⟩ ?_ ?_ ?_
  · exact absurd h (by decide +kernel)
  · exact absurd h (by decide +kernel)
  · intro o ho; simp only [Option.some.injEq] at ho; subst ho; exact DimOK.nil _
  · intro o ho; simp only [Option.some.injEq] at ho; subst ho
    exact ⟨fun h => absurd h (by decide +kernel), fun h => absurd h (by decide +kernel)⟩
  · rw [new_arrays]; rfl

theorem exUQ_ok : exUQ.OK exWorld := exUQ_built.ok exWorld_wf
theorem exUM_ok : exUM.OK exWorld := exUM_built.ok exWorld_wf

/-- The hypotheses of `C37_aligned` are met by a sum of a kilometre array and metres. -/
example : ∃ r, exUQ.add exWorld (.uq exUM) = .ok r ∧ UQ.Built exWorld r := by
  obtain ⟨r, hr⟩ := (uq_sumLike exWorld_wf exUQ_ok exUM_ok ex_safe_m_km (fun x y => x + y)
    (fun s x y => by ring) IsSum (fun x y z => Iff.rfl) Quantity.add add_deq _ rfl).1.2
    ⟨compatible_symm exWorld_wf ex_compat, by decide⟩
  exact ⟨r, hr, .add exUQ_built exUM_built ex_safe_m_km hr⟩

/-- C74 fails for numpy functions without an override: `numpy.fabs(x)` of a length with an
uncertainty has an uncertainty without units. -/
theorem C74_ufunc_false : ∃ (a r : UQ ℝ), UQ.Built exWorld a ∧
    UQ.applyUF1 exWorld .fabs (fun x => |x|) a = .ok r ∧ ¬ SameContent r.unc.dim r.val.dim := by
  refine ⟨exUM, _, exUM_built, rfl, fun hc => ?_⟩
  have := hc uM
  exact absurd this (by decide +kernel)

/-- `reshape(())`-like subscript of a one-element array. -/
def keyAxis : Key := fun _ => .ok ([1, 1], fun i => i.take 0)

/-- C74 fails for numpy methods without an override that change the shape: after
`x.reshape(1, 1)` the uncertainty keeps the old shape. -/
theorem C74_reshape_false : ∃ (a r : UQ ℝ), UQ.Built exWorld a ∧
    UQ.rearrange a keyAxis = .ok r ∧ r.unc.mag.shape ≠ r.val.mag.shape :=
  ⟨exUM, _, exUM_built, rfl, by decide⟩

/-- C74, ufuncs without an override: exactly which results are aligned.  The value and the shape of the
uncertainty are right, the uncertainty is zero, and it has the units of the value just when the result
is dimensionless. -/
theorem C74_ufunc_partial (hw : Reachable h w) {a r : UQ K} (_ha : UQ.Built w a) (f : UF1) (g : K → K)
    (hr : UQ.applyUF1 w f g a = .ok r) :
    applyUF1 w f g a.val = .ok r.val ∧ r.unc.mag.shape = r.val.mag.shape ∧
    (∀ i, r.unc.mag.elem i = 0) ∧ (r.Aligned ↔ r.val.dim = []) := by
  unfold UQ.applyUF1 at hr
  rcases hq : applyUF1 w f g a.val with e | q
  · rw [hq] at hr; exact absurd hr (by simp [bind, Except.bind])
  · rw [hq] at hr
    obtain rfl : r = ⟨q, UQ.zeroUnc q.mag []⟩ := by
      simpa [bind, Except.bind, pure, Except.pure] using hr.symm
    refine ⟨rfl, rfl, fun i => rfl, ⟨fun hA => ?_, fun hd => ⟨?_, rfl⟩⟩⟩
    · change q.dim = []
      have hA1 : SameContent [] q.dim := hA.1
      rcases hqd : q.dim with _ | ⟨kv, d⟩
      · rfl
      · have := hA1 kv.1
        rw [hqd, Dict.get?_cons, if_pos rfl] at this
        cases this
    · change SameContent [] q.dim
      rw [show q.dim = [] from hd]
      exact fun _ => rfl

/-- C74, methods that rearrange the value without an override (`reshape`, `transpose`, `ravel`, ...):
the value is rearranged and keeps its units, the uncertainty is passed on unchanged, so the units
agree, and the whole is aligned just when the shape did not change. -/
theorem C74_rearrange_partial (hw : Reachable h w) {a r : UQ K} (ha : UQ.Built w a) (k : Key)
    (hr : UQ.rearrange a k = .ok r) :
    a.val.getitem k = .ok r.val ∧ r.unc = a.unc ∧ SameContent r.unc.dim r.val.dim ∧
    (r.Aligned ↔ r.val.mag.shape = a.val.mag.shape) := by
  have hA := C37_aligned hw ha
  unfold UQ.rearrange at hr
  rcases hq : a.val.mag.select k with e | m
  · rw [hq] at hr; exact absurd hr (by simp [bind, Except.bind])
  · rw [hq] at hr
    obtain rfl : r = ⟨⟨m, a.val.dim⟩, a.unc⟩ := by
      simpa [bind, Except.bind, pure, Except.pure] using hr.symm
    refine ⟨?_, rfl, hA.1, ⟨fun hB => hB.2.symm.trans hA.2, fun hs => ⟨hA.1, hA.2.trans hs.symm⟩⟩⟩
    unfold Quantity.getitem
    rw [hq]

/-- The hypotheses are met by `np.fabs` and `reshape` of `UncertainQuantity(500, 'm', 50)`. -/
example : UQ.Built exWorld exUM ∧ (∃ r, UQ.applyUF1 exWorld .fabs (fun x => |x|) exUM = .ok r) ∧
    ∃ r, UQ.rearrange exUM keyAxis = .ok r := ⟨exUM_built, ⟨_, rfl⟩, ⟨_, rfl⟩⟩

/-- `UncertainQuantity(x)` of an uncertain quantity never returns. -/
theorem uq_construct_from_uncertain_raises (a : UQ K) (d : Dim) :
    ¬ Returns (UQ.newFromUncertain w a d) := by
  unfold UQ.newFromUncertain
  rcases UQ.mkQuantity w (.quantity a.val) d with e | q <;> exact not_returns_error _

/-- Assigning `x.units` of an uncertain quantity always raises and changes nothing. -/
theorem uq_units_setter_raises (a : UQ K) (d : Dim) :
    a.setUnits w d = (some .attributeError, a) := rfl

/-! ## C38 -/

private theorem relative_scaled {a r : UQ K} {cf : K} (hcf : 0 < cf) (ha : a.OK w) (hr : r.OK w)
    (hv : r.val.mag = a.val.mag.map (fun x => cf * x)) (hu : r.unc.mag = a.unc.mag.map (fun x => cf * x)) :
    ∃ m n, a.relative = .ok m ∧ r.relative = .ok n ∧ NDArr.Same m n := by
  obtain ⟨m, hm⟩ := relative_returns ha
  obtain ⟨n, hn⟩ := relative_returns hr
  obtain ⟨m1, m2⟩ := relative_spec ha hm
  obtain ⟨n1, n2⟩ := relative_spec hr hn
  have hs : r.val.mag.shape = a.val.mag.shape := by rw [hv]; rfl
  refine ⟨m, n, hm, hn, by rw [m1, n1, hs], fun i hi => ?_⟩
  rw [m1] at hi
  rw [m2 i hi, n2 i (by rw [hs]; exact hi), hv, hu]
  simp only [NDArr.map]
  rw [mul_div_mul_left _ _ hcf.ne']

/-- C38: rescaling preserves values and uncertainties as physical values, and the relative
uncertainties. -/
theorem C38_rescale (hw : Reachable h w) (a r : UQ K) (d : Dim) (ha : UQ.Built w a) (hd : DimOK w d)
    (hs : HashSafe w a.val.dim d) (hr : a.rescale w d = .ok r) :
    SameContent r.val.dim d ∧ r.Aligned ∧ (∀ v : Valuation w, v.meas r = v.meas a) ∧
    ∃ m n, a.relative = .ok m ∧ r.relative = .ok n ∧ NDArr.Same m n := by
  have hao := ha.ok hw.wf
  obtain ⟨h1, h2, -, h4, cf, h5, h6, h7⟩ := uq_rescale_spec hw.wf hao hd hs hr
  exact ⟨h2, h1.aligned, h4, relative_scaled h5 hao h1 h6 h7⟩

/-- C38: rescaling succeeds exactly for compatible units, and otherwise raises `ValueError`. -/
theorem C38_returns (hw : Reachable h w) (a : UQ K) (d : Dim) (ha : UQ.Built w a) (hd : DimOK w d)
    (hs : HashSafe w a.val.dim d) :
    (Returns (a.rescale w d) ↔ Compatible w a.val.dim d) ∧
    (∀ e, a.rescale w d = .error e → e = .valueError) :=
  uq_rescale_returns hw.wf (ha.ok hw.wf) hd hs

example : ∃ r, exUQ.rescale exWorld dM = .ok r :=
  (C38_returns exWorld_reachable exUQ dM exUQ_built (ex_dimOK _ (by simp)) ex_safe_km_m).1.2 ex_compat

/-- C38 for `simplified`: same measurements, same relative uncertainties, default units only. -/
theorem C38_simplified (hw : Reachable h w) (hds : DefaultsSafe w) (hg : GoodDefaults w)
    (a r : UQ K) (fuel : Nat) (ha : UQ.Built w a) (hr : a.simplified w fuel = .ok r) :
    (∀ u ∈ r.val.dim.map Prod.fst, IsDefaultUnit w u) ∧ r.Aligned ∧
    (∀ v : Valuation w, v.meas r = v.meas a) ∧
    ∃ m n, a.relative = .ok m ∧ r.relative = .ok n ∧ NDArr.Same m n := by
  have hao := ha.ok hw.wf
  obtain ⟨h1, h2, h4, cf, h5, h6, h7⟩ := uq_simplified_spec hw.wf hds hg hao hr
  exact ⟨h2, h1.aligned, h4, relative_scaled h5 hao h1 h6 h7⟩

/-! ## C39 -/

/-- C39: a sum of uncertain quantities adds the values and adds the uncertainties in quadrature;
it returns exactly for compatible units and broadcastable shapes. -/
theorem C39_sum (hw : Reachable h w) (a b : UQ K) (ha : UQ.Built w a) (hb : UQ.Built w b)
    (hs : HashSafe w b.val.dim a.val.dim) :
    (Returns (a.add w (.uq b)) ↔ Compatible w b.val.dim a.val.dim ∧
      (NDArr.bshape a.val.mag.shape b.val.mag.shape).isSome) ∧
    (∀ e, a.add w (.uq b) = .error e → e = .valueError) ∧
    (∀ r, a.add w (.uq b) = .ok r → SameContent r.val.dim a.val.dim ∧
      ∀ v : Valuation w, Elementwise IsSum (v.meas a) (v.meas b) (v.meas r)) := by
  obtain ⟨h1, h2, h3⟩ := uq_sumLike hw.wf (ha.ok hw.wf) (hb.ok hw.wf) hs (fun x y => x + y)
    (fun s x y => by ring) IsSum (fun x y z => Iff.rfl) Quantity.add add_deq (a.add w (.uq b)) rfl
  exact ⟨h1, h2, fun r hr => (h3 r hr).2⟩

/-- C39: likewise a difference. -/
theorem C39_difference (hw : Reachable h w) (a b : UQ K) (ha : UQ.Built w a) (hb : UQ.Built w b)
    (hs : HashSafe w b.val.dim a.val.dim) :
    (Returns (a.sub w (.uq b)) ↔ Compatible w b.val.dim a.val.dim ∧
      (NDArr.bshape a.val.mag.shape b.val.mag.shape).isSome) ∧
    (∀ e, a.sub w (.uq b) = .error e → e = .valueError) ∧
    (∀ r, a.sub w (.uq b) = .ok r → SameContent r.val.dim a.val.dim ∧
      ∀ v : Valuation w, Elementwise IsDifference (v.meas a) (v.meas b) (v.meas r)) := by
  obtain ⟨h1, h2, h3⟩ := uq_sumLike hw.wf (ha.ok hw.wf) (hb.ok hw.wf) hs (fun x y => x - y)
    (fun s x y => by ring) IsDifference (fun x y z => Iff.rfl) Quantity.sub sub_deq
    (a.sub w (.uq b)) rfl
  exact ⟨h1, h2, fun r hr => (h3 r hr).2⟩

example : Returns (exUQ.add exWorld (.uq exUM)) ∧ Returns (exUQ.sub exWorld (.uq exUM)) :=
  ⟨(C39_sum exWorld_reachable _ _ exUQ_built exUM_built ex_safe_m_km).1.2
      ⟨compatible_symm exWorld_wf ex_compat, by decide⟩,
   (C39_difference exWorld_reachable _ _ exUQ_built exUM_built ex_safe_m_km).1.2
      ⟨compatible_symm exWorld_wf ex_compat, by decide⟩⟩

/-- C77 fails for sums with an exact operand: they never return, in either order, even though
`exact - uncertain` works (`C77_exact_minus_uncertain_partial`). -/
theorem C77_plus_exact_false (a : UQ K) (o : Operand K) :
    ¬ Returns (a.add w (.plain o)) ∧ ¬ Returns (a.radd w (.plain o)) ∧ ¬ Returns (a.sub w (.plain o)) :=
  ⟨fun ⟨_, h⟩ => add_plain_ne_ok h, fun ⟨_, h⟩ => radd_plain_ne_ok h, fun ⟨_, h⟩ => sub_plain_ne_ok h⟩

/-- C77: `exact - uncertain`. -/
theorem C77_exact_minus_uncertain_partial (hw : Reachable h w) (a r : UQ K) (o : Operand K)
    (ha : UQ.Built w a) (ho : DimOK w o.dim) (hs : HashSafe w o.dim a.val.dim)
    (hr : a.rsub w (.plain o) = .ok r) : SameContent r.val.dim a.val.dim ∧
      ∀ v : Valuation w, Elementwise IsDifference (v.measOp (.plain o)) (v.meas a) (v.meas r) :=
  (uq_rsub_plain hw.wf (ha.ok hw.wf) ho hs hr).2

/-- C39: multiplying by an exact operand. -/
theorem C39_times_exact (hw : Reachable h w) (a : UQ K) (o : Operand K) (ha : UQ.Built w a)
    (ho : DimOK w o.dim) :
    (Returns (a.mul w (.plain o)) ↔ (NDArr.bshape a.val.mag.shape o.arr.shape).isSome) ∧
    (∀ e, a.mul w (.plain o) = .error e → e = .valueError) ∧
    (∀ r, a.mul w (.plain o) = .ok r → SameContent r.val.dim (Dim.mul a.val.dim o.dim) ∧
      ∀ v : Valuation w, Elementwise IsProduct (v.meas a) (v.measOp (.plain o)) (v.meas r)) := by
  obtain ⟨h1, h2, h3⟩ := uq_mul_plain (ha.ok hw.wf) ho
  exact ⟨h1, h2, fun r hr => (h3 r hr).2⟩

/-- C39: `exact * uncertain`. -/
theorem C39_exact_times (hw : Reachable h w) (a : UQ K) (o : Operand K) (ha : UQ.Built w a)
    (ho : DimOK w o.dim) :
    (Returns (a.rmul w (.plain o)) ↔ (NDArr.bshape a.val.mag.shape o.arr.shape).isSome) ∧
    (∀ r, a.rmul w (.plain o) = .ok r → SameContent r.val.dim (Dim.mul a.val.dim o.dim) ∧
      ∀ v : Valuation w, Elementwise IsProduct (v.meas a) (v.measOp (.plain o)) (v.meas r)) :=
  ⟨(C39_times_exact hw a o ha ho).1, (C39_times_exact hw a o ha ho).2.2⟩

/-- C39: dividing by an exact operand. -/
theorem C39_over_exact (hw : Reachable h w) (a : UQ K) (o : Operand K) (ha : UQ.Built w a)
    (ho : DimOK w o.dim) :
    (Returns (a.truediv w (.plain o)) ↔ (NDArr.bshape a.val.mag.shape o.arr.shape).isSome) ∧
    (∀ e, a.truediv w (.plain o) = .error e → e = .valueError) ∧
    (∀ r, a.truediv w (.plain o) = .ok r → SameContent r.val.dim (Dim.div a.val.dim o.dim) ∧
      ∀ v : Valuation w, Elementwise IsQuotient (v.meas a) (v.measOp (.plain o)) (v.meas r)) := by
  obtain ⟨h1, h2, h3⟩ := uq_div_plain (ha.ok hw.wf) ho
  exact ⟨h1, h2, fun r hr => (h3 r hr).2⟩

/-- C39: dividing an exact operand by an uncertain quantity with non-zero values. -/
theorem C39_exact_over (hw : Reachable h w) (a r : UQ K) (o : Operand K) (ha : UQ.Built w a)
    (ho : DimOK w o.dim) (hr : a.rtruediv w o = .ok r) :
    SameContent r.val.dim (Dim.div o.dim a.val.dim) ∧
      ∀ v : Valuation w, Elementwise (fun x y z => y.value ≠ 0 → IsQuotient x y z)
        (v.measOp (.plain o)) (v.meas a) (v.meas r) :=
  (uq_rdiv_ok (ha.ok hw.wf) ho hr).2

/-- C39: negation keeps the units and the (absolute) uncertainty and negates the value. -/
theorem C39_neg (hw : Reachable h w) (a : UQ K) (ha : UQ.Built w a) :
    ∃ r, a.neg w = .ok r ∧ SameContent r.val.dim a.val.dim ∧ ∀ v : Valuation w,
      (v.meas r).shape = (v.meas a).shape ∧ ∀ i, NDArr.InB (v.meas a).shape i →
        ((v.meas r).elem i).value = - ((v.meas a).elem i).value ∧
        0 ≤ ((v.meas r).elem i).sigma ∧
        ((v.meas r).elem i).sigma ^ 2 = ((v.meas a).elem i).sigma ^ 2 := by
  obtain ⟨r, h1, h2, h3, h4⟩ := uq_neg_spec (ha.ok hw.wf)
  refine ⟨r, h1, h3, fun v => ?_⟩
  obtain ⟨e1, e2⟩ := h4 v
  change NDArr.bshape (v.meas a).shape [] = _ at e1
  rw [NDArr.bshape_nil_right, Option.some.injEq] at e1
  refine ⟨e1.symm, fun i hi => ?_⟩
  have h5 := e2 i (by rw [← e1]; exact hi)
  rw [NDArr.bidx_self hi] at h5
  obtain ⟨⟨f1, f2⟩, f3⟩ := h5
  simp only [Valuation.measOp, Valuation.physOp, NDArr.map, NDArr.scalar] at f1 f2
  exact ⟨by rw [f1]; ring, f3, by rw [f2]; ring⟩

private theorem rel_sigma {x y sx sy z s : K} (hz : s = z * rpow ((sx / x) ^ 2 + (sy / y) ^ 2) (1/2)) :
    s ^ 2 = z ^ 2 * ((sx / x) ^ 2 + (sy / y) ^ 2) ∧ (0 ≤ z → 0 ≤ s) := by
  have h0 : 0 ≤ (sx / x) ^ 2 + (sy / y) ^ 2 := by positivity
  refine ⟨by rw [hz, mul_pow, rpow_half_sq h0], fun h => ?_⟩
  rw [hz]; exact mul_nonneg h (rpow_half_nonneg h0)

/-- C75, product of two uncertain quantities with non-zero values: the value is the product and the
squared relative uncertainties add up; the uncertainty is non-negative where the product is positive.
Missing: where the product is negative the uncertainty comes out negative (`C75_product_sign_false`). -/
theorem C75_product_partial (hw : Reachable h w) (a b : UQ K) (ha : UQ.Built w a) (hb : UQ.Built w b) :
    (Returns (a.mul w (.uq b)) ↔ (NDArr.bshape a.val.mag.shape b.val.mag.shape).isSome) ∧
    (∀ e, a.mul w (.uq b) = .error e → e = .valueError) ∧
    (∀ r, a.mul w (.uq b) = .ok r → r.val.dim = Dim.mul a.val.dim b.val.dim ∧
      ∀ v : Valuation w, Elementwise (fun x y z => x.value ≠ 0 → y.value ≠ 0 →
        IsProductUpToSign x y z ∧ (0 < z.value → IsProduct x y z))
        (v.meas a) (v.meas b) (v.meas r)) := by
  obtain ⟨h1, h2, h3⟩ := uq_mul_uq (ha.ok hw.wf) (hb.ok hw.wf)
  refine ⟨h1, h2, fun r hr => ⟨(h3 r hr).2.1, fun v => ?_⟩⟩
  obtain ⟨e1, e2⟩ := (h3 r hr).2.2 v
  refine ⟨e1, fun i hi hx hy => ?_⟩
  obtain ⟨f1, f2⟩ := e2 i hi
  obtain ⟨g1, g2⟩ := rel_sigma f2
  have hp : IsProductUpToSign ((v.meas a).elem (NDArr.bidx (v.meas a).shape i))
      ((v.meas b).elem (NDArr.bidx (v.meas b).shape i)) ((v.meas r).elem i) := by
    refine ⟨f1, ?_⟩
    rw [g1, f1]; field_simp
  exact ⟨hp, fun hz => ⟨hp, g2 hz.le⟩⟩

/-- C75, quotient of two uncertain quantities with non-zero values; same gap as for products. -/
theorem C75_quotient_partial (hw : Reachable h w) (a b : UQ K) (ha : UQ.Built w a) (hb : UQ.Built w b) :
    (Returns (a.truediv w (.uq b)) ↔ (NDArr.bshape a.val.mag.shape b.val.mag.shape).isSome) ∧
    (∀ e, a.truediv w (.uq b) = .error e → e = .valueError) ∧
    (∀ r, a.truediv w (.uq b) = .ok r → r.val.dim = Dim.div a.val.dim b.val.dim ∧
      ∀ v : Valuation w, Elementwise (fun x y z => x.value ≠ 0 → y.value ≠ 0 →
        IsQuotientUpToSign x y z ∧ (0 < z.value → IsQuotient x y z))
        (v.meas a) (v.meas b) (v.meas r)) := by
  obtain ⟨h1, h2, h3⟩ := uq_div_uq (ha.ok hw.wf) (hb.ok hw.wf)
  refine ⟨h1, h2, fun r hr => ⟨(h3 r hr).2.1, fun v => ?_⟩⟩
  obtain ⟨e1, e2⟩ := (h3 r hr).2.2 v
  refine ⟨e1, fun i hi hx hy => ?_⟩
  obtain ⟨f1, f2⟩ := e2 i hi
  obtain ⟨g1, g2⟩ := rel_sigma f2
  have hp : IsQuotientUpToSign ((v.meas a).elem (NDArr.bidx (v.meas a).shape i))
      ((v.meas b).elem (NDArr.bidx (v.meas b).shape i)) ((v.meas r).elem i) := by
    refine ⟨f1, ?_⟩
    rw [g1, f1]; field_simp
  exact ⟨hp, fun hz => ⟨hp, g2 hz.le⟩⟩

example : Returns (exUQ.mul exWorld (.uq exUM)) ∧ Returns (exUQ.truediv exWorld (.uq exUM)) :=
  ⟨(C75_product_partial exWorld_reachable _ _ exUQ_built exUM_built).1.2 (by decide),
   (C75_quotient_partial exWorld_reachable _ _ exUQ_built exUM_built).1.2 (by decide)⟩

/-- `UncertainQuantity(-500, 'm', 50)`. -/
noncomputable def exUN : UQ ℝ := ⟨⟨NDArr.scalar (-500), dM⟩, ⟨NDArr.scalar 50, dM⟩⟩

theorem exUN_built : UQ.Built exWorld exUN := by
  refine UQ.Built.new (data := .array exUN.val.mag) (units := dM) (unc := some (.array exUN.unc.mag))
    (DimOK.nil _) (ex_dimOK _ (by simp)) ⟨fun h => ?_, fun h => ?_⟩ ?_ ?_ ?_
  · exact absurd h (by decide +kernel)
  · exact absurd h (by decide +kernel)
  · intro o ho; simp only [Option.some.injEq] at ho; subst ho; exact DimOK.nil _
  · intro o ho; simp only [Option.some.injEq] at ho; subst ho
    exact ⟨fun h => absurd h (by decide +kernel), fun h => absurd h (by decide +kernel)⟩
  · rw [new_arrays]; rfl

/-- C75 fails for products of opposite signs: (-500 m ± 50 m) * (500 m ± 50 m) has a negative
uncertainty. -/
theorem C75_product_sign_false : ∃ r, exUN.mul exWorld (.uq exUM) = .ok r ∧
    ∀ v : Valuation exWorld, ((v.meas r).elem []).sigma < 0 := by
  obtain ⟨h1, -, h3⟩ := uq_mul_uq (exUN_built.ok exWorld_wf) exUM_ok
  obtain ⟨r, hr⟩ := h1.2 (by decide)
  refine ⟨r, hr, fun v => ?_⟩
  obtain ⟨e1, e2⟩ := (h3 r hr).2.2 v
  have hsh : r.val.mag.shape = [] := (Option.some.injEq _ _ ▸ e1 : [] = r.val.mag.shape).symm
  obtain ⟨f1, f2⟩ := e2 [] (by rw [hsh]; exact List.Forall₂.nil)
  simp only [Valuation.meas, exUN, exUM, NDArr.scalar] at f1 f2 ⊢
  have hs := v.size_pos dM
  rw [f2, f1]
  refine mul_neg_of_neg_of_pos (by nlinarith) ?_
  apply LawfulRPow.rpow_pos
  have : (50 * v.size dM / (-500 * v.size dM)) ^ 2 = 1 / 100 := by field_simp; norm_num
  rw [this]; positivity

theorem rpow_mul_dom {x s : K} {p : ℚ} (hx : 0 < x ∨ x ≠ 0 ∧ ∃ n : ℤ, p = n) (hs : 0 < s) :
    rpow (x * s) p = rpow x p * rpow s p := by
  rcases hx with hx | ⟨hx, n, rfl⟩
  · exact mul_rpow _ _ _ hx hs
  · rw [rpow_intCast _ _ hx, rpow_intCast _ _ hs.ne', rpow_intCast _ _ (mul_ne_zero hx hs.ne'), mul_zpow]

private theorem rpow_sub_one_dom {x : K} {p : ℚ} (hx : 0 < x ∨ x ≠ 0 ∧ ∃ n : ℤ, p = n) :
    rpow x (p - 1) = rpow x p / x := by
  have hx0 : x ≠ 0 := by rcases hx with hx | hx; exacts [hx.ne', hx.1]
  rcases hx with hx | ⟨hx, n, rfl⟩
  · have := rpow_add x (p - 1) 1 hx
    rw [sub_add_cancel, LawfulRPow.rpow_one] at this
    rw [this]; field_simp
  · rw [rpow_intCast _ _ hx, show ((n : ℚ) - 1) = ((n - 1 : ℤ) : ℚ) by push_cast; rfl,
      rpow_intCast _ _ hx, zpow_sub_one₀ hx, div_eq_mul_inv]

/-- C75, powers of positive values, or integral powers of non-zero values: value and size of the
uncertainty are right, and the uncertainty is non-negative if the exponent and the uncertainty are
and the value is positive.
Missing: a negative exponent gives a negative uncertainty (`C75_power_sign_false`). -/
theorem C75_power_partial (hw : Reachable h w) (a r : UQ K) (e : ExpArg) (ha : UQ.Built w a)
    (hr : a.pow w e = .ok r) : ∃ p : ℚ, (∀ i, NDArr.InB e.vals.shape i → e.vals.elem i = p) ∧
      r.val.dim = Dim.pow a.val.dim p ∧
      ∀ v : Valuation w, Elementwise (fun x _ z => (0 < x.value ∨ x.value ≠ 0 ∧ ∃ n : ℤ, p = n) →
        IsPowerUpToSign p x z ∧ (0 ≤ p → 0 < x.value → 0 ≤ x.sigma → IsPower p x z))
        (v.meas a) e.vals (v.meas r) := by
  have hao := ha.ok hw.wf
  obtain ⟨hok, p, h1, h2, h3, h4, h5⟩ := uq_pow_spec hao hr
  refine ⟨p, uniformExp_ok h1, h2, fun v => ⟨h4, fun i hi hdom => ?_⟩⟩
  obtain ⟨-, g2, g3⟩ := h5 i hi
  have hs := v.size_pos a.val.dim
  have hz : v.size r.val.dim = rpow (v.size a.val.dim) p := by
    rw [h2, Valuation.size, dsize_pow v.pos]; rfl
  simp only [Valuation.meas, hao.size v, hok.size v, hz] at hdom ⊢
  rw [g3, g2]
  generalize a.val.mag.elem (NDArr.bidx a.val.mag.shape i) = x at hdom ⊢
  generalize a.unc.mag.elem (NDArr.bidx a.val.mag.shape i) = u
  generalize v.size a.val.dim = s at hs hdom ⊢
  have hdx : 0 < x ∨ x ≠ 0 ∧ ∃ n : ℤ, p = n := by
    rcases hdom with h | ⟨h, n⟩
    · exact .inl (pos_of_mul_pos_left h hs.le)
    · exact .inr ⟨left_ne_zero_of_mul h, n⟩
  have hx0 : x ≠ 0 := by rcases hdx with hx | hx; exacts [hx.ne', hx.1]
  have hup : IsPowerUpToSign p ⟨x * s, u * s⟩
      ⟨rpow x p * rpow s p, rpow x p * (p : K) * (u / x) * rpow s p⟩ := by
    refine ⟨by simp only; rw [rpow_mul_dom hdx hs], ?_⟩
    simp only
    rw [rpow_sub_one_dom hdom, rpow_mul_dom hdx hs]
    congr 1
    field_simp
  refine ⟨hup, fun hp hpos hsig => ⟨hup, ?_⟩⟩
  have hxp : 0 < x := pos_of_mul_pos_left hpos hs.le
  have hu : 0 ≤ u := by
    by_contra hc
    exact absurd hsig (not_le.2 (mul_neg_of_neg_of_pos (not_le.1 hc) hs))
  have h7 := LawfulRPow.rpow_pos x p hxp
  have h8 := LawfulRPow.rpow_pos s p hs
  have h9 : (0 : K) ≤ (p : K) := by exact_mod_cast hp
  simp only
  positivity

/-- C75 fails for negative exponents: `(500 m ± 50 m)**-1` has a negative uncertainty. -/
theorem C75_power_sign_false : ∃ r, exUM.pow exWorld (expOf (-1)) = .ok r ∧
    ∀ v : Valuation exWorld, 0 < ((v.meas r).elem []).value ∧ ((v.meas r).elem []).sigma < 0 := by
  have hr : ∃ r, exUM.pow exWorld (expOf (-1)) = .ok r := by
    unfold UQ.pow
    rw [pow_expOf]
    simp only [except_bind_ok, mul_qa]
    rw [NDArr.bin_intro (fun x y : ℝ => x * y) (s := []) rfl]
    simp only [Except.map, except_bind_ok, UQ.relative]
    rw [NDArr.bin_intro (fun x y : ℝ => x / y) (s := []) rfl]
    simp only [except_bind_ok]
    rw [NDArr.bin_intro (fun x y : ℝ => x * y) (s := []) rfl]
    simp only [except_bind_ok]
    unfold UQ.setUncertainty
    simp only [Operand.toQuantity, dne_eq, deq_self, Bool.not_true, Bool.false_eq_true, if_false]
    exact ⟨_, if_pos rfl⟩
  obtain ⟨r, hr⟩ := hr
  refine ⟨r, hr, fun v => ?_⟩
  obtain ⟨hok, p, h1, h2, h3, h4, h5⟩ := uq_pow_spec exUM_ok hr
  have hp : p = -1 := by
    have : uniformExp (expOf (-1)).vals = .ok (-1) := by rfl
    rw [this, Except.ok.injEq] at h1; exact h1.symm
  subst hp
  have hsh : r.val.mag.shape = [] := (Option.some.injEq _ _ ▸ h4 : [] = r.val.mag.shape).symm
  obtain ⟨-, g2, g3⟩ := h5 [] (by rw [hsh]; exact List.Forall₂.nil)
  have hs := v.size_pos r.val.dim
  have hval : r.val.mag.elem [] = (500 : ℝ)⁻¹ := by
    rw [g2]; exact rpow_neg_one (by norm_num [exUM, NDArr.scalar])
  simp only [Valuation.meas, hok.size v]
  rw [g3, hval]
  refine ⟨by positivity, mul_neg_of_neg_of_pos ?_ hs⟩
  simp only [exUM, NDArr.scalar]
  norm_num

/-- C39: `sum` adds values, and uncertainties in quadrature, along the given axes. -/
theorem C39_total (hw : Reachable h w) (a : UQ K) (ax : Axis) (ha : UQ.Built w a) :
    (∀ e, a.sum w ax = .error e ↔ NDArr.axisMask a.val.mag.shape.length ax = .error e) ∧
    (∀ r, a.sum w ax = .ok r → r.val.dim = a.val.dim ∧
      ∀ v : Valuation w, ReducedBy IsTotal ax (v.meas a) (v.meas r)) := by
  obtain ⟨h1, h2⟩ := uq_sum_spec (ha.ok hw.wf) ax
  exact ⟨h1, fun r hr => (h2 r hr).2⟩

/-- C39: `mean` averages, with the uncertainty of the average of independent measurements. -/
theorem C39_average (hw : Reachable h w) (a r : UQ K) (ax : Axis) (ha : UQ.Built w a)
    (hr : a.mean w ax = .ok r) : r.val.dim = a.val.dim ∧
      ∀ v : Valuation w, ReducedBy IsAverage ax (v.meas a) (v.meas r) :=
  (uq_mean_spec (ha.ok hw.wf) ax r hr).2

/-- C39: indexing selects the measurements, values and uncertainties together. -/
theorem C39_getitem (hw : Reachable h w) (a : UQ K) (k : Key) (ha : UQ.Built w a) :
    (∀ e, a.getitem w k = .error e ↔ k a.val.mag.shape = .error e) ∧
    (∀ r, a.getitem w k = .ok r → r.val.dim = a.val.dim ∧
      ∀ v : Valuation w, (v.meas a).select k = .ok (v.meas r)) := by
  obtain ⟨h1, h2⟩ := uq_getitem_spec (ha.ok hw.wf) k
  exact ⟨h1, fun r hr => (h2 r hr).2⟩

example : Returns (exUQ.sum exWorld .all) ∧ Returns (exUQ.mean exWorld .all) := by
  constructor
  · unfold UQ.sum
    simp only [NDArr.reduce, NDArr.axisMask, except_bind_ok]
    rw [new_arrays]; exact ⟨_, rfl⟩
  · unfold UQ.mean
    simp only [NDArr.reduce, NDArr.axisMask, UQ.npSize, except_bind_ok]
    rw [new_arrays]; exact ⟨_, rfl⟩

/-- C76: `max()` (no axis) is a measurement of the array with no larger value in it. -/
theorem C76_max_partial (hw : Reachable h w) (a r : UQ K) (ha : UQ.Built w a)
    (hr : a.max w .all = .ok r) : r.val.dim = a.val.dim ∧ r.val.mag.shape = [] ∧
      ∃ i, NDArr.InB a.val.mag.shape i ∧ ∀ v : Valuation w,
        (v.meas r).elem [] = (v.meas a).elem i ∧
        ∀ j, NDArr.InB a.val.mag.shape j → ((v.meas a).elem j).value ≤ ((v.meas r).elem []).value := by
  obtain ⟨-, h2, h3, i, h4, h5, h6⟩ := uq_best_spec (ha.ok hw.wf) _
    (fun x y z h1 h2 => by simp only [decide_eq_true_eq] at *; exact h1.trans h2) (fun x => by simp) hr
  refine ⟨h2, h3, i, h4, fun v => ⟨h6 v, fun j hj => ?_⟩⟩
  rw [h6 v]
  have := h5 j hj
  simp only [decide_eq_false_iff_not, not_lt] at this
  exact mul_le_mul_of_nonneg_right this (v.size_pos _).le

/-- C76: `min()` (no axis) is a measurement of the array with no smaller value in it. -/
theorem C76_min_partial (hw : Reachable h w) (a r : UQ K) (ha : UQ.Built w a)
    (hr : a.min w .all = .ok r) : r.val.dim = a.val.dim ∧ r.val.mag.shape = [] ∧
      ∃ i, NDArr.InB a.val.mag.shape i ∧ ∀ v : Valuation w,
        (v.meas r).elem [] = (v.meas a).elem i ∧
        ∀ j, NDArr.InB a.val.mag.shape j → ((v.meas r).elem []).value ≤ ((v.meas a).elem j).value := by
  obtain ⟨-, h2, h3, i, h4, h5, h6⟩ := uq_best_spec (ha.ok hw.wf) _
    (fun x y z h1 h2 => by simp only [decide_eq_true_eq] at *; exact h2.trans h1) (fun x => by simp) hr
  refine ⟨h2, h3, i, h4, fun v => ⟨h6 v, fun j hj => ?_⟩⟩
  rw [h6 v]
  have := h5 j hj
  simp only [decide_eq_false_iff_not, not_lt] at this
  exact mul_le_mul_of_nonneg_right this (v.size_pos _).le

/-- C76 fails for `max(axis)` and `min(axis)`: the result is a scalar whatever the axis, also for an
axis that does not exist. -/
theorem C76_extremum_axis_false (hw : Reachable h w) (a r : UQ K) (ax : Axis) (ha : UQ.Built w a)
    (hr : a.max w ax = .ok r ∨ a.min w ax = .ok r) : r.val.mag.shape = [] := by
  rcases hr with hr | hr
  · exact (C76_max_partial hw a r ha hr).2.1
  · exact (C76_min_partial hw a r ha hr).2.1

/-- The hypotheses of the remaining theorems of C39 are met: `1000 - x`-like, `1 / x` and `max()`
return for concrete arguments. -/
example : Returns (exUM.rtruediv exWorld (.array (NDArr.scalar 1))) := by
  unfold UQ.rtruediv UQ.relative
  rw [NDArr.bin_intro (fun x y : ℝ => x / y) (s := []) rfl]
  simp only [except_bind_ok]
  rw [NDArr.bin_intro (fun x y : ℝ => x / y) (s := []) rfl]
  simp only [except_bind_ok, new_arrays]
  rw [if_pos (show ((NDArr.map (fun x => 1 / x) exUM.val.mag).shape = []) from rfl)]
  simp only [except_bind_ok, UQ.rmul]
  have hd := exUM_ok.vdim.pow (-1)
  refine (uq_mul_plain (w := exWorld) (o := .array (NDArr.scalar 1)) ⟨hd, hd, SameContent.refl _, rfl⟩
    (DimOK.nil _)).1.2 (by decide)

example : Returns (exUM.rsub exWorld (.plain (.quantity ⟨NDArr.scalar 7, dM⟩))) := by
  unfold UQ.rsub UQ.scaleOther
  have h1 : Quantity.scaleOther exWorld exUM.val (.quantity ⟨NDArr.scalar 7, dM⟩) =
      .ok ⟨NDArr.scalar 7, dM⟩ := by
    unfold Quantity.scaleOther
    simp only [dne_eq]
    rw [show exUM.val.dim = dM from rfl]
    simp [Operand.toQuantity, deq_self]
  simp only [h1, except_bind_ok, new_exact]
  have hd : DimOK exWorld dM := ex_dimOK _ (by simp)
  exact (uq_sumLike exWorld_wf (a := ⟨⟨NDArr.scalar 7, dM⟩, UQ.zeroUnc (NDArr.scalar 7) dM⟩)
    ⟨hd, hd, SameContent.refl _, rfl⟩ exUM_ok (HashSafe.refl exWorld dM) (fun x y => x - y)
    (fun s x y => by ring) IsDifference (fun x y z => Iff.rfl) Quantity.sub sub_deq _ rfl).1.2
    ⟨compatible_of_same hd.canon.nodup hd.canon.nodup (SameContent.refl _), by decide⟩

example : Returns (exUM.max exWorld .all) ∧ Returns (exUM.min exWorld .all) := by
  constructor <;>
  · simp only [UQ.max, UQ.min, UQ.best, NDArr.argreduce]
    rw [if_neg (by decide)]
    simp only [except_bind_ok]
    change Returns (exUM.getitem exWorld _)
    unfold UQ.getitem Quantity.getitem NDArr.select
    simp only [except_bind_ok]
    rw [new_array_same (u := ⟨⟨[], fun _ => exUM.unc.mag.elem []⟩, exUM.unc.dim⟩) exUM_ok.vdim.canon.nodup
      exUM_ok.udim.canon.nodup (SameContent.refl _)]
    exact ⟨_, if_pos rfl⟩

end PQ
