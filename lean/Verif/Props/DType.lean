import Verif.Spec.DTypes
import Verif.Props.Arithmetic
import Verif.Props.Compare
import Verif.Props.Dispatch
import Verif.Props.Quantitizer
import Verif.Props.Conversion
import Verif.Lemmas.Example
import Verif.Lemmas.NumpyLib

/-!
# C54: integer and low-precision magnitudes
-/

namespace PQ

open Dict

theorem promote_float_left (a b : DType) (h : a.isFloat = true) : (a.promote b).isFloat = true := by
  cases a <;> cases b <;> first | rfl | cases h

theorem promote_float_right (a b : DType) (h : b.isFloat = true) : (a.promote b).isFloat = true := by
  cases a <;> cases b <;> first | rfl | cases h | exact h

theorem isFloat_iff {t : DType} : t.isFloat = true ↔ ∃ b, t = .float b := by
  cases t <;> simp [DType.isFloat]

theorem promote_f64 (t : DType) : t.promote (.float .f64) = .float .f64 := by
  rcases t with _ | b | b | b
  · rfl
  all_goals cases b <;> rfl

theorem f64_promote (t : DType) : (DType.float .f64).promote t = .float .f64 := by
  rcases t with _ | b | b | b <;> rfl

theorem promote_self (t : DType) : t.promote t = t := by
  rcases t with _ | b | b | b
  · rfl
  all_goals cases b <;> rfl

theorem category_lt {t : DType} (h : t.isFloat = false) : t.category < 2 := by
  cases t <;> first | (simp [DType.category]; done) | cases h

section
variable {K : Type _} [Field K] [LinearOrder K] [IsStrictOrderedRing K] [FloorRing K] [RPow K]
  [LawfulRPow K] {N : Numpy K} {h : Hasher} {w : World K}

omit [IsStrictOrderedRing K] [RPow K] [LawfulRPow K] in
theorem weak_float (hN : N.Lawful) (a b : DType) (x : K) (h : a.isFloat = true) :
    (N.weak a b x).isFloat = true := by
  obtain ⟨a, rfl⟩ := isFloat_iff.1 h
  cases hb : b.isFloat
  · rw [hN.weak_lower a b x hb]; rfl
  · obtain ⟨b, rfl⟩ := isFloat_iff.1 hb
    obtain ⟨c, hc, -⟩ := hN.weak a b x
    rw [hc]; rfl

omit [IsStrictOrderedRing K] [RPow K] [LawfulRPow K] in
/-- An operation with a float operand is computed in floats. -/
theorem loop_float (hN : N.Lawful) (a b : NDArr K) (ta tb : DType)
    (h : ta.isFloat = true ∨ tb.isFloat = true) : (N.loop a ta b tb).isFloat = true := by
  unfold Numpy.loop
  have hp : (ta.promote tb).isFloat = true := by
    rcases h with h | h
    · exact promote_float_left _ _ h
    · exact promote_float_right _ _ h
  split
  · exact hp
  · split
    · split
      · exact hp
      · rename_i hc
        refine weak_float hN _ _ _ ?_
        rcases h with h | h
        · by_contra hb
          have := category_lt (Bool.eq_false_iff.2 hb)
          obtain ⟨a', rfl⟩ := isFloat_iff.1 h
          exact hc (by simpa [DType.category] using this)
        · exact h
    · split
      · exact hp
      · rename_i hc
        refine weak_float hN _ _ _ ?_
        rcases h with h | h
        · exact h
        · by_contra hb
          have := category_lt (Bool.eq_false_iff.2 hb)
          obtain ⟨a', rfl⟩ := isFloat_iff.1 h
          exact hc (by simpa [DType.category] using this)

omit [IsStrictOrderedRing K] [RPow K] [LawfulRPow K] in
/-- Two floats of the same width stay so. -/
theorem loop_same (hN : N.Lawful) (a b : NDArr K) (f : FBits) :
    N.loop a (.float f) b (.float f) = .float f := by
  have hw : ∀ x, N.weak (.float f) (.float f) x = .float f := fun x => by
    obtain ⟨c, hc, h1, h2⟩ := hN.weak f f x
    rw [hc]
    cases f <;> cases c <;> simp_all [FBits.width]
  unfold Numpy.loop
  split
  · exact promote_self _
  · split
    · split
      · exact promote_self _
      · exact hw _
    · split
      · exact promote_self _
      · exact hw _

omit [IsStrictOrderedRing K] [FloorRing K] [RPow K] [LawfulRPow K] in
/-- A 0-d double with anything that is not a float is computed in doubles. -/
theorem loop_f64_int (x : K) (b : NDArr K) (t : DType) (ht : t.isFloat = false) :
    N.loop (NDArr.scalar x) (.float .f64) b t = .float .f64 ∧
    N.loop b t (NDArr.scalar x) (.float .f64) = .float .f64 := by
  have hc := category_lt ht
  have h1 : (DType.float .f64).category > t.category := hc
  unfold Numpy.loop
  simp only [f64_promote, promote_f64, h1, if_true, ite_self, NDArr.scalar, List.isEmpty_nil, true_and]
  split
  · rfl
  · rename_i h
    split
    · rename_i hb; simp [hb] at h
    · rfl

omit [IsStrictOrderedRing K] [LawfulRPow K] in
theorem factor_float (t : DType) (cf : K) : (N.factor t cf).1.isFloat = true := by
  cases t <;> rfl

omit [IsStrictOrderedRing K] [LawfulRPow K] in
theorem factor_exact (hx : N.FloatExact) (t : DType) (cf : K) : (N.factor t cf).2 = cf := by
  cases t <;> first | rfl | exact hx _ _

omit [IsStrictOrderedRing K] [LawfulRPow K] in
theorem cast_float (hx : N.FloatExact) {t : DType} (ht : t.isFloat = true) (x : K) : N.cast t x = x := by
  obtain ⟨b, rfl⟩ := isFloat_iff.1 ht
  exact hx b x

/-- Conversion between different units computes the float product. -/
theorem applyFactor_exact (hN : N.Lawful) (hx : N.FloatExact) (q : TQ K) (d : Dim) (t : DType) (cf : K) :
    (N.applyFactor q d t cf).dtype.isFloat = true ∧
    (N.applyFactor q d t cf).toQ = ⟨q.mag.map (fun x => cf * x), d⟩ := by
  have hm : (N.loop (NDArr.scalar (N.factor t cf).2) (N.factor t cf).1 q.mag q.dtype).isFloat = true :=
    loop_float hN _ _ _ _ (.inl (factor_float t cf))
  have hr := promote_float_right t _ hm
  refine ⟨hr, ?_⟩
  unfold Numpy.applyFactor TQ.toQ Numpy.op1
  simp only [cast_float hx hm, cast_float hx hr]
  rw [factor_exact hx]

/-- Refinement: a conversion between different units is the conversion of exact numbers. -/
theorem rescaleT_refines (hN : N.Lawful) (hx : N.FloatExact) (q : TQ K) (d : Dim) (dt : Option DType)
    (hd : w.deq q.dim d = false) :
    (N.rescale w q d dt).map TQ.toQ = q.toQ.rescale w d := by
  unfold Numpy.rescale Quantity.rescale
  have hd' : w.deq q.toQ.dim d = false := hd
  simp only [hd, hd', Bool.false_eq_true, if_false]
  rcases hc : w.convFactor q.dim d with e | cf
  · have hc' : w.convFactor q.toQ.dim d = .error e := hc
    rw [hc']
    cases e <;> rfl
  · have hc' : w.convFactor q.toQ.dim d = .ok cf := hc
    rw [hc']
    simp only [Except.map, (applyFactor_exact hN hx q d _ cf).2]
    rfl

/-- A dtype-changing refinement gives the returned value. -/
theorem rescaleT_ok (hN : N.Lawful) (hx : N.FloatExact) {q r : TQ K} {d : Dim} {dt : Option DType}
    (hd : w.deq q.dim d = false) (hr : N.rescale w q d dt = .ok r) :
    q.toQ.rescale w d = .ok r.toQ := by
  rw [← rescaleT_refines hN hx q d dt hd, hr]; rfl

omit [IsStrictOrderedRing K] [FloorRing K] [LawfulRPow K] in
/-- A conversion between different units is a multiplication by the factor. -/
theorem rescaleT_cases {q r : TQ K} {d : Dim} {dt : Option DType} (hd : w.deq q.dim d = false)
    (hr : N.rescale w q d dt = .ok r) :
    ∃ cf, w.convFactor q.dim d = .ok cf ∧ r = N.applyFactor q d (dt.getD q.dtype) cf := by
  unfold Numpy.rescale at hr
  simp only [hd, Bool.false_eq_true, if_false] at hr
  rcases hc : w.convFactor q.dim d with e | cf
  · rw [hc] at hr
    cases e <;> cases hr
  · rw [hc] at hr
    simp only [Except.ok.injEq] at hr
    exact ⟨cf, rfl, hr.symm⟩

omit [IsStrictOrderedRing K] [FloorRing K] [LawfulRPow K] in
theorem deq_false_of {a b : Dim} (hs : HashSafe w a b) (hne : ¬ SameContent a b) : w.deq a b = false := by
  rw [Bool.eq_false_iff]
  exact fun he => hne (hs.direct he)

omit [IsStrictOrderedRing K] [LawfulRPow K] in
/-- C54: when magnitudes of two integer dtypes meet (a sum, an array built from both), the dtype
chosen holds every number of either, or is `float64`; and it is `float64` only for `uint64` with a signed
type. -/
theorem C54_integers_meet (a b : DType) (la ha lb hb : ℤ) (ea : a.range = some (la, ha))
    (eb : b.range = some (lb, hb)) :
    (∃ lo hi, (a.promote b).range = some (lo, hi) ∧ lo ≤ la ∧ ha ≤ hi ∧ lo ≤ lb ∧ hb ≤ hi) ∨
    ((a.promote b) = .float .f64 ∧ (a = .uint .b64 ∧ (∃ k, b = .int k) ∨ b = .uint .b64 ∧ ∃ k, a = .int k)) := by
  cases a <;> cases b <;> simp only [DType.range, Option.some.injEq, Prod.mk.injEq, reduceCtorEq] at ea eb <;>
    obtain ⟨rfl, rfl⟩ := ea <;> obtain ⟨rfl, rfl⟩ := eb <;> rename_i x y <;> cases x <;> cases y <;>
    first
    | (left; refine ⟨_, _, rfl, ?_, ?_, ?_, ?_⟩ <;> simp [IBits.bits, IBits.max] <;> done)
    | (right; exact ⟨rfl, Or.inl ⟨rfl, _, rfl⟩⟩)
    | (right; exact ⟨rfl, Or.inr ⟨rfl, _, rfl⟩⟩)

/-- C54: the dtype of a conversion between different units: floats, whatever was requested; without a
request floats keep their width, integers and booleans become doubles; a request for doubles is
honoured. -/
theorem C54_rescale_dtype (hN : N.Lawful) (q r : TQ K) (d : Dim) (dt : Option DType)
    (hs : HashSafe w q.dim d) (hne : ¬ SameContent q.dim d) (hr : N.rescale w q d dt = .ok r) :
    (∃ b, r.dtype = .float b) ∧
    (dt = none → ∀ b, q.dtype = .float b → r.dtype = .float b) ∧
    (dt = none → q.dtype.isFloat = false → r.dtype = .float .f64) ∧
    (dt = some (.float .f64) → r.dtype = .float .f64) := by
  obtain ⟨cf, -, rfl⟩ := rescaleT_cases (deq_false_of hs hne) hr
  refine ⟨isFloat_iff.1 (promote_float_right _ _ (loop_float hN _ _ _ _ (.inl (factor_float _ cf)))), ?_, ?_, ?_⟩
  · rintro rfl b hb
    simp only [Numpy.applyFactor, Option.getD_none, hb, Numpy.factor, loop_same hN, promote_self]
  · rintro rfl hb
    simp only [Numpy.applyFactor, Option.getD_none]
    have hf : (N.factor q.dtype cf).1 = .float .f64 := by
      cases hq : q.dtype <;> first | rfl | (rw [hq] at hb; cases hb)
    rw [hf, (loop_f64_int _ _ _ hb).1, promote_f64]
  · rintro rfl
    simp only [Numpy.applyFactor, Option.getD_some, f64_promote]

/-- C54: converting never truncates: whatever the dtype of the magnitudes and whatever dtype is
requested, a conversion to different units returns exactly when the units are compatible, and has the
physical value of the quantity (rounding to floats apart, see `C54_rescale_accuracy`). -/
theorem C54_rescale_value (hN : N.Lawful) (hx : N.FloatExact) (hw : Reachable h w) (q : TQ K) (d : Dim)
    (dt : Option DType) (hq : DimOK w q.dim) (hd : DimOK w d) (hs : HashSafe w q.dim d)
    (hne : ¬ SameContent q.dim d) :
    (Returns (N.rescale w q d dt) ↔ Compatible w q.dim d) ∧
    ∀ r, N.rescale w q d dt = .ok r → SameContent r.dim d ∧ r.mag.shape = q.mag.shape ∧
      ∀ v : Valuation w, v.phys r.toQ = v.phys q.toQ := by
  have hdf := deq_false_of hs hne
  refine ⟨?_, fun r hr => ?_⟩
  · rw [← returns_map TQ.toQ, rescaleT_refines hN hx q d dt hdf]
    exact rescale_returns hw.wf hq hd hs
  · have h1 := rescaleT_ok hN hx hdf hr
    obtain ⟨h2, h3, -⟩ := rescale_ok hw.wf hq hd hs h1
    exact ⟨h3, h2, fun v => rescale_phys hw.wf hq hd hs h1 v⟩

omit [FloorRing K] [RPow K] [LawfulRPow K] in
theorem rel_step {e A x y z : K} (he : 0 ≤ e) (h1 : |y - x| ≤ ((1 + A) - 1) * |x|)
    (h2 : |z - y| ≤ e * |y|) : |z - x| ≤ ((1 + A) * (1 + e) - 1) * |x| := by
  have hy : |y| ≤ |x| + A * |x| := by
    have := abs_add_le (y - x) x
    rw [sub_add_cancel] at this
    linarith
  have h3 : |z - x| ≤ |z - y| + |y - x| := by
    have := abs_add_le (z - y) (y - x)
    rwa [sub_add_sub_cancel] at this
  have := mul_le_mul_of_nonneg_left hy he
  nlinarith

omit [FloorRing K] [RPow K] [LawfulRPow K] in
theorem rel_mul {A B x y x' y' : K} (hA : 0 ≤ A) (h1 : |x' - x| ≤ ((1 + A) - 1) * |x|)
    (h2 : |y' - y| ≤ ((1 + B) - 1) * |y|) : |x' * y' - x * y| ≤ ((1 + A) * (1 + B) - 1) * |x * y| := by
  have e1 : x' * y' - x * y = (x' - x) * (y' - y) + (x' - x) * y + x * (y' - y) := by ring
  rw [e1, abs_mul x y]
  have h3 := abs_add_le ((x' - x) * (y' - y) + (x' - x) * y) (x * (y' - y))
  have h4 := abs_add_le ((x' - x) * (y' - y)) ((x' - x) * y)
  rw [abs_mul, abs_mul] at h4
  rw [abs_mul x] at h3
  have hx0 := abs_nonneg x
  have hy0 := abs_nonneg y
  have a1 : |x' - x| * |y' - y| ≤ (A * |x|) * (B * |y|) :=
    mul_le_mul (by linarith) (by linarith) (abs_nonneg _) (mul_nonneg hA hx0)
  have a2 : |x' - x| * |y| ≤ (A * |x|) * |y| := mul_le_mul_of_nonneg_right (by linarith) hy0
  have a3 : |x| * |y' - y| ≤ |x| * (B * |y|) := mul_le_mul_of_nonneg_left (by linarith) hx0
  nlinarith

/-- C54: with rounding of relative error at most `eps b` for floats of width `b`, a conversion without
a requested dtype has the physical value of the quantity up to five roundings in the width of the result;
integers and booleans are converted like doubles. -/
theorem C54_rescale_accuracy (hN : N.Lawful) (eps : FBits → K) (he : N.FloatErr eps) (hw : Reachable h w)
    (q r : TQ K) (d : Dim) (hq : DimOK w q.dim) (hd : DimOK w d) (hs : HashSafe w q.dim d)
    (hne : ¬ SameContent q.dim d) (hr : N.rescale w q d none = .ok r) :
    ∃ b, r.dtype = .float b ∧ r.mag.shape = q.mag.shape ∧ ∀ (v : Valuation w) (i : List Nat),
      |(v.phys r.toQ).elem i - (v.phys q.toQ).elem i| ≤
        ((1 + eps b) ^ 5 - 1) * |(v.phys q.toQ).elem i| := by
  obtain ⟨⟨b, hb⟩, hfl, hin, -⟩ := C54_rescale_dtype hN q r d none hs hne hr
  refine ⟨b, hb, ?_⟩
  obtain ⟨cf, hcf, rfl⟩ := rescaleT_cases (deq_false_of hs hne) hr
  simp only [Option.getD_none] at hb hfl hin ⊢
  obtain ⟨e0, he1⟩ := he b
  -- every cast is one to floats of width `b`
  have hloop : N.loop (NDArr.scalar (N.factor q.dtype cf).2) (N.factor q.dtype cf).1 q.mag q.dtype = .float b ∧
      |(N.factor q.dtype cf).2 - cf| ≤ ((1 + eps b) - 1) * |cf| := by
    cases hf : q.dtype.isFloat
    · have h1 := hin trivial hf
      rw [hb] at h1
      simp only [DType.float.injEq] at h1
      subst h1
      have hff : N.factor q.dtype cf = (.float .f64, cf) := by
        cases hq : q.dtype <;> first | rfl | (rw [hq] at hf; cases hf)
      rw [hff]
      refine ⟨(loop_f64_int _ _ _ hf).1, ?_⟩
      simp only [sub_self, abs_zero, add_sub_cancel_left]
      positivity
    · obtain ⟨b', hb'⟩ := isFloat_iff.1 hf
      have h1 := hfl trivial b' hb'
      rw [hb] at h1
      simp only [DType.float.injEq] at h1
      subst h1
      rw [hb']
      refine ⟨loop_same hN _ _ _, ?_⟩
      rw [add_sub_cancel_left]
      exact he1 cf
  refine ⟨rfl, fun v i => ?_⟩
  obtain ⟨hpos, hsz⟩ := convFactor_ok hw.wf hq hd hs.refs hcf
  have hsd : 0 < v.size d := v.size_pos d
  have hmag : (v.phys (N.applyFactor q d q.dtype cf).toQ).elem i =
      N.cast (.float b) (N.cast (.float b) (N.cast (.float b) (N.factor q.dtype cf).2 *
        N.cast (.float b) (q.mag.elem i))) * v.size d := by
    have hr' : q.dtype.promote (N.loop (NDArr.scalar (N.factor q.dtype cf).2) (N.factor q.dtype cf).1
      q.mag q.dtype) = .float b := hb
    rw [hloop.1] at hr'
    simp only [Numpy.applyFactor, TQ.toQ, Valuation.phys, NDArr.map, Numpy.op1, hr', hloop.1]
  have hqi : (v.phys q.toQ).elem i = (cf * q.mag.elem i) * v.size d := by
    change q.mag.elem i * v.size q.dim = _
    rw [hsz v]; ring
  rw [hmag, hqi, ← sub_mul, abs_mul, abs_mul _ (v.size d), ← mul_assoc]
  refine mul_le_mul_of_nonneg_right ?_ (abs_nonneg _)
  have s1 := rel_step (A := eps b) e0 hloop.2 (he1 _)
  have s2 : |N.cast (.float b) (q.mag.elem i) - q.mag.elem i| ≤ ((1 + eps b) - 1) * |q.mag.elem i| := by
    rw [add_sub_cancel_left]; exact he1 _
  have p2 : (1 + eps b) * (1 + eps b) = 1 + (2 * eps b + eps b ^ 2) := by ring
  rw [p2] at s1
  have s3 := rel_mul (by positivity) s1 s2
  have p3 : (1 + (2 * eps b + eps b ^ 2)) * (1 + eps b) = 1 + ((1 + eps b) ^ 3 - 1) := by ring
  rw [p3] at s3
  have s4 := rel_step e0 s3 (he1 _)
  have p4 : (1 + ((1 + eps b) ^ 3 - 1)) * (1 + eps b) = 1 + ((1 + eps b) ^ 4 - 1) := by ring
  rw [p4] at s4
  have s5 := rel_step e0 s4 (he1 _)
  have p5 : (1 + ((1 + eps b) ^ 4 - 1)) * (1 + eps b) = (1 + eps b) ^ 5 := by ring
  rw [p5] at s5
  exact s5

/-! ## Sums, comparisons, in-place operations -/

/-- Converting the other operand when the units differ. -/
theorem scaleT_spec (hN : N.Lawful) (hx : N.FloatExact) (a b : TQ K) (hd : w.deq b.dim a.dim = false) :
    (N.scaleOther w a b).map TQ.toQ = Quantity.scaleOther w a.toQ (.quantity b.toQ) ∧
    ∀ o, N.scaleOther w a b = .ok o → o.dtype.isFloat = true ∧ o.dim = a.dim := by
  have h1 : w.dne b.dim a.dim = true := by rw [dne_eq, hd]; rfl
  have h2 : Quantity.scaleOther w a.toQ (.quantity b.toQ) = b.toQ.rescale w a.dim := by
    unfold Quantity.scaleOther
    have : w.dne b.toQ.dim a.toQ.dim = true := h1
    simp only [Operand.toQuantity, this, if_true]
    rfl
  unfold Numpy.scaleOther
  simp only [h1, if_true]
  refine ⟨by rw [rescaleT_refines hN hx _ _ _ hd, h2], fun o ho => ?_⟩
  obtain ⟨cf, -, rfl⟩ := rescaleT_cases hd ho
  exact ⟨(applyFactor_exact hN hx _ _ _ _).1, rfl⟩

/-- Arithmetic with a float operand is the arithmetic of exact numbers. -/
theorem arrays_exact (hN : N.Lawful) (hx : N.FloatExact) (f : K → K → K) (a b : NDArr K) (ta tb : DType)
    (ht : tb.isFloat = true) :
    N.arrays f a ta b tb = (NDArr.bin f a b).map (fun x => (x, N.loop a ta b tb)) ∧
    (N.loop a ta b tb).isFloat = true := by
  have hm := loop_float hN a b ta tb (.inr ht)
  refine ⟨?_, hm⟩
  have : N.op1 (N.loop a ta b tb) f = f := by
    funext x y
    simp only [Numpy.op1, cast_float hx hm]
  unfold Numpy.arrays
  simp only [this]
  cases NDArr.bin f a b <;> rfl

/-- What the sum or difference of quantities in different units is. -/
theorem addLike_refines (hN : N.Lawful) (hx : N.FloatExact) (f : K → K → K) (uf : UF2)
    (hf : ∀ x y, ufunc2Dim w uf x y = dCheckUniform w x y) (a b : TQ K)
    (hd : w.deq b.dim a.dim = false) :
    (N.addLike f w a b).map TQ.toQ =
      (match Quantity.scaleOther w a.toQ (.quantity b.toQ) with
        | .error e => .error e
        | .ok o => applyUF2 w uf f (.quantity a.toQ) (.quantity o)) ∧
    ∀ r, N.addLike f w a b = .ok r → r.dtype.isFloat = true := by
  obtain ⟨h1, h2⟩ := scaleT_spec hN hx a b hd
  unfold Numpy.addLike
  rcases ho : N.scaleOther w a b with e | o
  · rw [ho] at h1
    rw [← h1]
    exact ⟨rfl, fun r hr => by cases hr⟩
  · rw [ho] at h1
    rw [← h1]
    obtain ⟨h3, h4⟩ := h2 o ho
    obtain ⟨h5, h6⟩ := arrays_exact hN hx f a.mag o.mag a.dtype o.dtype h3
    have h7 : w.deq a.dim o.dim = true := by rw [h4]; exact deq_self _ _
    simp only [h5, h7, if_true, Except.map, applyUF2, hf, dCheckUniform]
    have h8 : w.deq a.toQ.dim o.toQ.dim = true := h7
    simp only [h8, if_true, Operand.arr]
    have e : NDArr.bin f a.toQ.mag o.toQ.mag = NDArr.bin f a.mag o.mag := rfl
    rw [e]
    rcases NDArr.bin f a.mag o.mag with e' | x
    · exact ⟨rfl, fun r hr => by cases hr⟩
    · refine ⟨rfl, fun r hr => ?_⟩
      simp only [Except.ok.injEq] at hr
      subst hr
      exact h6

/-- C54: the sum of quantities in different units, whatever the dtypes of their magnitudes: it returns
exactly when the units are compatible and the shapes broadcast, in floats and without truncation. -/
theorem C54_add (hN : N.Lawful) (hx : N.FloatExact) (hw : Reachable h w) (a b : TQ K)
    (ha : DimOK w a.dim) (hb : DimOK w b.dim) (hs : HashSafe w b.dim a.dim)
    (hne : ¬ SameContent b.dim a.dim) :
    (Returns (N.addLike (· + ·) w a b) ↔ Compatible w b.dim a.dim ∧
      (NDArr.bshape a.mag.shape b.mag.shape).isSome) ∧
    ∀ r, N.addLike (· + ·) w a b = .ok r → (∃ t, r.dtype = .float t) ∧ SameContent r.dim a.dim ∧
      ∀ v : Valuation w, NDArr.bin (· + ·) (v.phys a.toQ) (v.phys b.toQ) = .ok (v.phys r.toQ) := by
  obtain ⟨h1, h2⟩ := addLike_refines hN hx (· + ·) .add (fun _ _ => rfl) a b (deq_false_of hs hne)
  obtain ⟨g1, -, g2⟩ := C13_add hw a.toQ (.quantity b.toQ) ha hb hs
  refine ⟨?_, fun r hr => ?_⟩
  · rw [← returns_map TQ.toQ, h1]
    exact g1
  · obtain ⟨k1, k2⟩ := g2 r.toQ (by
      rw [hr] at h1
      exact h1.symm)
    exact ⟨isFloat_iff.1 (h2 r hr), k1, k2⟩

/-- C54, the precision of a sum or difference of quantities in different units with numpy 2: two floats give
the wider of the two types; without floats the result is in doubles; a float and an integer type give at
least the precision of the float. -/
theorem C54_add_dtype (hN : N.Lawful) (h2 : N.np2 = true) (f : K → K → K) (a b r : TQ K)
    (hs : HashSafe w b.dim a.dim) (hne : ¬ SameContent b.dim a.dim) (hr : N.addLike f w a b = .ok r) :
    ∃ z : FBits, r.dtype = .float z ∧
      (∀ x y, a.dtype = .float x → b.dtype = .float y → z.width = max x.width y.width) ∧
      ((∀ x, a.dtype ≠ .float x) → (∀ x, b.dtype ≠ .float x) → z = .f64) ∧
      (∀ x, a.dtype = .float x ∨ b.dtype = .float x → x.width ≤ z.width) := by
  have hd := deq_false_of hs hne
  have h1 : w.dne b.dim a.dim = true := by rw [dne_eq, hd]; rfl
  unfold Numpy.addLike at hr
  rcases ho : N.scaleOther w a b with e | o
  · rw [ho] at hr; cases hr
  · rw [ho] at hr
    simp only at hr
    rcases hm : N.arrays f a.mag a.dtype o.mag o.dtype with e | x
    · rw [hm] at hr; cases hr
    · rw [hm] at hr
      simp only at hr
      by_cases hq : w.deq a.dim o.dim = true
      · rw [if_pos hq] at hr
        cases hr
        unfold Numpy.scaleOther at ho
        rw [if_pos h1] at ho
        obtain ⟨cf, -, rfl⟩ := rescaleT_cases hd ho
        have hx : x.2 = a.dtype.promote (((a.dtype.promote b.dtype)).promote
            ((N.factor (a.dtype.promote b.dtype) cf).1.promote b.dtype)) := by
          unfold Numpy.arrays at hm
          simp only at hm
          split at hm
          · cases hm
          · cases hm
            unfold Numpy.applyFactor Numpy.loop
            simp only [h2, Bool.true_or, if_true, Option.getD_some]
        simp only [hx]
        have hf : (N.factor (a.dtype.promote b.dtype) cf).1 =
            match a.dtype.promote b.dtype with | .float b => .float b | _ => .float .f64 := by
          unfold Numpy.factor
          rcases a.dtype.promote b.dtype with _ | _ | _ | _ <;> rfl
        rw [hf]
        generalize a.dtype = s
        generalize b.dtype = t
        rcases s with _ | (_ | _ | _ | _) | (_ | _ | _ | _) | (_ | _ | _) <;>
          rcases t with _ | (_ | _ | _ | _) | (_ | _ | _ | _) | (_ | _ | _) <;>
          refine ⟨_, rfl, ?_, ?_, ?_⟩ <;> simp [FBits.width] <;> first | done | rfl | decide | (rintro x (rfl | rfl) <;> decide)
      · rw [if_neg hq] at hr; cases hr

/-- C54: the difference of quantities in different units. -/
theorem C54_sub (hN : N.Lawful) (hx : N.FloatExact) (hw : Reachable h w) (a b : TQ K)
    (ha : DimOK w a.dim) (hb : DimOK w b.dim) (hs : HashSafe w b.dim a.dim)
    (hne : ¬ SameContent b.dim a.dim) :
    (Returns (N.addLike (· - ·) w a b) ↔ Compatible w b.dim a.dim ∧
      (NDArr.bshape a.mag.shape b.mag.shape).isSome) ∧
    ∀ r, N.addLike (· - ·) w a b = .ok r → (∃ t, r.dtype = .float t) ∧ SameContent r.dim a.dim ∧
      ∀ v : Valuation w, NDArr.bin (· - ·) (v.phys a.toQ) (v.phys b.toQ) = .ok (v.phys r.toQ) := by
  obtain ⟨h1, h2⟩ := addLike_refines hN hx (· - ·) .subtract (fun _ _ => rfl) a b (deq_false_of hs hne)
  obtain ⟨g1, -, g2⟩ := C13_sub hw a.toQ (.quantity b.toQ) ha hb hs
  refine ⟨?_, fun r hr => ?_⟩
  · rw [← returns_map TQ.toQ, h1]
    exact g1
  · obtain ⟨k1, k2⟩ := g2 r.toQ (by
      rw [hr] at h1
      exact h1.symm)
    exact ⟨isFloat_iff.1 (h2 r hr), k1, k2⟩

/-- C54: comparing quantities in different units compares physical values, whatever the dtypes. -/
theorem C54_compare (hN : N.Lawful) (hx : N.FloatExact) (hw : Reachable h w) (a b : TQ K)
    (ha : DimOK w a.dim) (hb : DimOK w b.dim) (hs : HashSafe w b.dim a.dim)
    (hne : ¬ SameContent b.dim a.dim) (f : K → K → Bool)
    (hf : f = (fun x y => decide (x < y)) ∨ f = (fun x y => decide (x ≤ y)) ∨
      f = (fun x y => decide (x > y)) ∨ f = (fun x y => decide (x ≥ y))) :
    (Returns (N.compare f w a b) ↔ Compatible w b.dim a.dim ∧
      (NDArr.bshape a.mag.shape b.mag.shape).isSome) ∧
    (∀ e, N.compare f w a b = .error e → e = .valueError) ∧
    ∀ m, N.compare f w a b = .ok m → ∀ v : Valuation w,
      NDArr.bin f (v.phys a.toQ) (v.phys b.toQ) = .ok m := by
  have hd := deq_false_of hs hne
  suffices he : N.compare f w a b = a.toQ.compare f w (.quantity b.toQ) by
    rw [he]
    rcases hf with rfl | rfl | rfl | rfl
    · exact C17_lt hw a.toQ b.toQ ha hb hs
    · exact C17_le hw a.toQ b.toQ ha hb hs
    · exact C17_gt hw a.toQ b.toQ ha hb hs
    · exact C17_ge hw a.toQ b.toQ ha hb hs
  clear hf
  have h1 : w.dne b.dim a.dim = true := by rw [dne_eq, hd]; rfl
  have h1' : w.dne b.toQ.dim a.toQ.dim = true := h1
  unfold Numpy.compare Quantity.compare Quantity.wrapComparison
  simp only [h1, h1', if_true]
  have h2 := rescaleT_refines (w := w) hN hx b a.dim none hd
  rcases ho : N.rescale w b a.dim none with e | o
  · rw [ho] at h2
    have h2' : b.toQ.rescale w a.toQ.dim = .error e := h2.symm
    simp only [h2']
  · rw [ho] at h2
    have h2' : b.toQ.rescale w a.toQ.dim = .ok o.toQ := h2.symm
    simp only [h2']
    obtain ⟨cf, -, rfl⟩ := rescaleT_cases hd ho
    have hf := loop_float hN a.mag (N.applyFactor b a.dim (Option.getD none b.dtype) cf).mag a.dtype _
      (.inr (applyFactor_exact hN hx b a.dim (Option.getD none b.dtype) cf).1)
    simp only [cast_float hx hf]
    rfl

/-- C54: `a += b` and `a -= b` in different units with an integer (or boolean) target never store a
converted value: they raise, `TypeError` if nothing else is wrong. -/
theorem C54_inplace_int (hN : N.Lawful) (hx : N.FloatExact) (hw : Reachable h w) (f : K → K → K) (a b : TQ K)
    (ha : DimOK w a.dim) (hb : DimOK w b.dim) (hs : HashSafe w b.dim a.dim)
    (hne : ¬ SameContent b.dim a.dim) (hi : a.dtype.isFloat = false) :
    ¬ Returns (N.iaddLike f w a b) ∧
    (Compatible w b.dim a.dim → NDArr.bshape a.mag.shape b.mag.shape = some a.mag.shape →
      N.iaddLike f w a b = .error .typeError) := by
  have hd := deq_false_of hs hne
  obtain ⟨h1, h2⟩ := scaleT_spec (w := w) hN hx a b hd
  have hk : ∀ m : DType, m.isFloat = true → m.sameKind a.dtype = false := fun m hm => by
    obtain ⟨b', rfl⟩ := isFloat_iff.1 hm
    cases hq : a.dtype <;> first | rfl | (rw [hq] at hi; cases hi)
  unfold Numpy.iaddLike Numpy.inplace
  rcases ho : N.scaleOther w a b with e | o
  · refine ⟨not_returns_error _, fun hc _ => ?_⟩
    have := ((scaleOther_spec hw.wf (self := a.toQ) (other := .quantity b.toQ) ha hb hs).1).2 hc
    rw [← h1, ho] at this
    exact absurd this (not_returns_error _)
  · obtain ⟨h3, -⟩ := h2 o ho
    obtain ⟨h5, h6⟩ := arrays_exact hN hx f a.mag o.mag a.dtype o.dtype h3
    have hshape : o.mag.shape = b.mag.shape := by
      rw [ho] at h1
      exact ((scaleOther_spec hw.wf (self := a.toQ) (other := .quantity b.toQ) ha hb hs).2.2 o.toQ h1.symm).2.2.1
    simp only [h5]
    rcases hbin : NDArr.bin f a.mag o.mag with e | x
    · refine ⟨not_returns_error _, fun _ hsh => ?_⟩
      have := (NDArr.bin_ok_iff f a.mag o.mag).2 (by rw [hshape, hsh]; rfl)
      rw [hbin] at this
      exact absurd this (not_returns_error _)
    · simp only [Except.map, hk _ h6, Bool.false_eq_true, if_false]
      constructor
      · split
        · rename_i hee; exact not_returns_error _
        · rename_i hee; split at hee <;> cases hee
      · intro _ hsh
        have hxs : x.shape = a.mag.shape := by
          have hs1 := (NDArr.bin_elim hbin).1
          rw [hshape, hsh] at hs1
          exact (Option.some.inj hs1).symm
        simp only [hxs, ne_eq, not_true_eq_false, if_false]

/-- C54: with a float target `a += b`, `a -= b` store the physical sum or difference. -/
theorem C54_inplace_float (hN : N.Lawful) (hx : N.FloatExact) (hw : Reachable h w) (f : K → K → K)
    (hf : ∀ s x y : K, 0 < s → f (x * s) (y * s) = f x y * s) (a b : TQ K) (ha : DimOK w a.dim) (hb : DimOK w b.dim) (hs : HashSafe w b.dim a.dim)
    (hne : ¬ SameContent b.dim a.dim) (t : FBits) (ht : a.dtype = .float t) :
    (Returns (N.iaddLike f w a b) ↔ Compatible w b.dim a.dim ∧
      NDArr.bshape a.mag.shape b.mag.shape = some a.mag.shape) ∧
    ∀ r, N.iaddLike f w a b = .ok r → r.dtype = a.dtype ∧ r.dim = a.dim ∧
      ∀ v : Valuation w, NDArr.bin f (v.phys a.toQ) (v.phys b.toQ) = .ok (v.phys r.toQ) := by
  have hd := deq_false_of hs hne
  obtain ⟨h1, h2⟩ := scaleT_spec (w := w) hN hx a b hd
  obtain ⟨q1, -, q2⟩ := scaleOther_spec hw.wf (self := a.toQ) (other := .quantity b.toQ) ha hb hs
  rw [← h1, returns_map] at q1
  unfold Numpy.iaddLike Numpy.inplace
  rcases ho : N.scaleOther w a b with e | o
  · rw [ho] at q1
    refine ⟨⟨fun h => absurd h (not_returns_error _), fun h => absurd (q1.2 h.1) (not_returns_error _)⟩,
      fun r hr => by cases hr⟩
  · obtain ⟨h3, h4⟩ := h2 o ho
    obtain ⟨h5, h6⟩ := arrays_exact hN hx f a.mag o.mag a.dtype o.dtype h3
    rw [ho] at h1 q1
    have hc : Compatible w b.dim a.dim := q1.1 (returns_ok _)
    obtain ⟨-, -, hshape, hph⟩ := q2 o.toQ h1.symm
    have hshape : o.mag.shape = b.mag.shape := hshape
    simp only [h5]
    rcases hbin : NDArr.bin f a.mag o.mag with e | x
    · refine ⟨⟨fun h => absurd h (not_returns_error _), fun hh => ?_⟩, fun r hr => by cases hr⟩
      have := (NDArr.bin_ok_iff f a.mag o.mag).2 (by rw [hshape, hh.2]; rfl)
      rw [hbin] at this
      exact absurd this (not_returns_error _)
    · have hs1 := (NDArr.bin_elim hbin).1
      rw [hshape] at hs1
      have hk : (N.loop a.mag a.dtype o.mag o.dtype).sameKind a.dtype = true := by
        obtain ⟨b', hb'⟩ := isFloat_iff.1 h6
        rw [hb', ht]; rfl
      simp only [Except.map, hk, if_true]
      by_cases hxs : x.shape = a.mag.shape
      · simp only [hxs, ne_eq, not_true_eq_false, if_false]
        refine ⟨⟨fun _ => ⟨hc, by rw [hs1, hxs]⟩, fun _ => returns_ok _⟩, fun r hr => ?_⟩
        simp only [Except.ok.injEq] at hr
        subst hr
        refine ⟨rfl, rfl, fun v => ?_⟩
        have e1 : v.phys b.toQ = v.phys o.toQ := (hph v).symm
        have e2 : x.map (N.cast a.dtype) = x := by
          have : N.cast a.dtype = id := by funext y; rw [ht]; exact hx t y
          rw [this]; rfl
        rw [e1]
        unfold Valuation.phys TQ.toQ
        simp only [e2, h4]
        rw [NDArr.bin_scale (fun p q => hf _ p q (v.size_pos _)), hbin]
        rfl
      · simp only [ne_eq, hxs, not_false_eq_true, if_true]
        refine ⟨⟨fun h => absurd h (not_returns_error _), fun hh => ?_⟩, fun r hr => by cases hr⟩
        rw [hs1] at hh
        exact absurd (Option.some.inj hh.2) hxs

/-- C54: `q.units = u` for different units: a float quantity keeps its physical value and its dtype; an
integer (or boolean) quantity is refused (`TypeError`) and, the call having raised before any store, keeps
its magnitudes and units. -/
theorem C54_units_setter (hN : N.Lawful) (hx : N.FloatExact) (hw : Reachable h w) (q : TQ K) (d : Dim)
    (hq : DimOK w q.dim) (hd : DimOK w d) (hs : HashSafe w q.dim d) (hne : ¬ SameContent q.dim d) :
    (Returns (N.setUnits w q d) ↔ Compatible w q.dim d ∧ ∃ b, q.dtype = .float b) ∧
    (Compatible w q.dim d → q.dtype.isFloat = false → N.setUnits w q d = .error .typeError) ∧
    (¬ Compatible w q.dim d → N.setUnits w q d = .error .valueError) ∧
    ∀ r, N.setUnits w q d = .ok r → r.dtype = q.dtype ∧ r.dim = d ∧ r.mag.shape = q.mag.shape ∧
      ∀ v : Valuation w, NDArr.Same (v.phys r.toQ) (v.phys q.toQ) := by
  have hdf := deq_false_of hs hne
  have hcr := convFactor_returns hw.wf hq hd hs.refs
  unfold Numpy.setUnits
  simp only [hdf, Bool.false_eq_true, if_false]
  rcases hc : w.convFactor q.dim d with e | cf
  · obtain rfl := convFactor_error hc
    rw [hc] at hcr
    refine ⟨⟨fun h => absurd h (not_returns_error _), fun h => absurd (hcr.2 h.1) (not_returns_error _)⟩,
      fun h => absurd (hcr.2 h) (not_returns_error _), fun _ => rfl, fun r hr => by cases hr⟩
  · rw [hc] at hcr
    have hcomp := hcr.1 (returns_ok _)
    obtain ⟨h5, h6⟩ := arrays_exact hN hx (· * ·) q.mag (NDArr.scalar cf) q.dtype (.float .f64) rfl
    obtain ⟨m, hb, hm⟩ := bin_scalar_right (· * ·) q.mag cf
    have hmsh : m.shape = q.mag.shape := hm.1
    have hinp : N.inplace (· * ·) q.mag q.dtype (NDArr.scalar cf) (.float .f64) =
        if (N.loop q.mag q.dtype (NDArr.scalar cf) (.float .f64)).sameKind q.dtype then
          .ok (m.map (N.cast q.dtype)) else .error .typeError := by
      unfold Numpy.inplace
      rw [h5, hb]
      simp only [Except.map, hmsh, ne_eq, not_true_eq_false, if_false]
    simp only [hinp]
    cases hf : q.dtype.isFloat
    · have hk : (N.loop q.mag q.dtype (NDArr.scalar cf) (.float .f64)).sameKind q.dtype = false := by
        obtain ⟨b', hb'⟩ := isFloat_iff.1 h6
        rw [hb']
        cases hq : q.dtype <;> first | rfl | (rw [hq] at hf; cases hf)
      simp only [hk, Bool.false_eq_true, if_false]
      refine ⟨⟨fun h => absurd h (not_returns_error _), fun h => ?_⟩, fun _ _ => trivial,
        fun h => absurd hcomp h, fun r hr => by cases hr⟩
      obtain ⟨b, hb⟩ := h.2
      rw [hb] at hf; cases hf
    · obtain ⟨b, hb⟩ := isFloat_iff.1 hf
      have hk : (N.loop q.mag q.dtype (NDArr.scalar cf) (.float .f64)).sameKind q.dtype = true := by
        obtain ⟨b', hb'⟩ := isFloat_iff.1 h6
        rw [hb', hb]; rfl
      simp only [hk, if_true]
      refine ⟨⟨fun _ => ⟨hcomp, b, hb⟩, fun _ => returns_ok _⟩, fun _ h => absurd h (by simp),
        fun h => absurd hcomp h, fun r hr => ?_⟩
      simp only [Except.ok.injEq] at hr
      subst hr
      refine ⟨rfl, rfl, hmsh, fun v => ⟨hmsh, fun i hi => ?_⟩⟩
      have hcast : N.cast q.dtype (m.elem i) = m.elem i := by rw [hb]; exact hx b _
      have hmi : m.elem i = q.mag.elem i * cf := hm.2 i (hmsh ▸ hi)
      change N.cast q.dtype (m.elem i) * v.size d = q.mag.elem i * v.size q.dim
      rw [hcast, hmi, (convFactor_ok hw.wf hq hd hs.refs hc).2 v, mul_assoc]

/-- C84: item assignment to a float array stores the physical value; the other elements and the units
are kept. -/
theorem C84_assign_partial (hN : N.Lawful) (hx : N.FloatExact) (hw : Reachable h w) (q x : TQ K)
    (idx : List Nat) (hq : DimOK w q.dim) (hd : DimOK w x.dim)
    (hs' : HashSafe w x.dim q.dim) (b : FBits) (hb : q.dtype = .float b) :
    (Returns (N.setitem w q idx x) ↔ Compatible w x.dim q.dim) ∧
    ∀ r, N.setitem w q idx x = .ok r → r.dtype = q.dtype ∧ r.dim = q.dim ∧
      ∀ v : Valuation w, (v.phys r.toQ).elem idx = (v.phys x.toQ).elem [] ∧
        ∀ j, j ≠ idx → (v.phys r.toQ).elem j = (v.phys q.toQ).elem j := by
  have hcast : ∀ y, N.cast q.dtype y = y := fun y => by rw [hb]; exact hx b y
  unfold Numpy.setitem
  rw [dne_eq, deq_comm]
  cases hde : w.deq x.dim q.dim
  · simp only [Bool.not_false, if_true]
    obtain ⟨h1, h2⟩ := C54_rescale_value hN hx hw x q.dim (some (.float .f64)) hd hq hs'
      (fun hsame => by rw [deq_same hd.canon.nodup hq.canon.nodup hsame] at hde; cases hde)
    rcases ho : N.rescale w x q.dim (some (.float .f64)) with e | o
    · rw [ho] at h1
      exact ⟨⟨fun h => absurd h (not_returns_error _), fun h => absurd (h1.2 h) (not_returns_error _)⟩,
        fun r hr => by cases hr⟩
    · rw [ho] at h1
      refine ⟨⟨fun _ => h1.1 (returns_ok _), fun _ => returns_ok _⟩, fun r hr => ?_⟩
      simp only [Except.ok.injEq] at hr
      subst hr
      refine ⟨rfl, rfl, fun v => ?_⟩
      obtain ⟨h3, -, h4⟩ := h2 o ho
      obtain ⟨cf, -, rfl⟩ := rescaleT_cases hde ho
      refine ⟨?_, fun j hj => ?_⟩
      · rw [← h4 v]
        simp only [Valuation.phys, TQ.toQ, NDArr.map, Function.update_self, hcast]
        rfl
      · simp only [Valuation.phys, TQ.toQ, NDArr.map, Function.update_of_ne hj]
  · simp only [Bool.not_true, Bool.false_eq_true, if_false]
    have hsame := hs'.direct hde
    refine ⟨⟨fun _ => compatible_of_same hd.canon.nodup hq.canon.nodup hsame, fun _ => returns_ok _⟩,
      fun r hr => ?_⟩
    simp only [Except.ok.injEq] at hr
    subst hr
    refine ⟨rfl, rfl, fun v => ⟨?_, fun j hj => ?_⟩⟩
    · simp only [Valuation.phys, TQ.toQ, NDArr.map, Function.update_self, hcast]
      rw [show v.size q.dim = v.size x.dim from
        (dsize_same v.val hd.canon.nodup hq.canon.nodup hsame).symm]
    · simp only [Valuation.phys, TQ.toQ, NDArr.map, Function.update_of_ne hj]

omit [LawfulRPow K] in
theorem truncZ_err (x : K) : |(truncZ x : K) - x| < 1 := by
  unfold truncZ
  split
  · rw [abs_sub_lt_iff]
    constructor <;> linarith [Int.floor_le x, Int.lt_floor_add_one x]
  · rw [abs_sub_lt_iff]
    constructor <;> linarith [Int.le_ceil x, Int.ceil_lt_add_one x]

/-- C84: item assignment to an integer array, the part that holds: what is stored is within one unit of
the array of the physical value, if the number fits the type. -/
theorem C84_assign_int_partial (hN : N.Lawful) (hx : N.FloatExact) (hw : Reachable h w) (q x r : TQ K)
    (idx : List Nat) (hq : DimOK w q.dim) (hd : DimOK w x.dim) (hs' : HashSafe w x.dim q.dim)
    (lo hi : ℤ) (hrange : q.dtype.range = some (lo, hi))
    (hfit : ∀ (v : Valuation w) (n : K), n * v.size q.dim = (v.phys x.toQ).elem [] → lo ≤ truncZ n ∧ truncZ n ≤ hi)
    (v0 : Valuation w) (hr : N.setitem w q idx x = .ok r) :
    |(v0.phys r.toQ).elem idx - (v0.phys x.toQ).elem []| < v0.size q.dim := by
  have key : ∃ y : K, r = ⟨⟨q.mag.shape, Function.update q.mag.elem idx (N.cast q.dtype y)⟩, q.dtype, q.dim⟩ ∧
      y * v0.size q.dim = (v0.phys x.toQ).elem [] := by
    unfold Numpy.setitem at hr
    rw [dne_eq, deq_comm] at hr
    cases hde : w.deq x.dim q.dim
    · simp only [hde, Bool.not_false, if_true] at hr
      rcases ho : N.rescale w x q.dim (some (.float .f64)) with e | o
      · rw [ho] at hr; cases hr
      · rw [ho] at hr
        simp only [Except.ok.injEq] at hr
        obtain ⟨-, h2⟩ := C54_rescale_value hN hx hw x q.dim (some (.float .f64)) hd hq hs'
          (fun hsame => by rw [deq_same hd.canon.nodup hq.canon.nodup hsame] at hde; cases hde)
        obtain ⟨-, -, h4⟩ := h2 o ho
        obtain ⟨cf, -, rfl⟩ := rescaleT_cases hde ho
        refine ⟨_, hr.symm, ?_⟩
        rw [← h4 v0]; rfl
    · simp only [hde, Bool.not_true, Bool.false_eq_true, if_false, Except.ok.injEq] at hr
      refine ⟨_, hr.symm, ?_⟩
      rw [show v0.size q.dim = v0.size x.dim from
        (dsize_same v0.val hd.canon.nodup hq.canon.nodup (hs'.direct hde)).symm]
      rfl
  obtain ⟨y, rfl, hy⟩ := key
  obtain ⟨f1, f2⟩ := hfit v0 y hy
  have hcast := hN.int q.dtype lo hi hrange y f1 f2
  have : (v0.phys (TQ.toQ ⟨⟨q.mag.shape, Function.update q.mag.elem idx (N.cast q.dtype y)⟩, q.dtype, q.dim⟩)).elem idx
      = (truncZ y : K) * v0.size q.dim := by
    simp only [Valuation.phys, TQ.toQ, NDArr.map, Function.update_self, hcast]
  rw [this, ← hy, ← sub_mul, abs_mul, abs_of_pos (v0.size_pos _)]
  have := truncZ_err y
  nlinarith [v0.size_pos q.dim]

end
/-! ## Concrete cases -/

/-- numpy 2 with exact floats. -/
noncomputable def exNumpy : Numpy ℝ where
  np2 := true
  cast t x :=
    match t with
    | .bool => if x = 0 then 0 else 1
    | .float _ => x
    | .int b => if -(2 ^ (b.bits - 1)) ≤ truncZ x ∧ truncZ x ≤ 2 ^ (b.bits - 1) - 1 then (truncZ x : ℤ) else 0
    | .uint b => if 0 ≤ truncZ x ∧ truncZ x ≤ 2 ^ b.bits - 1 then (truncZ x : ℤ) else 0
  weak a _ _ := a

theorem exNumpy_lawful : exNumpy.Lawful where
  int t lo hi h x h1 h2 := by
    cases t <;> simp only [DType.range, Option.some.injEq, Prod.mk.injEq, reduceCtorEq] at h
    · obtain ⟨rfl, rfl⟩ := h; simp only [exNumpy, h1, h2, and_self, if_true]
    · obtain ⟨rfl, rfl⟩ := h; simp only [exNumpy, h1, h2, and_self, if_true]
  bool x := rfl
  weak a b x := ⟨a, rfl, le_rfl, le_max_left _ _⟩
  weak_lower a t x h := rfl

theorem exNumpy_exact : exNumpy.FloatExact := fun _ _ => rfl

theorem ex_not_same_m_km : ¬ SameContent dM dKm := fun hs => by
  have := deq_same (w := exWorld) (ex_dimOK dM (by simp)).canon.nodup (ex_dimOK dKm (by simp)).canon.nodup hs
  revert this; rw [ex_deq_m_km]; simp

/-- The integer quantity `1 m` and the array `[5, 7] km` of 64-bit integers. -/
noncomputable def exOneM : TQ ℝ := ⟨NDArr.scalar 1, .int .b64, dM⟩
noncomputable def exKmArr : TQ ℝ := ⟨⟨[2], fun i => if i = [0] then 5 else 7⟩, .int .b64, dKm⟩

/-- Converting and adding the integers, with exact doubles. -/
example : (∃ r, exNumpy.rescale exWorld exOneM dKm none = .ok r ∧ r.dtype = .float .f64 ∧
      ∀ v : Valuation exWorld, v.phys r.toQ = v.phys exOneM.toQ) ∧
    (∃ r, exNumpy.addLike (· + ·) exWorld exKmArr exOneM = .ok r ∧ (∃ t, r.dtype = .float t) ∧
      ∀ v : Valuation exWorld, NDArr.bin (· + ·) (v.phys exKmArr.toQ) (v.phys exOneM.toQ) = .ok (v.phys r.toQ)) ∧
    exNumpy.iaddLike (· + ·) exWorld exKmArr exOneM = .error .typeError ∧
    exNumpy.setUnits exWorld exKmArr dM = .error .typeError := by
  have hM := ex_dimOK dM (by simp)
  have hKm := ex_dimOK dKm (by simp)
  have hc := compatible_symm exWorld_wf ex_compat
  have hne' : ¬ SameContent dKm dM := fun h => ex_not_same_m_km h.symm
  refine ⟨?_, ?_, ?_, ?_⟩
  · obtain ⟨h1, h2⟩ := C54_rescale_value exNumpy_lawful exNumpy_exact exWorld_reachable exOneM dKm none hM hKm
      ex_safe_m_km ex_not_same_m_km
    obtain ⟨r, hr⟩ := h1.2 hc
    exact ⟨r, hr, (C54_rescale_dtype exNumpy_lawful exOneM r dKm none ex_safe_m_km ex_not_same_m_km hr).2.2.1 rfl rfl,
      (h2 r hr).2.2⟩
  · obtain ⟨h1, h2⟩ := C54_add exNumpy_lawful exNumpy_exact exWorld_reachable exKmArr exOneM hKm hM
      ex_safe_m_km ex_not_same_m_km
    obtain ⟨r, hr⟩ := h1.2 ⟨hc, rfl⟩
    exact ⟨r, hr, (h2 r hr).1, (h2 r hr).2.2⟩
  · exact (C54_inplace_int exNumpy_lawful exNumpy_exact exWorld_reachable (· + ·) exKmArr exOneM hKm hM
      ex_safe_m_km ex_not_same_m_km rfl).2 hc rfl
  · exact (C54_units_setter exNumpy_lawful exNumpy_exact exWorld_reachable exKmArr dM hKm hM
      ex_safe_km_m hne').2.1 ex_compat rfl

/-- C84 is false for item assignment: `q[0] = 1 m` on an array of integers in km stores 0 km, without any
error or warning. -/
theorem C84_false_assignment : ∃ (q x r : TQ ℝ), q.dtype = .int .b64 ∧
    DimOK exWorld q.dim ∧ DimOK exWorld x.dim ∧ exNumpy.setitem exWorld q [0] x = .ok r ∧
    ∀ v : Valuation exWorld, (v.phys r.toQ).elem [0] = 0 ∧ (v.phys x.toQ).elem [] ≠ 0 := by
  have hM := ex_dimOK dM (by simp)
  have hKm := ex_dimOK dKm (by simp)
  have hde : exWorld.deq dM dKm = false := ex_deq_m_km
  obtain ⟨o, ho⟩ := (C54_rescale_value exNumpy_lawful exNumpy_exact exWorld_reachable exOneM dKm
    (some (.float .f64)) hM hKm ex_safe_m_km ex_not_same_m_km).1.2 (compatible_symm exWorld_wf ex_compat)
  obtain ⟨cf, hcf, hof⟩ := rescaleT_cases hde ho
  obtain ⟨-, hval⟩ := applyFactor_exact exNumpy_lawful exNumpy_exact exOneM dKm (.float .f64) cf
  obtain ⟨hpos, hsz⟩ := convFactor_ok exWorld_wf hM hKm ex_safe_m_km.refs hcf
  obtain ⟨v, -⟩ := C09_valuations_exist exWorld_reachable (fun _ => 1) (fun _ => one_pos)
  have hlt : cf < 1 := by
    have h1 := hsz v
    have h2 : v.size dKm = 1000 * v.size dM := exSize_km v
    have h3 := v.size_pos dM
    rw [h2] at h1
    change v.size dM = _ at h1
    nlinarith
  have hel : o.mag.elem [] = cf := by
    have : o.toQ.mag.elem [] = cf * 1 := by
      rw [hof]
      change (exNumpy.applyFactor exOneM dKm (.float .f64) cf).toQ.mag.elem [] = _
      rw [hval]; rfl
    rw [mul_one] at this
    exact this
  have htr : truncZ cf = 0 := by
    unfold truncZ
    rw [if_pos hpos.le, Int.floor_eq_zero_iff]
    exact ⟨hpos.le, hlt⟩
  have hcast : exNumpy.cast (.int .b64) cf = 0 := by
    rw [exNumpy_lawful.int (.int .b64) _ _ rfl cf (by rw [htr]; norm_num [IBits.bits]) (by rw [htr]; norm_num [IBits.bits]), htr]
    simp
  refine ⟨exKmArr, exOneM, ⟨⟨[2], Function.update exKmArr.mag.elem [0] (exNumpy.cast (.int .b64) (o.mag.elem []))⟩, .int .b64, dKm⟩,
    rfl, hKm, hM, ?_, fun v => ⟨?_, ?_⟩⟩
  · unfold Numpy.setitem
    have : exWorld.dne exKmArr.dim exOneM.dim = true := by
      rw [dne_eq, deq_comm]; change (!exWorld.deq dM dKm) = true; rw [hde]; rfl
    simp only [this, if_true]
    have ho' : exNumpy.rescale exWorld exOneM exKmArr.dim (some (.float .f64)) = .ok o := ho
    simp only [ho']
    rfl
  · rw [hel, hcast]
    simp [Valuation.phys, TQ.toQ, NDArr.map]
  · change (1 : ℝ) * v.size dM ≠ 0
    rw [one_mul]; exact (v.size_pos _).ne'

/-- C84 is false for an explicit dtype: asked for integers, `rescale` truncates when the units are the
same and returns doubles when they are not. -/
theorem C84_false_explicit_dtype : ∃ (q : TQ ℝ) (r s : TQ ℝ), q.dtype = .float .f64 ∧ q.mag.elem [] = 3 / 2 ∧
    exNumpy.rescale exWorld q dM (some (.int .b64)) = .ok r ∧ r.dtype = .int .b64 ∧ r.mag.elem [] = 1 ∧
    exNumpy.rescale exWorld q dKm (some (.int .b64)) = .ok s ∧ s.dtype = .float .f64 := by
  have hM := ex_dimOK dM (by simp)
  have hKm := ex_dimOK dKm (by simp)
  obtain ⟨s, hs⟩ := (C54_rescale_value exNumpy_lawful exNumpy_exact exWorld_reachable
    ⟨NDArr.scalar (3 / 2), .float .f64, dM⟩ dKm
    (some (.int .b64)) hM hKm ex_safe_m_km ex_not_same_m_km).1.2 (compatible_symm exWorld_wf ex_compat)
  have hself : exWorld.deq dM dM = true := deq_self _ _
  have ht : truncZ (3 / 2 : ℝ) = 1 := by
    unfold truncZ
    rw [if_pos (by norm_num), Int.floor_eq_iff]
    norm_num
  refine ⟨⟨NDArr.scalar (3 / 2), .float .f64, dM⟩,
    exNumpy.astype (.int .b64) ⟨NDArr.scalar (3 / 2), .float .f64, dM⟩, s, rfl, rfl, ?_, rfl, ?_, hs, ?_⟩
  · unfold Numpy.rescale
    simp only [hself, if_true, Option.getD_some]
  · change exNumpy.cast (.int .b64) (3 / 2) = 1
    rw [exNumpy_lawful.int (.int .b64) _ _ rfl _ (by rw [ht]; norm_num [IBits.bits]) (by rw [ht]; norm_num [IBits.bits]), ht]
    simp
  · obtain ⟨cf, -, rfl⟩ := rescaleT_cases (by exact ex_deq_m_km) hs
    rfl

/-- C84 is false for `astype` on a unit: the requested dtype is ignored. -/
theorem C84_false_unit_astype : ∀ (N : Numpy ℝ) (t : DType) (u : UKey),
    (N.unitAstype t u : TQ ℝ).dtype = .float .f64 := fun _ _ _ => rfl

end PQ
