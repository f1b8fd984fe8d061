import Verif.Model.Unary
import Verif.Props.Arithmetic
import Verif.Props.Ufuncs
import Verif.Props.Dispatch

/-!
# C133, C134: operators of one quantity
-/

namespace PQ

open NDArr LawfulRPow

variable {K : Type _} [Field K] [LinearOrder K] [IsStrictOrderedRing K] [RPow K] [LawfulRPow K]
variable {h : Hasher} {w : World K}

/-- `-q` always returns: same units and shape, every element has the opposite physical value, and doing it
twice gives `q` back. -/
theorem C133_neg (w : World K) (q : Quantity K) :
    ∃ r, q.neg w = .ok r ∧ r.dim = q.dim ∧ r.mag.shape = q.mag.shape ∧ r.neg w = .ok q ∧
      ∀ (v : Valuation w) (i : List Nat), (v.phys r).elem i = -(v.phys q).elem i := by
  refine ⟨⟨q.mag.map (fun x => -x), q.dim⟩, rfl, rfl, rfl, ?_, fun v i => ?_⟩
  · have : (q.mag.map (fun x => -x)).map (fun x => -x) = q.mag := by
      rw [NDArr.map_map]; exact NDArr.map_id' (fun x => neg_neg x) _
    change Except.ok (⟨(q.mag.map (fun x => -x)).map (fun x => -x), q.dim⟩ : Quantity K) = _
    rw [this]
  · exact neg_mul (q.mag.elem i) (v.size q.dim)

/-- `a - b` is `a + (-b)`, units, elements and exceptions included. -/
theorem C133_sub_is_add_neg (w : World K) (a b : Quantity K) :
    ∃ nb, b.neg w = .ok nb ∧ a.sub w (.quantity b) = a.add w (.quantity nb) := by
  refine ⟨⟨b.mag.map (fun x => -x), b.dim⟩, rfl, ?_⟩
  have key : Quantity.scaleOther w a (.quantity ⟨b.mag.map (fun x => -x), b.dim⟩) =
      (Quantity.scaleOther w a (.quantity b)).map (fun o => ⟨o.mag.map (fun x => -x), o.dim⟩) := by
    unfold Quantity.scaleOther Quantity.rescale
    simp only [Operand.toQuantity]
    by_cases h1 : w.dne b.dim a.dim = true
    · simp only [h1, if_true]
      by_cases h2 : w.deq b.dim a.dim = true
      · simp only [h2, if_true]; rfl
      · simp only [h2]
        rcases w.convFactor b.dim a.dim with e | cf
        · cases e <;> rfl
        · simp only [Except.map, NDArr.map_map, mul_neg, Bool.false_eq_true, if_false]
    · simp only [h1]; rfl
  unfold Quantity.sub Quantity.add
  rw [key]
  rcases Quantity.scaleOther w a (.quantity b) with e | o
  · rfl
  · simp only [Except.map]
    unfold applyUF2
    have hd : ufunc2Dim w .subtract (.quantity a) (.quantity o) =
        ufunc2Dim w .add (.quantity a) (.quantity ⟨o.mag.map (fun x => -x), o.dim⟩) := rfl
    rw [hd]
    rcases ufunc2Dim w .add (.quantity a) (.quantity ⟨o.mag.map (fun x => -x), o.dim⟩) with e | d
    · rfl
    · simp only [Operand.arr]
      have : NDArr.bin (fun x y : K => x + y) a.mag (o.mag.map (fun x => -x)) =
          NDArr.bin (fun x y : K => x - y) a.mag o.mag := by
        unfold NDArr.bin
        simp only [NDArr.map, sub_eq_add_neg]
      rw [this]

/-- `abs(q)` always returns: same units and shape, every element has the absolute physical value. -/
theorem C133_abs (w : World K) (q : Quantity K) :
    ∃ r, q.absOp w = .ok r ∧ r.dim = q.dim ∧ r.mag.shape = q.mag.shape ∧
      ∀ (v : Valuation w) (i : List Nat), (v.phys r).elem i = |(v.phys q).elem i| := by
  refine ⟨⟨q.mag.map (fun x => |x|), q.dim⟩, rfl, rfl, rfl, fun v i => ?_⟩
  change |q.mag.elem i| * v.size q.dim = |q.mag.elem i * v.size q.dim|
  rw [abs_mul, abs_of_pos (v.size_pos q.dim)]

omit [LinearOrder K] [IsStrictOrderedRing K] [LawfulRPow K] [Field K] in
/-- `x ** q` with a plain base: it returns exactly when the exponent has no units, is one and the same number
throughout and its shape broadcasts with the base; the result has no units and its elements are the powers;
otherwise it raises `ValueError`. -/
theorem C133_rpow (base : NDArr K) (e : ExpArg) :
    (Returns (Quantity.rpowOp base e) ↔ (∀ d, e.dim = some d → d = []) ∧
      (∃ i p, NDArr.InB e.vals.shape i ∧ e.vals.elem i = p ∧ NDArr.All (fun x => x = p) e.vals) ∧
      (NDArr.bshape base.shape e.vals.shape).isSome) ∧
    (∀ x, Quantity.rpowOp base e = .error x → x = .valueError) ∧
    (∀ r, Quantity.rpowOp base e = .ok r → r.dim = [] ∧
      NDArr.bin (fun x p => rpow x p) base e.vals = .ok r.mag) := by
  have hdims : hasDims e.dim = false ↔ ∀ x, e.dim = some x → x = [] := by
    rcases e.dim with (_ | _ | _) <;> simp [hasDims]
  have huni : ∀ p : ℚ, uniformExp e.vals = .ok p ↔
      (∃ i, NDArr.InB e.vals.shape i ∧ e.vals.elem i = p) ∧ NDArr.All (fun x => x = p) e.vals := by
    intro p
    rw [NDArr.all_iff_toList, ← NDArr.mem_toList]
    unfold uniformExp
    rcases e.vals.toList with _ | ⟨q, l⟩
    · simp
    · simp only
      by_cases hl : l.all (fun x => decide (x = q)) = true
      · rw [if_pos hl]
        simp only [List.all_eq_true, decide_eq_true_eq] at hl
        constructor
        · intro he
          cases he
          exact ⟨by simp, by simpa using hl⟩
        · rintro ⟨-, h2⟩
          rw [h2 q (by simp)]
      · rw [if_neg hl]
        simp only [List.all_eq_true, decide_eq_true_eq] at hl
        constructor
        · intro he; cases he
        · rintro ⟨-, h2⟩
          exact absurd (fun x hx => (h2 x (by simp [hx])).trans (h2 q (by simp)).symm) hl
  have herr : ∀ x, uniformExp e.vals = .error x → x = .valueError := by
    intro x hx
    unfold uniformExp at hx
    rcases hl : e.vals.toList with _ | ⟨q, l⟩
    · rw [hl] at hx; cases hx; rfl
    · rw [hl] at hx
      simp only at hx
      split at hx
      · cases hx
      · cases hx; rfl
  unfold Quantity.rpowOp dPower
  cases hd : hasDims e.dim with
  | true =>
    simp only [if_true]
    refine ⟨⟨fun h => absurd h (not_returns_error _), fun h => ?_⟩, fun x hx => (by cases hx; rfl), fun r hr => (by cases hr)⟩
    have := hdims.mpr h.1
    rw [hd] at this; cases this
  | false =>
    simp only [Bool.false_eq_true, if_false]
    rcases hu : uniformExp e.vals with x | p
    · simp only
      refine ⟨⟨fun h => absurd h (not_returns_error _), fun h => ?_⟩, fun y hy => (by cases hy; exact herr _ hu),
        fun r hr => by cases hr⟩
      obtain ⟨-, ⟨i, p, h1, h2, h3⟩, -⟩ := h
      have := (huni p).mpr ⟨⟨i, h1, h2⟩, h3⟩
      rw [hu] at this; cases this
    · simp only
      obtain ⟨⟨i, h1, h2⟩, h3⟩ := (huni p).mp hu
      rcases hb : NDArr.bin (fun x p => rpow x p) base e.vals with x | m
      · simp only
        refine ⟨⟨fun h => absurd h (not_returns_error _), fun h => ?_⟩, fun y hy => (by cases hy; exact bin_error hb),
          fun r hr => by cases hr⟩
        obtain ⟨r, hr⟩ := (bin_ok_iff (f := fun (x : K) (p : ℚ) => rpow x p) (a := base) (b := e.vals)).mpr h.2.2
        rw [hb] at hr; cases hr
      · simp only
        refine ⟨⟨fun _ => ⟨hdims.mp hd, ⟨i, p, h1, h2, h3⟩, (bin_ok_iff (f := fun (x : K) (p : ℚ) => rpow x p) (a := base) (b := e.vals)).mp ⟨_, hb⟩⟩, fun _ => ⟨_, rfl⟩⟩,
          fun x hx => (by cases hx), fun r hr => by cases hr; exact ⟨rfl, rfl⟩⟩

/-- `bool(q)` of one element says whether its physical value is not zero; of several it raises
`ValueError`. -/
theorem C133_bool (q : Quantity K) :
    (∀ i, q.mag.size = 1 → NDArr.InB q.mag.shape i →
      ∃ b, q.truth = .ok b ∧ ∀ v : Valuation w, b = true ↔ (v.phys q).elem i ≠ 0) ∧
    (1 < q.mag.size → q.truth = .error .valueError) := by
  have hlen := toList_length q.mag
  unfold Quantity.truth
  constructor
  · intro i h1 hi
    rw [h1] at hlen
    obtain ⟨x, hx⟩ := List.length_eq_one_iff.mp hlen
    have hmem : q.mag.elem i ∈ q.mag.toList := NDArr.mem_toList.mpr ⟨i, hi, rfl⟩
    rw [hx] at hmem ⊢
    have he : q.mag.elem i = x := by simpa using hmem
    refine ⟨_, rfl, fun v => ?_⟩
    simp [Valuation.phys, NDArr.map, he, (v.size_pos q.dim).ne']
  · intro h1
    rw [← hlen] at h1
    match hq : q.mag.toList, h1 with
    | [], h1 => simp at h1
    | [x], h1 => simp at h1
    | x :: y :: l, _ => rfl

/-- The statements speak of real programs: `-(3 km)`, `abs(-3 km)`, `2 ** (3 dimensionless)` and a truth
value. -/
example : (∃ r, (⟨NDArr.scalar (-3), dKm⟩ : Quantity ℝ).absOp exWorld = .ok r ∧
      ∀ v : Valuation exWorld, (v.phys r).elem [] = 3 * v.size dKm) ∧
    Returns (Quantity.rpowOp (NDArr.scalar (2 : ℝ)) ⟨NDArr.scalar 3, some []⟩) ∧
    (∃ b, (⟨NDArr.scalar (-3), dKm⟩ : Quantity ℝ).truth = .ok b ∧ b = true) := by
  refine ⟨?_, ?_, ?_⟩
  · obtain ⟨r, h1, -, -, h4⟩ := C133_abs exWorld (⟨NDArr.scalar (-3), dKm⟩ : Quantity ℝ)
    refine ⟨r, h1, fun v => ?_⟩
    rw [h4 v []]
    have := v.size_pos dKm
    simp [Valuation.phys, NDArr.map, NDArr.scalar, abs_of_pos this]
  · exact (C133_rpow _ _).1.mpr ⟨by simp, ⟨[], 3, .nil, rfl, fun _ _ => rfl⟩, rfl⟩
  · obtain ⟨b, h1, h2⟩ := (C133_bool (w := exWorld) (⟨NDArr.scalar (-3), dKm⟩ : Quantity ℝ)).1 [] rfl .nil
    obtain ⟨v⟩ := exists_valuation exWorld_wf
    refine ⟨b, h1, (h2 v).mpr ?_⟩
    have := v.size_pos dKm
    simp [Valuation.phys, NDArr.map, NDArr.scalar, this.ne']

/-! ## C134: operators that fail although they make sense -/

/-- `+q` raises `ValueError` for every quantity. -/
theorem C134_pos_false (w : World K) (q : Quantity K) : q.pos w = .error .valueError := rfl

/-- `divmod(a, b)` raises `ValueError` for every pair, although `a // b` and `a % b` exist. -/
theorem C134_divmod_false (w : World K) (q : Quantity K) (o : Operand K) : q.divmod w o = .error .valueError := by
  unfold Quantity.divmod; rfl

/-- `x ** q` with exponents that differ raises `ValueError` even when they are pure numbers, where the same
powers one at a time return. -/
theorem C134_rpow_false : ∃ e : ExpArg, e.dim = some [] ∧
    Quantity.rpowOp (NDArr.scalar (10 : ℝ)) e = .error .valueError ∧
    ∀ i, NDArr.InB e.vals.shape i → Returns (Quantity.rpowOp (NDArr.scalar (10 : ℝ)) ⟨NDArr.scalar (e.vals.elem i), some []⟩) := by
  refine ⟨⟨⟨[2], fun i => if i = [0] then 1 else 2⟩, some []⟩, rfl, ?_, fun i _ => ?_⟩
  · unfold Quantity.rpowOp dPower
    rfl
  · exact (C133_rpow _ _).1.mpr ⟨by simp, ⟨[], _, .nil, rfl, fun _ _ => rfl⟩, rfl⟩

/-- `float(q)` drops the units without complaint: of two equal quantities it can give different numbers. -/
theorem C134_float_false : ∃ a b : Quantity ℝ, DimOK exWorld a.dim ∧ DimOK exWorld b.dim ∧
    (∀ v : Valuation exWorld, v.phys a = v.phys b) ∧ a.toFloat = .ok 1 ∧ b.toFloat = .ok 1000 := by
  refine ⟨⟨NDArr.scalar 1, dKm⟩, ⟨NDArr.scalar 1000, dM⟩, ex_dimOK _ (by simp), ex_dimOK _ (by simp), fun v => ?_, rfl, rfl⟩
  have hkm : v.size dKm = 1000 * v.size dM := by
    have := v.defined uKm (exWorld.info uKm |>.get (by rfl)) ⟨1000, dM⟩ (by rfl) (by rfl)
    simp only [Valuation.size, dKm, dM, dsize_cons, dsize_nil, mul_one, LawfulRPow.rpow_one] at this ⊢
    exact this
  simp only [Valuation.phys, NDArr.map, NDArr.scalar, hkm, one_mul]

/-- C134, proved part: `float(q)` of a quantity without units is its value.  Missing: quantities with units, see
`C134_float_false`. -/
theorem C134_float_partial (q : Quantity K) (i : List Nat) (h1 : q.mag.size = 1) (hi : NDArr.InB q.mag.shape i)
    (hd : q.dim = []) : ∃ x, q.toFloat = .ok x ∧ ∀ v : Valuation w, x = (v.phys q).elem i := by
  have hlen := toList_length q.mag
  rw [h1] at hlen
  obtain ⟨x, hx⟩ := List.length_eq_one_iff.mp hlen
  have hmem : q.mag.elem i ∈ q.mag.toList := NDArr.mem_toList.mpr ⟨i, hi, rfl⟩
  rw [hx] at hmem
  have he : q.mag.elem i = x := by simpa using hmem
  refine ⟨x, by unfold Quantity.toFloat; rw [hx], fun v => ?_⟩
  simp [Valuation.phys, NDArr.map, he, hd, Valuation.size, dsize]

end PQ
