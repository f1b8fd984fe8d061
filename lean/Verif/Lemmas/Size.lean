import Verif.Lemmas.Dim
import Verif.Spec.Physical
import Mathlib.Algebra.BigOperators.Group.List.Basic
import Mathlib.Tactic.FieldSimp

/-! # Lemmas about sizes of compound units -/

namespace PQ

open Dict LawfulRPow

variable {K : Type _} [Field K] [LinearOrder K] [IsStrictOrderedRing K] [RPow K] [LawfulRPow K]

omit [LinearOrder K] [IsStrictOrderedRing K] [LawfulRPow K] in
@[simp] theorem dsize_nil (val : UKey → K) : dsize val [] = 1 := rfl

omit [LinearOrder K] [IsStrictOrderedRing K] [LawfulRPow K] in
theorem dsize_cons (val : UKey → K) (kv : UKey × ℚ) (d : Dim) :
    dsize val (kv :: d) = rpow (val kv.1) kv.2 * dsize val d := by
  simp [dsize]

theorem dsize_pos {val : UKey → K} (h : ∀ u, 0 < val u) (d : Dim) : 0 < dsize val d := by
  induction d with
  | nil => simp
  | cons kv d ih => rw [dsize_cons]; exact mul_pos (rpow_pos _ _ (h _)) ih

omit [LinearOrder K] [IsStrictOrderedRing K] [LawfulRPow K] in
theorem dsize_perm (val : UKey → K) {a b : Dim} (h : a.Perm b) : dsize val a = dsize val b :=
  (h.map _).prod_eq

omit [LinearOrder K] [IsStrictOrderedRing K] [LawfulRPow K] in
theorem dsize_same (val : UKey → K) {a b : Dim} (ha : Nodup a) (hb : Nodup b)
    (h : SameContent a b) : dsize val a = dsize val b :=
  dsize_perm val (perm_of_get?_eq ha hb h)

omit [LinearOrder K] [IsStrictOrderedRing K] [LawfulRPow K] in
theorem dsize_congr {val val' : UKey → K} {d : Dim} (h : ∀ kv ∈ d, val kv.1 = val' kv.1) :
    dsize val d = dsize val' d := by
  unfold dsize
  congr 1
  exact List.map_congr_left fun kv hk => by rw [h kv hk]

omit [LinearOrder K] [IsStrictOrderedRing K] [LawfulRPow K] in
theorem dsize_set_none (val : UKey → K) {d : Dim} {k : UKey} (v : ℚ) (h : get? d k = none) :
    dsize val (Dict.set d k v) = dsize val d * rpow (val k) v := by
  induction d with
  | nil => simp [Dict.set, dsize]
  | cons a d ih =>
    obtain ⟨a, b⟩ := a
    by_cases h1 : a = k
    · simp [get?_cons, h1] at h
    · simp only [get?_cons, h1, if_false] at h
      simp only [Dict.set, h1, if_false, dsize_cons, ih h, mul_assoc]

omit [LinearOrder K] [IsStrictOrderedRing K] [LawfulRPow K] in
theorem dsize_set_some (val : UKey → K) {d : Dim} {k : UKey} {e : ℚ} (v : ℚ)
    (h : get? d k = some e) :
    dsize val (Dict.set d k v) * rpow (val k) e = dsize val d * rpow (val k) v := by
  induction d with
  | nil => simp at h
  | cons a d ih =>
    obtain ⟨a, b⟩ := a
    by_cases h1 : a = k
    · subst h1
      simp only [get?_cons, if_true, Option.some.injEq] at h; subst h
      simp only [Dict.set, if_true, dsize_cons]; ring
    · simp only [get?_cons, h1, if_false] at h
      simp only [Dict.set, h1, if_false, dsize_cons, mul_assoc, ih h]

omit [LinearOrder K] [IsStrictOrderedRing K] [LawfulRPow K] in
theorem dsize_pop (val : UKey → K) {d : Dim} {k : UKey} {e : ℚ} (h : get? d k = some e) :
    dsize val (Dict.pop d k) * rpow (val k) e = dsize val d := by
  induction d with
  | nil => simp at h
  | cons a d ih =>
    obtain ⟨a, b⟩ := a
    by_cases h1 : a = k
    · subst h1
      simp only [get?_cons, if_true, Option.some.injEq] at h; subst h
      simp only [Dict.pop, if_true, dsize_cons]; ring
    · simp only [get?_cons, h1, if_false] at h
      simp only [Dict.pop, h1, if_false, dsize_cons, mul_assoc, ih h]

theorem dsize_mulStep {val : UKey → K} (hv : ∀ u, 0 < val u) (d : Dim) (kv : UKey × ℚ) :
    dsize val (Dim.mulStep d kv) = dsize val d * rpow (val kv.1) kv.2 := by
  unfold Dim.mulStep
  rcases hg : get? d kv.1 with _ | e
  · exact dsize_set_none val _ hg
  · have h1 := dsize_set_some val (e + kv.2) hg
    have hpe : rpow (val kv.1) e ≠ 0 := (rpow_pos _ _ (hv _)).ne'
    have h2 : dsize val (Dict.set d kv.1 (e + kv.2)) = dsize val d * rpow (val kv.1) kv.2 := by
      rw [rpow_add _ _ _ (hv _)] at h1
      have : dsize val (Dict.set d kv.1 (e + kv.2)) * rpow (val kv.1) e
          = (dsize val d * rpow (val kv.1) kv.2) * rpow (val kv.1) e := by rw [h1]; ring
      exact mul_right_cancel₀ hpe this
    simp only
    split
    · rename_i h0
      have h3 : get? (Dict.set d kv.1 (e + kv.2)) kv.1 = some (e + kv.2) := by simp [get?_set]
      have h4 := dsize_pop val h3
      rw [h0, rpow_zero, mul_one] at h4
      rw [h0] at h2
      rw [← h2, ← h4, h0]
    · exact h2

theorem dsize_mul {val : UKey → K} (hv : ∀ u, 0 < val u) (a b : Dim) :
    dsize val (Dim.mul a b) = dsize val a * dsize val b := by
  unfold Dim.mul
  induction b generalizing a with
  | nil => simp
  | cons kv b ih => rw [List.foldl_cons, ih, dsize_mulStep hv, dsize_cons, mul_assoc]

theorem dsize_pow {val : UKey → K} (hv : ∀ u, 0 < val u) (a : Dim) (p : ℚ) :
    dsize val (Dim.pow a p) = rpow (dsize val a) p := by
  unfold Dim.pow
  split
  · rename_i h; subst h; simp [rpow_zero]
  · rename_i h
    induction a with
    | nil =>
      simp only [List.map_nil, dsize_nil]
      have h1 : rpow (1 : K) p * rpow (1 : K) p = rpow (1 : K) p * 1 := by
        rw [← mul_rpow (1 : K) 1 p one_pos one_pos]; simp
      exact (mul_left_cancel₀ (rpow_pos _ _ one_pos).ne' h1).symm
    | cons kv a ih =>
      rw [List.map_cons, dsize_cons, dsize_cons, ih, mul_rpow _ _ _ (rpow_pos _ _ (hv _))
        (dsize_pos hv _), rpow_rpow _ _ _ (hv _)]

theorem rpow_one_left (p : ℚ) : rpow (1 : K) p = 1 := by
  have h1 : rpow (1 : K) p * rpow (1 : K) p = rpow (1 : K) p * 1 := by
    rw [← mul_rpow (1 : K) 1 p one_pos one_pos]; simp
  exact mul_left_cancel₀ (rpow_pos _ _ one_pos).ne' h1

theorem rpow_neg_one {a : K} (h : 0 < a) : rpow a (-1) = a⁻¹ := by
  have := rpow_intCast a (-1) h.ne'
  simpa using this

theorem dsize_div {val : UKey → K} (hv : ∀ u, 0 < val u) (a b : Dim) :
    dsize val (Dim.div a b) = dsize val a / dsize val b := by
  rw [div_eq_mul, dsize_mul hv]
  have h1 : negDim b = Dim.pow b (-1) := by
    unfold negDim Dim.pow; rw [if_neg (by norm_num)]; simp
  rw [h1, dsize_pow hv, rpow_neg_one (dsize_pos hv b), div_eq_mul_inv]

end PQ
