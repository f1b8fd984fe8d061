import Verif.Lemmas.FloatExponents2
import Verif.Props.Dimensionality

/-!
# C126, C127: exponents that are Python numbers

The claims C01-C03 about unit algebra, for exponents as they are in Python: integers and IEEE doubles.
-/

namespace PQ
open Dict

/-- The metre, as a dict key, for the counterexamples. -/
def meterKey : UKey := ⟨.length, "meter"⟩

/-! ## Where the algebra is exact -/

/-- With integer powers of any size nothing is ever rounded: no unit twice, no exponent zero, and every
exponent is the mathematical one. -/
theorem C126_integers (e : NExpr) (h : e.Integral) :
    Canon e.eval.exact ∧ ∀ u, NDim.expo e.eval u = e.exponent u :=
  ⟨(NExpr.eval_ints h).1.canon, (NExpr.eval_ints h).2.2⟩

/-- With float powers the same holds as long as every exponent that occurs on the way is a double. -/
theorem C126_doubles (e : NExpr) (h : e.NoRounding) :
    Canon e.eval.exact ∧ (∀ u, NDim.expo e.eval u = e.exponent u) ∧
    (e.eval = [] ↔ ∀ u, e.exponent u = 0) := by
  obtain ⟨c, ex⟩ := NExpr.eval_exact h
  refine ⟨c.canon, ex, ?_, ?_⟩
  · intro he u; rw [← ex u, he]; rfl
  · intro hz
    have : e.eval.exact = [] := c.canon.eq_nil (fun u => by rw [NDim.expo_exact, ex u, hz u])
    exact List.map_eq_nil_iff.mp this

/-- `m**0.5 * m**1.5 / m**2` is such an expression, and cancels. -/
private def halves : NExpr :=
  .div (.mul (.pow (.unit meterKey) (.flt (1 / 2))) (.pow (.unit meterKey) (.flt (3 / 2)))) (.pow (.unit meterKey) (.int 2))

private theorem isDouble_half (n : ℤ) (h : |n| ≤ 2 ^ 53) : IsDouble (n / 2) :=
  ⟨n, -1, h, by norm_num, by rw [zpow_neg, zpow_one]; rfl⟩

private theorem halves_noRounding : halves.NoRounding := by
  have d : ∀ n : ℤ, |n| ≤ 2 ^ 53 → IsDouble (n / 2) := isDouble_half
  have d0 := IsDouble.zero
  have d1 := d 1 (by norm_num)
  have d3 := d 3 (by norm_num)
  have d4 := d 4 (by norm_num)
  norm_num at d1 d3 d4
  refine ⟨⟨⟨trivial, ?_, ?_⟩, ⟨trivial, ?_, ?_⟩, ?_⟩, ⟨trivial, ?_, ?_⟩, ?_⟩
  · simpa [PyExp.val] using d1
  · intro u; simp only [NExpr.exponent, PyExp.val]; split <;> norm_num <;> assumption
  · simpa [PyExp.val] using d3
  · intro u; simp only [NExpr.exponent, PyExp.val]; split <;> norm_num <;> assumption
  · intro u; simp only [NExpr.exponent, PyExp.val]; split <;> norm_num <;> assumption
  · simpa [PyExp.val] using d4
  · intro u; simp only [NExpr.exponent, PyExp.val]; split <;> norm_num <;> assumption
  · intro u; simp only [NExpr.exponent, PyExp.val]; split <;> norm_num <;> assumption

example : halves.eval = [] :=
  (C126_doubles halves halves_noRounding).2.2.mpr (by
    intro u; simp only [halves, NExpr.exponent, PyExp.val]; split <;> norm_num)

/-! ## How far the exponents are off otherwise -/

/-- `y` is `x`, or the double nearest to it. -/
def Rounded (x y : ℚ) : Prop := y = x ∨ Nearest x y

/-- Each operation rounds each exponent once, correctly: the exponent in the result is the exact one or
the double nearest to it; a unit disappears from a product or quotient exactly when its computed exponent
is zero. -/
theorem C126_rounding (a b : NDim) (ha : Dict.Nodup a) (hb : Dict.Nodup b)
    (oa : ∀ kv ∈ a, IsDouble kv.2.val) (ob : ∀ kv ∈ b, IsDouble kv.2.val) (u : UKey) :
    Rounded (NDim.expo a u + NDim.expo b u) (NDim.expo (NDim.mul a b) u) ∧
    Rounded (NDim.expo a u - NDim.expo b u) (NDim.expo (NDim.div a b) u) ∧
    (∀ p : PyExp, IsDouble p.val → Rounded (NDim.expo a u * p.val) (NDim.expo (NDim.pow a p) u)) := by
  have hoa : ∀ u x, get? a u = some x → x.Ordinary := fun u x h => oa (u, x) (mem_of_get? h)
  have hob : ∀ u x, get? b u = some x → x.Ordinary := fun u x h => ob (u, x) (mem_of_get? h)
  refine ⟨?_, ?_, ?_⟩
  · unfold NDim.expo
    rw [NDim.get?_mul ha hb]
    rcases hx : get? a u with _ | x <;> rcases hy : get? b u with _ | y <;> simp only [NDim.comb]
    · left; simp
    · left; simp
    · left; simp
    · have e : ((if (x.add y).val = 0 then none else some (x.add y)).map PyExp.val).getD 0 =
          (x.add y).val := by
        split
        · rename_i h0; rw [h0]; rfl
        · rfl
      rw [e]
      show Rounded (x.val + y.val) _
      rcases PyExp.add_val (hoa u x hx) (hob u y hy) with h | h
      · left; exact h
      · right; rw [h]; exact toDouble_nearest _
  · unfold NDim.expo
    rw [NDim.get?_div ha hb]
    rcases hx : get? a u with _ | x <;> rcases hy : get? b u with _ | y <;> simp only [NDim.comb]
    · left; simp
    · left; simp [PyExp.val_neg]
    · left; simp
    · have e : ((if (x.sub y).val = 0 then none else some (x.sub y)).map PyExp.val).getD 0 =
          (x.sub y).val := by
        split
        · rename_i h0; rw [h0]; rfl
        · rfl
      rw [e]
      show Rounded (x.val - y.val) _
      rcases PyExp.sub_val (hoa u x hx) (hob u y hy) with h | h
      · left; exact h
      · right; rw [h]; exact toDouble_nearest _
  · intro p hp
    by_cases p0 : p.val = 0
    · left; rw [NDim.pow, if_pos p0, p0, mul_zero]; rfl
    · unfold NDim.expo
      rw [NDim.get?_pow _ p0]
      rcases hx : get? a u with _ | x
      · left; simp
      · show Rounded (x.val * p.val) (x.mul p).val
        rcases PyExp.mul_val (hoa u x hx) hp with h | h
        · left; exact h
        · right; rw [h]; exact toDouble_nearest _

/-! Two integers between two doubles: to the even one, down and up. -/
example : toDouble (2 ^ 53 + 1) = 2 ^ 53 ∧ toDouble (2 ^ 53 + 3) = 2 ^ 53 + 4 := by decide +kernel

/-- Rounding is by at most one part in `2^53`, for exponents that are not tiny. -/
theorem C126_error (x y : ℚ) (h : Rounded x y) (hx : 2 ^ (-1022 : ℤ) ≤ |x|) :
    |y - x| ≤ 2 ^ (-53 : ℤ) * |x| := by
  rcases h with rfl | h
  · rw [sub_self, abs_zero]; exact mul_nonneg (two_zpow_pos _).le (abs_nonneg _)
  · exact (h.2.1 _ (toDouble_isDouble x)).trans (toDouble_err hx)

example : Rounded (toDouble (1 / 10) + toDouble (2 / 10))
    (NDim.expo (NDim.mul [(meterKey, .flt (toDouble (1 / 10)))] [(meterKey, .flt (toDouble (2 / 10)))]) meterKey) :=
  (C126_rounding _ _ (by simp [Dict.Nodup]) (by simp [Dict.Nodup])
    (by intro kv h; rw [List.mem_singleton] at h; subst h; exact toDouble_isDouble _)
    (by intro kv h; rw [List.mem_singleton] at h; subst h; exact toDouble_isDouble _) meterKey).1

/-! ## Laws that survive rounding -/

/-- Whatever was rounded on the way, `d / d` is dimensionless, and `a * b` and `b * a` have the same
content. -/
theorem C126_laws (a b : NDim) (ha : Dict.Nodup a) (hb : Dict.Nodup b) :
    NDim.div a a = [] ∧ (∀ u, get? (NDim.mul a b) u = get? (NDim.mul b a) u) := by
  refine ⟨?_, ?_⟩
  · have : ∀ u, get? (NDim.div a a) u = none := by
      intro u
      rw [NDim.get?_div ha ha]
      rcases get? a u with _ | x
      · rfl
      · simp only [NDim.comb]; rw [if_pos (PyExp.sub_self x)]
    rcases h : NDim.div a a with _ | ⟨kv, d⟩
    · rfl
    · have := this kv.1
      rw [h, get?_eq_none_iff] at this
      simp at this
  · intro u
    rw [NDim.get?_mul ha hb, NDim.get?_mul hb ha]
    rcases get? a u with _ | x <;> rcases get? b u with _ | y <;> simp only [NDim.comb, id]
    rw [PyExp.add_comm]

/-- Square roots and squares: for exponents that are integers below `2^53`, `(d**0.5)**2` has the content
of `d`. -/
theorem C126_sqrt (d : NDim)
    (hi : ∀ kv ∈ d, ∃ n : ℤ, |n| ≤ 2 ^ 53 ∧ kv.2.val = n) :
    SameContent (NDim.pow (NDim.pow d (.flt (1 / 2))) (.int 2)).exact d.exact := by
  intro u
  have h1 : (PyExp.flt (1 / 2)).val ≠ 0 := by norm_num [PyExp.val]
  have h2 : (PyExp.int 2).val ≠ 0 := by norm_num [PyExp.val]
  rw [NDim.get?_exact, NDim.get?_exact, NDim.get?_pow _ h2, NDim.get?_pow _ h1]
  rcases hx : get? d u with _ | x
  · rfl
  · obtain ⟨n, hn, e⟩ := hi (u, x) (mem_of_get? hx)
    simp only at e
    have dhalf : IsDouble (PyExp.flt (1 / 2)).val := by
      simpa [PyExp.val] using isDouble_half 1 (by norm_num)
    have ox : x.Ordinary := by unfold PyExp.Ordinary; rw [e]; exact isDouble_int hn
    have m1 : (x.mul (.flt (1 / 2))).val = n / 2 := by
      rw [PyExp.mul_exact ox dhalf (by
        rw [e]; simpa [PyExp.val, div_eq_mul_inv] using isDouble_half n hn), e]
      simp [PyExp.val, div_eq_mul_inv]
    have o1 : (x.mul (.flt (1 / 2))).Ordinary := by
      unfold PyExp.Ordinary; rw [m1]; exact isDouble_half n hn
    have v2 : (PyExp.int 2).val = 2 := by simp [PyExp.val]
    have o2 : (PyExp.int 2).Ordinary := by
      unfold PyExp.Ordinary; rw [v2]; exact_mod_cast isDouble_int (n := 2) (by norm_num)
    have m2 : ((x.mul (.flt (1 / 2))).mul (.int 2)).val = n := by
      have em : (x.mul (.flt (1 / 2))).val * (PyExp.int 2).val = n := by rw [m1, v2]; ring
      rw [PyExp.mul_exact o1 o2 (by rw [em]; exact isDouble_int hn), em]
    simp only [Option.map_some]
    rw [m2, e]

/-! ## Equality of dimensionalities -/

/-- `==` on dimensionalities does not depend on the order of insertion, also with float exponents. -/
theorem C126_order_independent (H : Hasher) (ord : UKey → Nat × Nat) (a b : NDim)
    (ha : Dict.Nodup a) (hb : Dict.Nodup b) (h : ∀ u, get? a u = get? b u) :
    NDim.eq H ord a b = true := by
  have hp := perm_of_get?_eq ha hb h
  have : NDim.hash H ord a = NDim.hash H ord b := by
    unfold NDim.hash
    rw [foldl_xor_perm (fun kv : UKey × PyExp => H.item kv.1 (NDim.hashed kv.2).val) _
      (((List.mergeSort_perm a _).trans hp).trans (List.mergeSort_perm b _).symm)]
  simp [NDim.eq, this]

/-- For exponents that are integers, or not negative, or multiples of `2^-k` below `2^(53-k)` (so that
nothing is lost when 1 is subtracted), `==` is that of the model with exact exponents, to which C04 and C05
apply. -/
theorem C126_equality (H : Hasher) (ord : UKey → Nat × Nat) (a b : NDim)
    (ha : ∀ kv ∈ a, kv.2.val < 0 → (∃ n, kv.2 = .int n) ∨ IsDouble (kv.2.val - 1))
    (hb : ∀ kv ∈ b, kv.2.val < 0 → (∃ n, kv.2 = .int n) ∨ IsDouble (kv.2.val - 1)) :
    NDim.eq H ord a b = Dim.eq H ord a.exact b.exact := by
  have key : ∀ d : NDim, (∀ kv ∈ d, kv.2.val < 0 → (∃ n, kv.2 = .int n) ∨ IsDouble (kv.2.val - 1)) →
      NDim.hash H ord d = Dim.hash H ord d.exact := by
    intro d hd
    have item : ∀ kv ∈ d, (NDim.hashed kv.2).val = hashedExponent kv.2.val := by
      rintro ⟨u, v⟩ hkv
      have := hd _ hkv
      simp only at this ⊢
      unfold NDim.hashed hashedExponent
      by_cases hv : v.val < 0
      · rw [if_pos hv, if_pos hv]
        rcases v with n | x
        · simp [PyExp.sub, PyExp.val]
        · rcases this hv with ⟨n, hn⟩ | h
          · cases hn
          · have one : toDouble 1 = 1 := toDouble_of_isDouble IsDouble.one
            show toDouble (x - toDouble ((1 : ℤ) : ℚ)) = x - 1
            rw [Int.cast_one, one]; exact toDouble_of_isDouble h
      · rw [if_neg hv, if_neg hv]
    have fold : (d.mergeSort (fun a b => orderLE (ord a.1) (ord b.1))).foldl
          (fun res kv => res ^^^ H.item kv.1 (NDim.hashed kv.2).val) H.base = Dim.rawHash H ord d.exact := by
      rw [rawHash_eq, foldl_xor_perm (fun kv : UKey × PyExp => H.item kv.1 (NDim.hashed kv.2).val) _
        (List.mergeSort_perm d _), NDim.exact, List.foldl_map]
      refine List.foldl_ext _ _ _ ?_
      intro r kv hkv
      rw [item kv hkv]
    unfold NDim.hash Dim.hash
    rw [fold]
  rw [NDim.eq, Dim.eq, key a ha, key b hb]

example (H : Hasher) (ord : UKey → Nat × Nat) :
    NDim.eq H ord [(meterKey, .flt (-1 / 2))] [(meterKey, .int 3)] =
      Dim.eq H ord [(meterKey, -1 / 2)] [(meterKey, 3)] := by
  refine C126_equality H ord _ _ ?_ ?_
  · intro kv h _
    rw [List.mem_singleton] at h; subst h
    right
    have := isDouble_half (-3) (by norm_num)
    norm_num [PyExp.val] at this ⊢
    exact this
  · intro kv h _
    rw [List.mem_singleton] at h; subst h
    exact Or.inl ⟨3, rfl⟩

/-! ## Where the claims fail -/

/-- `m**0.1`. -/
def mTenth : NDim := NDim.pow [(meterKey, .int 1)] (.flt (toDouble (1 / 10)))
/-- `m**0.2`. -/
def mFifth : NDim := NDim.pow [(meterKey, .int 1)] (.flt (toDouble (2 / 10)))
/-- `m**0.3`. -/
def mThreeTenths : NDim := NDim.pow [(meterKey, .int 1)] (.flt (toDouble (3 / 10)))

/-- `m**0.1 * m**0.2` and `m**0.3` have different exponents, so their quotient keeps a power of the metre;
and there are hashes for which they compare unequal and cannot be added. -/
theorem C127_sum_false :
    NDim.expo (NDim.mul mTenth mFifth) meterKey ≠ NDim.expo mThreeTenths meterKey ∧
    NDim.div (NDim.mul mTenth mFifth) mThreeTenths ≠ [] ∧
    (∃ H : Hasher, ∀ ord, NDim.add H ord (NDim.mul mTenth mFifth) mThreeTenths = .error .valueError) := by
  refine ⟨by decide +kernel, by decide +kernel, ⟨0#64, fun _ => 0, fun _ x => BitVec.ofInt 64 x⟩, ?_⟩
  intro ord
  have : NDim.eq ⟨0#64, fun _ => 0, fun _ x => BitVec.ofInt 64 x⟩ ord (NDim.mul mTenth mFifth) mThreeTenths
      = false := by
    have e1 : NDim.mul mTenth mFifth = [(meterKey, .flt (5404319552844596 / 2 ^ 54))] := by decide +kernel
    have e2 : mThreeTenths = [(meterKey, .flt (5404319552844595 / 2 ^ 54))] := by decide +kernel
    rw [e1, e2]
    simp only [NDim.eq, NDim.hash, List.mergeSort_singleton, List.foldl_cons, List.foldl_nil]
    decide +kernel
  rw [NDim.add, this]; rfl

/-- Yet their inverses compare equal, whatever the hashes: for a negative exponent the number hashed is
the exponent minus one, rounded, which loses the last digits. -/
theorem C127_inverse_false (H : Hasher) (ord : UKey → Nat × Nat) :
    NDim.eq H ord (NDim.pow (NDim.mul mTenth mFifth) (.int (-1))) (NDim.pow mThreeTenths (.int (-1))) = true ∧
    NDim.expo (NDim.pow (NDim.mul mTenth mFifth) (.int (-1))) meterKey ≠
      NDim.expo (NDim.pow mThreeTenths (.int (-1))) meterKey := by
  refine ⟨?_, by decide +kernel⟩
  have e1 : NDim.pow (NDim.mul mTenth mFifth) (.int (-1)) = [(meterKey, .flt (-5404319552844596 / 2 ^ 54))] := by
    decide +kernel
  have e2 : NDim.pow mThreeTenths (.int (-1)) = [(meterKey, .flt (-5404319552844595 / 2 ^ 54))] := by
    decide +kernel
  have e3 : (NDim.hashed (.flt (-5404319552844596 / 2 ^ 54))).val =
      (NDim.hashed (.flt (-5404319552844595 / 2 ^ 54))).val := by decide +kernel
  rw [e1, e2]
  simp only [NDim.eq, NDim.hash, List.mergeSort_singleton, List.foldl_cons, List.foldl_nil]
  rw [e3]
  exact beq_self_eq_true _

/-- `((m**7)**(1/3))**3` is not `m**7`. -/
theorem C127_root_false :
    NDim.expo (NDim.pow (NDim.pow (NDim.pow [(meterKey, .int 1)] (.int 7)) (.flt (toDouble (1 / 3)))) (.int 3)) meterKey
      ≠ 7 := by decide +kernel

/-- A power can leave a unit with exponent zero behind: `(m**1e-200)**1e-200` still mentions the metre. -/
theorem C127_underflow_false :
    NDim.pow (NDim.pow [(meterKey, .int 1)] (.flt (toDouble (1 / 10 ^ 200)))) (.flt (toDouble (1 / 10 ^ 200))) =
      [(meterKey, .flt 0)] := by decide +kernel

end PQ
