import Verif.Lemmas.ShippedCoefs
import Verif.Lemmas.Shipped4

/-!
# The sizes listed are those of the table
-/

namespace PQ.Shipped

open World Dict LawfulRPow

/-- Size of an expression, given those of the rows. -/
def Expr.coef (cs : List (Nat × Nat × Int)) : Expr → Option (Nat × Nat × Int)
  | .num p q => if Nat.blt 0 p.toNat && Nat.blt 0 q then some (p.toNat, q, 0) else none
  | .pi => some (1, 1, 1)
  | .unit i => match cs[i]? with
    | some (p, q, k) => if Nat.blt 0 p && Nat.blt 0 q then some (p, q, k) else none
    | none => none
  | .mul a b => match a.coef cs, b.coef cs with
    | some (p, q, k), some (p', q', k') => some (p * p', q * q', k + k')
    | _, _ => none
  | .div a b => match a.coef cs, b.coef cs with
    | some (p, q, k), some (p', q', k') => some (p * q', q * p', k - k')
    | _, _ => none
  | .pow a n d => match a.coef cs with
    | some (p, q, k) =>
      if Nat.beq d 1 then
        (if 0 ≤ n then some (p ^ n.toNat, q ^ n.toNat, k * n) else some (q ^ (-n).toNat, p ^ (-n).toNat, k * n))
      else if Nat.beq p q && decide (k = 0) then some (1, 1, 0) else none
    | none => none
  | .add _ _ => none
  | .quantity _ _ _ => none

/-- Every row that has a size listed has this size. -/
def coefFrom (cs : List (Nat × Nat × Int)) : List Row → List (Nat × Nat × Int) → Bool
  | [], [] => true
  | r :: rs, (p, q, k) :: xs =>
    (if Nat.beq q 0 then true else
      match r.definition with
      | none => Nat.beq p 1 && Nat.beq q 1 && decide (k = 0)
      | some e => match e.coef cs with
        | some (p', q', k') => Nat.beq (p * q') (p' * q) && decide (k = k')
        | none => false) && coefFrom cs rs xs
  | _, _ => false

set_option maxRecDepth 100000

theorem unit_coefs : coefFrom coefs unitTable coefs = true := by decide +kernel

theorem coefFrom_get (cs : List (Nat × Nat × Int)) : ∀ (rs : List Row) (xs : List (Nat × Nat × Int)) (i : Nat) (r : Row)
    (t : Nat × Nat × Int), coefFrom cs rs xs = true → rs[i]? = some r → xs[i]? = some t → t.2.1 ≠ 0 →
      match r.definition with
      | none => t = (1, 1, 0)
      | some e => ∃ t', e.coef cs = some t' ∧ t.1 * t'.2.1 = t'.1 * t.2.1 ∧ t.2.2 = t'.2.2
  | [], _, i, r, t, _, hr, _, _ => by simp at hr
  | r₀ :: rs, [], i, r, t, h, hr, hx, _ => by simp at hx
  | r₀ :: rs, (p, q, k) :: xs, i, r, t, h, hr, hx, ht => by
      rw [coefFrom, Bool.and_eq_true] at h
      rcases i with _ | i
      · simp only [List.getElem?_cons_zero, Option.some.injEq] at hr hx
        subst hr hx
        have h1 := h.1
        rw [if_neg (by simpa using ht)] at h1
        rcases hd : r₀.definition with _ | e
        · simp only [hd] at h1
          simp at h1
          obtain ⟨⟨rfl, rfl⟩, rfl⟩ := h1
          rfl
        · simp only [hd] at h1
          rcases hc : e.coef cs with _ | ⟨p', q', k'⟩
          · simp [hc] at h1
          · simp only [hc] at h1
            simp at h1
            exact ⟨_, hc, h1.1, h1.2⟩
      · exact coefFrom_get cs rs xs i r t h.2 (by simpa using hr) (by simpa using hx) ht

variable {K : Type _} [Field K] [LinearOrder K] [IsStrictOrderedRing K] [RPow K] [LawfulRPow K]

/-- The number a listed size stands for. -/
def coefVal (π : K) (t : Nat × Nat × Int) : K := (t.1 : K) / t.2.1 * π ^ t.2.2

theorem coefVal_pos {π : K} (hπ : 0 < π) {t : Nat × Nat × Int} (h1 : 0 < t.1) (h2 : 0 < t.2.1) : 0 < coefVal π t :=
  mul_pos (div_pos (Nat.cast_pos.2 h1) (Nat.cast_pos.2 h2)) (zpow_pos hπ _)

/-- Sizes of expressions. -/
theorem expr_coef {π : K} (hπ : 0 < π) (w : World K) (key : Nat → UKey) (n : Nat)
    (hu : ∀ (j : Nat) (x : List Int) (t : Nat × Nat × Int), j < n → dims[j]? = some x → coefs[j]? = some t → 0 < t.1 → 0 < t.2.1 →
      ∀ v : Valuation w, dsize v.val (unitDim (key j)) = coefVal π t * gsize v.val baseKeys x)
    (hl : ∀ (j : Nat) (x : List Int), dims[j]? = some x → x.length = 8) :
    ∀ (e : Expr) (x : List Int) (t : Nat × Nat × Int), e.refs n = true → e.positive = true → e.expo dims = some x →
      e.coef coefs = some t → x.length = 8 ∧ 0 < t.1 ∧ 0 < t.2.1 ∧
      ∀ v : Valuation w, (e.eval key π).mag * dsize v.val (e.eval key π).dim = coefVal π t * gsize v.val baseKeys x
  | .num p q, x, t, _, hp, h, ht => by
      simp only [Expr.expo, Option.some.injEq] at h
      subst h
      simp only [Expr.positive, Bool.and_eq_true, decide_eq_true_eq, Nat.blt_eq] at hp
      simp only [Expr.coef] at ht
      split at ht
      · simp only [Option.some.injEq] at ht
        subst ht
        refine ⟨by simp, by simpa using hp.1, hp.2, fun v => ?_⟩
        rw [gsize_zero]
        have : ((p.toNat : ℕ) : K) = (p : K) := by
          rw [← Int.cast_natCast, Int.toNat_of_nonneg hp.1.le]
        simp only [Expr.eval, coefVal, zpow_zero, mul_one, dsize_nil]
        rw [this]
      · cases ht
  | .pi, x, t, _, _, h, ht => by
      simp only [Expr.expo, Option.some.injEq] at h
      simp only [Expr.coef, Option.some.injEq] at ht
      subst h ht
      exact ⟨by simp, by simp, by simp, fun v => by rw [gsize_zero]; simp [Expr.eval, coefVal]⟩
  | .unit i, x, t, hr, _, h, ht => by
      simp only [Expr.expo] at h
      simp only [Expr.refs, Nat.blt_eq] at hr
      simp only [Expr.coef] at ht
      rcases hc : coefs[i]? with _ | ⟨p, q, k⟩
      · simp [hc] at ht
      · simp only [hc] at ht
        split at ht
        · rename_i hpq
          simp only [Bool.and_eq_true, Nat.blt_eq] at hpq
          simp only [Option.some.injEq] at ht
          subst ht
          refine ⟨hl i x h, hpq.1, hpq.2, fun v => ?_⟩
          rw [← hu i x _ hr h hc hpq.1 hpq.2 v]
          simp [Expr.eval]
        · cases ht
  | .mul a b, x, t, hr, hp, h, ht => by
      simp only [Expr.refs, Expr.positive, Bool.and_eq_true] at hr hp
      simp only [Expr.expo] at h
      simp only [Expr.coef] at ht
      rcases ha : a.expo dims with _ | y
      · simp [ha] at h
      rcases hb : b.expo dims with _ | z
      · simp [ha, hb] at h
      rcases ha' : a.coef coefs with _ | s
      · simp [ha'] at ht
      rcases hb' : b.coef coefs with _ | s'
      · simp [ha', hb'] at ht
      rw [ha, hb] at h
      rw [ha', hb'] at ht
      simp only [Option.some.injEq] at h ht
      subst h ht
      obtain ⟨la, a1, a2, a3⟩ := expr_coef hπ w key n hu hl a y s hr.1 hp.1 ha ha'
      obtain ⟨lb, b1, b2, b3⟩ := expr_coef hπ w key n hu hl b z s' hr.2 hp.2 hb hb'
      refine ⟨by simp [la, lb], Nat.mul_pos a1 b1, Nat.mul_pos a2 b2, fun v => ?_⟩
      rw [gsize_add v.pos _ _ _ (by rw [la, baseKeys_length]) (by rw [lb, baseKeys_length])]
      have e1 : ((Expr.mul a b).eval key π).mag * dsize v.val ((Expr.mul a b).eval key π).dim =
          ((a.eval key π).mag * dsize v.val (a.eval key π).dim) * ((b.eval key π).mag * dsize v.val (b.eval key π).dim) := by
        rw [Expr.eval, dsize_mul v.pos]; ring
      rw [e1, a3 v, b3 v]
      unfold coefVal
      rw [zpow_add₀ hπ.ne']
      push_cast
      have : (s.2.1 : K) ≠ 0 := (Nat.cast_pos.2 a2).ne'
      have : (s'.2.1 : K) ≠ 0 := (Nat.cast_pos.2 b2).ne'
      field_simp
  | .div a b, x, t, hr, hp, h, ht => by
      simp only [Expr.refs, Expr.positive, Bool.and_eq_true] at hr hp
      simp only [Expr.expo] at h
      simp only [Expr.coef] at ht
      rcases ha : a.expo dims with _ | y
      · simp [ha] at h
      rcases hb : b.expo dims with _ | z
      · simp [ha, hb] at h
      rcases ha' : a.coef coefs with _ | s
      · simp [ha'] at ht
      rcases hb' : b.coef coefs with _ | s'
      · simp [ha', hb'] at ht
      rw [ha, hb] at h
      rw [ha', hb'] at ht
      simp only [Option.some.injEq] at h ht
      subst h ht
      obtain ⟨la, a1, a2, a3⟩ := expr_coef hπ w key n hu hl a y s hr.1 hp.1 ha ha'
      obtain ⟨lb, b1, b2, b3⟩ := expr_coef hπ w key n hu hl b z s' hr.2 hp.2 hb hb'
      refine ⟨by simp [la, lb], Nat.mul_pos a1 b2, Nat.mul_pos a2 b1, fun v => ?_⟩
      rw [gsize_sub v.pos _ _ _ (by rw [la, baseKeys_length]) (by rw [lb, baseKeys_length])]
      have e1 : ((Expr.div a b).eval key π).mag * dsize v.val ((Expr.div a b).eval key π).dim =
          ((a.eval key π).mag * dsize v.val (a.eval key π).dim) / ((b.eval key π).mag * dsize v.val (b.eval key π).dim) := by
        rw [Expr.eval, dsize_div v.pos]; exact div_mul_div_comm _ _ _ _
      rw [e1, a3 v, b3 v]
      unfold coefVal
      rw [zpow_sub₀ hπ.ne']
      push_cast
      have := (Nat.cast_pos (α := K).2 a2).ne'
      have := (Nat.cast_pos (α := K).2 b2).ne'
      have := (Nat.cast_pos (α := K).2 b1).ne'
      have := (gsize_pos v.pos baseKeys z).ne'
      have := (zpow_pos hπ s'.2.2).ne'
      field_simp
  | .pow a m d, x, t, hr, hp, h, ht => by
      simp only [Expr.refs, Expr.positive] at hr hp
      simp only [Expr.expo] at h
      simp only [Expr.coef] at ht
      rcases ha : a.expo dims with _ | y
      · simp [ha] at h
      rcases ha' : a.coef coefs with _ | s
      · simp [ha'] at ht
      rw [ha] at h
      rw [ha'] at ht
      simp only at h ht
      by_cases hcond : (Nat.blt 0 d && y.all (fun e => decide (e * m % d = 0))) = true
      swap
      · rw [if_neg hcond] at h; cases h
      rw [if_pos hcond] at h
      simp only [Bool.and_eq_true, Nat.blt_eq, List.all_eq_true, decide_eq_true_eq] at hcond
      simp only [Option.some.injEq] at h
      subst h
      obtain ⟨la, a1, a2, a3⟩ := expr_coef hπ w key n hu hl a y s hr hp ha ha'
      have key1 : ∀ v : Valuation w, ((Expr.pow a m d).eval key π).mag * dsize v.val ((Expr.pow a m d).eval key π).dim =
          rpow (coefVal π s) ((m : ℚ) / d) * gsize v.val baseKeys (y.map (fun e => e * m / d)) := by
        intro v
        rw [gsize_scale v.pos _ _ hcond.1 _ _ (by rw [la, baseKeys_length]) hcond.2, Expr.eval]
        simp only
        rw [dsize_pow v.pos, ← mul_rpow _ _ _ (Expr.eval_pos key hπ a hp) (dsize_pos v.pos _), a3 v,
          mul_rpow _ _ _ (coefVal_pos hπ a1 a2) (gsize_pos v.pos _ _)]
      have l8 : (y.map (fun e => e * m / d)).length = 8 := by simp [la]
      by_cases hd1 : Nat.beq d 1 = true
      · rw [if_pos hd1] at ht
        have hd : d = 1 := Nat.eq_of_beq_eq_true hd1
        have hz : rpow (coefVal π s) ((m : ℚ) / d) = coefVal π s ^ m := by
          rw [hd, Nat.cast_one, div_one, rpow_intCast _ _ (coefVal_pos hπ a1 a2).ne']
        by_cases hm : 0 ≤ m
        · rw [if_pos hm] at ht
          simp only [Option.some.injEq] at ht
          subst ht
          refine ⟨l8, Nat.pow_pos a1, Nat.pow_pos a2, fun v => ?_⟩
          rw [key1 v, hz]
          congr 1
          obtain ⟨j, rfl⟩ := Int.eq_ofNat_of_zero_le hm
          simp only [coefVal, Int.toNat_natCast]
          push_cast
          rw [mul_zpow, div_zpow, zpow_natCast, zpow_natCast, zpow_mul]
        · rw [if_neg hm] at ht
          simp only [Option.some.injEq] at ht
          subst ht
          refine ⟨l8, Nat.pow_pos a2, Nat.pow_pos a1, fun v => ?_⟩
          rw [key1 v, hz]
          congr 1
          obtain ⟨j, hj⟩ := Int.eq_ofNat_of_zero_le (show 0 ≤ -m by omega)
          have hm' : m = -(j : ℤ) := by omega
          subst hm'
          simp only [coefVal, neg_neg, Int.toNat_natCast]
          push_cast
          rw [mul_zpow, div_zpow, zpow_neg, zpow_neg, zpow_natCast, zpow_natCast, zpow_mul, inv_div_inv]
      · rw [if_neg hd1] at ht
        by_cases hpq : (Nat.beq s.1 s.2.1 && decide (s.2.2 = 0)) = true
        · rw [if_pos hpq] at ht
          simp only [Option.some.injEq] at ht
          subst ht
          simp only [Bool.and_eq_true, decide_eq_true_eq] at hpq
          have e1 := Nat.eq_of_beq_eq_true hpq.1
          refine ⟨l8, by simp, by simp, fun v => ?_⟩
          rw [key1 v]
          congr 1
          have hone : coefVal π s = 1 := by
            unfold coefVal
            rw [hpq.2, e1, zpow_zero, mul_one, div_self (Nat.cast_pos (α := K).2 a2).ne']
          rw [hone]
          have h1 : rpow (1 : K) ((m : ℚ) / d) = 1 := by
            have := rpow_rpow (1 : K) 0 ((m : ℚ) / d) one_pos
            rwa [rpow_zero, zero_mul, rpow_zero] at this
          rw [h1]; simp [coefVal]
        · rw [if_neg hpq] at ht; cases ht
  | .add a b, x, t, hr, hp, h, ht => by simp [Expr.coef] at ht
  | .quantity p q u, x, t, hr, hp, h, ht => by simp [Expr.coef] at ht

attribute [local irreducible] table unitTable constTable dims coefs

/-- The size of a unit of the table in base units. -/
theorem row_value (h : Hasher) {π : K} (hπ : 0 < π) (i : Nat) : ∀ (r : Row) (x : List Int) (t : Nat × Nat × Int),
    unitTable[i]? = some r → dims[i]? = some x → coefs[i]? = some t → 0 < t.1 → 0 < t.2.1 →
      ∀ v : Valuation (loaded saneTable π h), dsize v.val (unitDim r.key) = coefVal π t * gsize v.val baseKeys x := by
  induction i using Nat.strong_induction_on with
  | _ i ih =>
    intro r x t hr hx ht t1 t2 v
    have hi : i < nUnits := by rw [← unitTable_length]; exact (List.getElem?_eq_some_iff.1 hr).1
    obtain ⟨r', hr', hu', hp⟩ := table_get_unit hi
    have : r' = r := by rw [hr] at hu'; exact (Option.some.inj hu').symm
    subst this
    obtain ⟨y, hy, hl, hdef⟩ := dims_get hr'
    rw [hx] at hy
    simp only [Option.some.injEq] at hy
    subst hy
    have hcoef := coefFrom_get coefs unitTable coefs i r' t unit_coefs hr ht t2.ne'
    have hmem : r' ∈ saneTable := List.mem_filter.2 ⟨List.mem_of_getElem? hr', hp⟩
    obtain ⟨inf, i1, i2, -⟩ := load_info h (π := π) saneTable_sub hmem
    rcases hd : r'.definition with _ | e
    · rw [hd] at hdef hcoef
      simp only at hdef hcoef
      subst hcoef
      have hone : coefVal π (1, 1, 0) = 1 := by simp [coefVal]
      rw [hone, one_mul]
      by_cases hc : r'.cls = .dimensionless
      · rw [if_pos hc] at hdef
        subst hdef
        have : r'.key.cls = .dimensionless := hc
        rw [gsize_zero]
        simp [unitDim, this]
      · rw [if_neg hc] at hdef
        have hc' : ¬ r'.key.cls = .dimensionless := hc
        rw [hdef.2, baseKeys, gsize_single v.val i baseRows (by decide) hdef.1, keyAt_get hr']
        simp [unitDim, hc', dsize_cons, rpow_one]
    · rw [hd] at hdef hcoef
      simp only at hdef hcoef
      obtain ⟨t', c1, c2, c3⟩ := hcoef
      obtain ⟨r1, r2, r3⟩ := sub_refs hr' hd
      have hrefs : e.refs (min i nUnits) = true := by rwa [min_eq_left hi.le]
      have hep : e.positive = true := by
        have := hp; unfold Row.positive at this; rw [hd] at this; exact this
      obtain ⟨-, d1, d2, d3⟩ := expr_coef hπ (loaded saneTable π h) (keyAt saneTable) (min i nUnits)
        (fun j z s hj hz hs s1 s2 v => by
          have hjn : j < nUnits := lt_of_lt_of_le hj (min_le_right _ _)
          obtain ⟨r'', u1, u2, u3⟩ := table_get_unit hjn
          rw [keyAt_sane hjn, ← keyAt_table hjn, keyAt_get u1]
          exact ih j (lt_of_lt_of_le hj (min_le_left _ _)) r'' z s u2 hz hs s1 s2 v) dims_len8 e x t' hrefs hep hdef c1
      have hk : r'.key.cls ≠ .dimensionless := r3
      have hdd := v.defined r'.key inf (e.eval (keyAt saneTable) π) i1 (by rw [i2, hd]; rfl)
      simp only [unitDim, hk, if_false, dsize_cons, rpow_one, dsize_nil, mul_one]
      rw [hdd, d3 v]
      congr 1
      unfold coefVal
      rw [c3]
      congr 1
      have n1 := (Nat.cast_pos (α := K).2 d2).ne'
      have n2 := (Nat.cast_pos (α := K).2 t2).ne'
      rw [div_eq_div_iff n1 n2]
      exact_mod_cast c2.symm

end PQ.Shipped
