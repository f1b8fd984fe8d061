import Verif.Lemmas.ShippedStandards
import Verif.Spec.Constants
import Mathlib.Tactic.Positivity
import Mathlib.Tactic.Linarith

/-!
# Comparing the shipped constants with their laws
-/

namespace PQ.Shipped

open World Dict LawfulRPow

/-- Built from units only. -/
def Expr.monic : Expr → Bool
  | .num p q => decide (p = 1) && Nat.beq q 1
  | .unit _ => true
  | .mul a b => a.monic && b.monic
  | .div a b => a.monic && b.monic
  | .pow a _ _ => a.monic
  | _ => false

/-- Size of the definition of a constant. -/
def Expr.ccoef (cs : List (Nat × Nat × Int)) : Expr → Option (Nat × Nat × Int)
  | .quantity p q u =>
    if u.monic then match u.coef cs with
      | some (p', q', k') => some (p.toNat * p', q * q', k')
      | none => none
    else none
  | .pi => some (1, 1, 1)
  | _ => none

/-- Row and exponents of the first constant with this name. -/
def findC (c : List Nat) : List (Nat × List Nat) → List Row → List (List Int) → Option (Row × List Int)
  | k :: ks, r :: rs, x :: xs => if Nat.beq k.1 12 && eqCodes k.2 c then some (r, x) else findC c ks rs xs
  | _, _, _ => none

/-- Size and exponents of the constant with this name. -/
def constOf (n : String) : Option ((Nat × Nat × Int) × List Int) :=
  match findC (codesOf n) (keyCodes.drop nUnits) constTable (dims.drop nUnits) with
  | some (r, x) => match r.definition with
    | some e => if e.positive then (match e.ccoef coefs with
        | some t => some (t, x)
        | none => none) else none
    | none => none
  | none => none

/-- The power of a size. -/
def cpow (t : Nat × Nat × Int) (e : Int) : Nat × Nat × Int :=
  if 0 ≤ e then (t.1 ^ e.toNat, t.2.1 ^ e.toNat, t.2.2 * e) else (t.2.1 ^ (-e).toNat, t.1 ^ (-e).toNat, t.2.2 * e)

/-- The product of sizes. -/
def cmul (s t : Nat × Nat × Int) : Nat × Nat × Int := (s.1 * t.1, s.2.1 * t.2.1, s.2.2 + t.2.2)

/-- Size and exponents of a product of powers of constants. -/
def cprodOf : List (String × Int) → Option ((Nat × Nat × Int) × List Int)
  | [] => some ((1, 1, 0), List.replicate 8 0)
  | (l, e) :: us =>
    match constOf l, cprodOf us with
    | some (a, x), some (t, y) => some (cmul (cpow a e) t, List.zipWith (· + ·) (x.map (fun z => z * e)) y)
    | _, _ => none

/-- `n / d * π ^ m` is one up to `10 ^ -tol`. -/
def near (n d : Nat) (m : Int) (tol : Nat) : Bool :=
  if 0 ≤ m then
    Nat.ble (d * (10 ^ tol - 1) * (10 ^ 14) ^ m.toNat) (n * 314159265358979 ^ m.toNat * 10 ^ tol) &&
    Nat.ble (n * 314159265358980 ^ m.toNat * 10 ^ tol) (d * (10 ^ tol + 1) * (10 ^ 14) ^ m.toNat)
  else
    Nat.ble (d * (10 ^ tol - 1) * 314159265358980 ^ (-m).toNat) (n * (10 ^ 14) ^ (-m).toNat * 10 ^ tol) &&
    Nat.ble (n * (10 ^ 14) ^ (-m).toNat * 10 ^ tol) (d * (10 ^ tol + 1) * 314159265358979 ^ (-m).toNat)

/-- The law holds of the table. -/
def lawOK (s : Law) : Bool :=
  match constOf s.name, cprodOf s.consts, prodOf s.units with
  | some (a, x), some (t, y), some (t', y') =>
    Nat.blt 0 s.p && Nat.blt 0 s.q && decide (x = List.zipWith (· + ·) y y') &&
    near (a.1 * (s.q * t.2.1 * t'.2.1)) (a.2.1 * (s.p * t.1 * t'.1)) (a.2.2 - s.pi - t.2.2 - t'.2.2) s.tol
  | _, _, _ => false

set_option maxRecDepth 100000

theorem laws_ok : laws.all lawOK = true := by decide +kernel

theorem covered : constTable.all (fun r => !r.positive || r.name == "golden_ratio" || laws.any (fun s => s.name == r.name)) =
    true := by decide +kernel

attribute [local irreducible] table unitTable constTable dims coefs unitLabels keyCodes

theorem findC_spec (c : List Nat) : ∀ (ks : List (Nat × List Nat)) (rs : List Row) (xs : List (List Int)) (r : Row)
    (x : List Int), findC c ks rs xs = some (r, x) → ∃ (i : Nat) (k : Nat × List Nat), ks[i]? = some k ∧ rs[i]? = some r ∧ xs[i]? = some x ∧
      k.1 = 12 ∧ k.2 = c
  | [], rs, xs, r, x, h => by simp [findC] at h
  | k :: ks, [], xs, r, x, h => by simp [findC] at h
  | k :: ks, r₀ :: rs, [], r, x, h => by simp [findC] at h
  | k :: ks, r₀ :: rs, x₀ :: xs, r, x, h => by
      rw [findC] at h
      by_cases hc : (Nat.beq k.1 12 && eqCodes k.2 c) = true
      · rw [if_pos hc] at h
        simp only [Option.some.injEq, Prod.mk.injEq] at h
        obtain ⟨rfl, rfl⟩ := h
        rw [Bool.and_eq_true] at hc
        exact ⟨0, k, rfl, rfl, rfl, Nat.eq_of_beq_eq_true hc.1, (eqCodes_iff _ _).1 hc.2⟩
      · rw [if_neg hc] at h
        obtain ⟨i, k', h1, h2, h3, h4⟩ := findC_spec c ks rs xs r x h
        exact ⟨i + 1, k', by simpa using h1, by simpa using h2, by simpa using h3, h4⟩

variable {K : Type _} [Field K] [LinearOrder K] [IsStrictOrderedRing K] [RPow K] [LawfulRPow K]

theorem Expr.monic_positive : ∀ e : Expr, e.monic = true → e.positive = true
  | .num p q, h => by
      simp only [monic, Bool.and_eq_true, decide_eq_true_eq] at h
      have := Nat.eq_of_beq_eq_true h.2
      simp [positive, h.1, this]
  | .pi, h => rfl
  | .unit _, _ => rfl
  | .mul a b, h => by
      simp only [monic, Bool.and_eq_true] at h
      simp [positive, Expr.monic_positive a h.1, Expr.monic_positive b h.2]
  | .div a b, h => by
      simp only [monic, Bool.and_eq_true] at h
      simp [positive, Expr.monic_positive a h.1, Expr.monic_positive b h.2]
  | .pow a _ _, h => by
      simp only [monic] at h
      simp [positive, Expr.monic_positive a h]
  | .add _ _, h => by simp [monic] at h
  | .quantity _ _ _, h => by simp [monic] at h

theorem Expr.monic_mag (key : Nat → UKey) (π : K) : ∀ e : Expr, e.monic = true → (e.eval key π).mag = 1
  | .num p q, h => by
      simp only [monic, Bool.and_eq_true, decide_eq_true_eq] at h
      have := Nat.eq_of_beq_eq_true h.2
      simp [eval, h.1, this]
  | .pi, h => by simp [monic] at h
  | .unit _, _ => rfl
  | .mul a b, h => by
      simp only [monic, Bool.and_eq_true] at h
      simp [eval, Expr.monic_mag key π a h.1, Expr.monic_mag key π b h.2]
  | .div a b, h => by
      simp only [monic, Bool.and_eq_true] at h
      simp [eval, Expr.monic_mag key π a h.1, Expr.monic_mag key π b h.2]
  | .pow a m d, h => by
      simp only [monic] at h
      have h1 : rpow (1 : K) ((m : ℚ) / d) = 1 := by
        have := rpow_rpow (1 : K) 0 ((m : ℚ) / d) one_pos
        rwa [rpow_zero, zero_mul, rpow_zero] at this
      simp [eval, Expr.monic_mag key π a h, h1]
  | .add _ _, h => by simp [monic] at h
  | .quantity _ _ _, h => by simp [monic] at h

/-- The size of a constant. -/
theorem const_sound (h : Hasher) {π : K} (hπ : 0 < π) {n : String} {t : Nat × Nat × Int} {x : List Int}
    (hc : constOf n = some (t, x)) : x.length = 8 ∧ 0 < t.1 ∧ 0 < t.2.1 ∧
      (⟨.constant, n⟩ : UKey) ∈ (loaded saneTable π h).units.map Prod.fst ∧
      ∀ v : Valuation (loaded saneTable π h), v.size (unitDim ⟨.constant, n⟩) = coefVal π t * gsize v.val baseKeys x := by
  unfold constOf at hc
  rcases hf : findC (codesOf n) (keyCodes.drop nUnits) constTable (dims.drop nUnits) with _ | ⟨r, x'⟩
  · simp [hf] at hc
  rw [hf] at hc
  simp only at hc
  rcases hd : r.definition with _ | e
  · simp [hd] at hc
  rw [hd] at hc
  simp only at hc
  by_cases hp : e.positive = true
  swap
  · rw [if_neg hp] at hc; cases hc
  rw [if_pos hp] at hc
  rcases hcc : e.ccoef coefs with _ | t'
  · simp [hcc] at hc
  rw [hcc] at hc
  simp only [Option.some.injEq, Prod.mk.injEq] at hc
  obtain ⟨rfl, rfl⟩ := hc
  obtain ⟨i, k, k1, k2, k3, k4, k5⟩ := findC_spec _ _ _ _ _ _ hf
  rw [List.getElem?_drop] at k1 k3
  have hr : table[nUnits + i]? = some r := by
    unfold table
    rw [List.getElem?_append_right (by rw [unitTable_length]; omega), unitTable_length]
    simpa using k2
  have hkey : r.key = ⟨.constant, n⟩ := by
    have h1 := congrArg (fun l : List UKey => l[nUnits + i]?) keys_eq
    simp only [List.getElem?_map, hr, k1, Option.map_some, Option.some.injEq] at h1
    rw [h1, decodeKey, k5, decode_codes, k4]; rfl
  have hrp : r.positive = true := by unfold Row.positive; rw [hd]; exact hp
  have hmem : r ∈ saneTable := List.mem_filter.2 ⟨List.mem_of_getElem? hr, hrp⟩
  obtain ⟨inf, i1, i2, -⟩ := load_info h (π := π) saneTable_sub hmem
  obtain ⟨y, hy, hl, hdef⟩ := dims_get hr
  rw [k3] at hy
  simp only [Option.some.injEq] at hy
  subst hy
  rw [hd] at hdef
  simp only at hdef
  obtain ⟨-, r2, r3⟩ := sub_refs hr hd
  have hk : r.key.cls ≠ .dimensionless := r3
  have main : ∀ (e' : Expr) (x : List Int) (s : Nat × Nat × Int), e'.refs nUnits = true → e'.positive = true →
      e'.expo dims = some x → e'.coef coefs = some s → x.length = 8 ∧ 0 < s.1 ∧ 0 < s.2.1 ∧
      ∀ v : Valuation (loaded saneTable π h), (e'.eval (keyAt saneTable) π).mag *
        dsize v.val (e'.eval (keyAt saneTable) π).dim = coefVal π s * gsize v.val baseKeys x :=
    expr_coef hπ (loaded saneTable π h) (keyAt saneTable) nUnits
      (fun j z s hj hz hs s1 s2 v => by
        obtain ⟨r'', u1, u2, u3⟩ := table_get_unit hj
        rw [keyAt_sane hj, ← keyAt_table hj, keyAt_get u1]
        exact row_value h hπ j r'' z s u2 hz hs s1 s2 v) dims_len8
  have hsize : ∀ v : Valuation (loaded saneTable π h), v.size (unitDim r.key) =
      (e.eval (keyAt saneTable) π).mag * dsize v.val (e.eval (keyAt saneTable) π).dim := by
    intro v
    have hdd := v.defined r.key inf (e.eval (keyAt saneTable) π) i1 (by rw [i2, hd]; rfl)
    unfold Valuation.size
    simp only [unitDim, hk, if_false, dsize_cons, rpow_one, dsize_nil, mul_one]
    exact hdd
  have hknown : (⟨.constant, n⟩ : UKey) ∈ (loaded saneTable π h).units.map Prod.fst := by
    rw [← hkey]
    unfold World.info at i1
    exact List.mem_map_of_mem (mem_of_get? i1)
  rw [← hkey] at hknown ⊢
  refine ⟨hl, ?_⟩
  cases e with
  | num p q => simp [Expr.ccoef] at hcc
  | unit j => simp [Expr.ccoef] at hcc
  | mul a b => simp [Expr.ccoef] at hcc
  | div a b => simp [Expr.ccoef] at hcc
  | pow a m d => simp [Expr.ccoef] at hcc
  | add a b => simp [Expr.ccoef] at hcc
  | pi =>
    simp only [Expr.ccoef, Option.some.injEq] at hcc
    subst hcc
    obtain ⟨-, m1, m2, m3⟩ := main .pi _ _ r2 hp hdef rfl
    exact ⟨m1, m2, hknown, fun v => (hsize v).trans (m3 v)⟩
  | quantity p q u =>
    simp only [Expr.ccoef] at hcc
    by_cases hm : u.monic = true
    swap
    · rw [if_neg hm] at hcc; cases hcc
    rw [if_pos hm] at hcc
    rcases hu : u.coef coefs with _ | s
    · simp [hu] at hcc
    rw [hu] at hcc
    simp only [Option.some.injEq] at hcc
    subst hcc
    simp only [Expr.refs] at r2
    simp only [Expr.expo] at hdef
    obtain ⟨-, m1, m2, m3⟩ := main u _ _ r2 (Expr.monic_positive u hm) hdef hu
    simp only [Expr.positive, Bool.and_eq_true, decide_eq_true_eq, Nat.blt_eq] at hp
    refine ⟨Nat.mul_pos (by simpa using hp.1) m1, Nat.mul_pos hp.2 m2, hknown, fun v => ?_⟩
    rw [hsize v]
    have := m3 v
    rw [Expr.monic_mag _ _ u hm, one_mul] at this
    simp only [Expr.eval]
    rw [this]
    have hpn : ((p.toNat : ℕ) : K) = (p : K) := by
      rw [← Int.cast_natCast, Int.toNat_of_nonneg hp.1.le]
    simp only [coefVal]
    push_cast
    rw [hpn]
    have n1 := (Nat.cast_pos (α := K).2 hp.2).ne'
    have n2 := (Nat.cast_pos (α := K).2 m2).ne'
    field_simp

theorem cpow_sound {π : K} (hπ : 0 < π) {a : Nat × Nat × Int} (a1 : 0 < a.1) (a2 : 0 < a.2.1) (e : Int) :
    0 < (cpow a e).1 ∧ 0 < (cpow a e).2.1 ∧ coefVal π (cpow a e) = coefVal π a ^ e := by
  unfold cpow
  by_cases he : 0 ≤ e
  · rw [if_pos he]
    refine ⟨Nat.pow_pos a1, Nat.pow_pos a2, ?_⟩
    obtain ⟨m, rfl⟩ := Int.eq_ofNat_of_zero_le he
    simp only [coefVal, Int.toNat_natCast]
    push_cast
    rw [mul_zpow, div_zpow, zpow_natCast, zpow_natCast, ← zpow_mul]
  · rw [if_neg he]
    refine ⟨Nat.pow_pos a2, Nat.pow_pos a1, ?_⟩
    obtain ⟨m, hm⟩ := Int.eq_ofNat_of_zero_le (show 0 ≤ -e by omega)
    have hm' : e = -(m : ℤ) := by omega
    subst hm'
    simp only [coefVal, neg_neg, Int.toNat_natCast]
    push_cast
    rw [mul_zpow, div_zpow, zpow_neg, zpow_neg, zpow_natCast, zpow_natCast, inv_div_inv, ← zpow_mul]

theorem cmul_sound {π : K} (hπ : 0 < π) (s t : Nat × Nat × Int) :
    coefVal π (cmul s t) = coefVal π s * coefVal π t := by
  simp only [coefVal, cmul]
  push_cast
  rw [zpow_add₀ hπ.ne', mul_div_mul_comm]
  ring

theorem cprod_sound (h : Hasher) {π : K} (hπ : 0 < π) : ∀ (us : List (String × Int)) (t : Nat × Nat × Int) (y : List Int),
    cprodOf us = some (t, y) → y.length = 8 ∧ 0 < t.1 ∧ 0 < t.2.1 ∧
      (∀ u ∈ us, (⟨.constant, u.1⟩ : UKey) ∈ (loaded saneTable π h).units.map Prod.fst) ∧
      ∀ v : Valuation (loaded saneTable π h),
        (us.map fun u => v.size (unitDim ⟨.constant, u.1⟩) ^ u.2).prod = coefVal π t * gsize v.val baseKeys y
  | [], t, y, hp => by
      simp only [cprodOf, Option.some.injEq, Prod.mk.injEq] at hp
      obtain ⟨rfl, rfl⟩ := hp
      refine ⟨by simp, by simp, by simp, by simp, fun v => ?_⟩
      rw [gsize_zero]; simp [coefVal]
  | (l, e) :: us, t, y, hp => by
      simp only [cprodOf] at hp
      rcases hj : constOf l with _ | ⟨a, x⟩
      · simp [hj] at hp
      rcases hu : cprodOf us with _ | ⟨t', y'⟩
      · simp [hj, hu] at hp
      simp only [hj, hu, Option.some.injEq, Prod.mk.injEq] at hp
      obtain ⟨rfl, rfl⟩ := hp
      obtain ⟨l8, t1, t2, kn, hv⟩ := cprod_sound h hπ us t' y' hu
      obtain ⟨x8, a1, a2, ka, hva⟩ := const_sound h hπ hj
      obtain ⟨p1, p2, p3⟩ := cpow_sound hπ a1 a2 e
      refine ⟨by simp [x8, l8], Nat.mul_pos p1 t1, Nat.mul_pos p2 t2, ?_, fun v => ?_⟩
      · intro u hu'
        rcases List.mem_cons.1 hu' with rfl | hu'
        · exact ka
        · exact kn u hu'
      · rw [List.map_cons, List.prod_cons, hv v, hva v, cmul_sound hπ, p3, mul_zpow, ← gsize_int _ v.pos x x8,
          gsize_add v.pos _ _ _ (by rw [baseKeys_length]; simpa using x8) (by rw [l8, baseKeys_length])]
        ring

theorem near_sound {π : K} (hlo : (314159265358979 : K) / 10 ^ 14 < π) (hhi : π < (314159265358980 : K) / 10 ^ 14)
    {n d : Nat} (hd : 0 < d) {m : Int} {tol : Nat} (hn : near n d m tol = true) :
    |(n : K) / d * π ^ m - 1| ≤ 1 / 10 ^ tol := by
  have hT : (0 : K) < 10 ^ tol := by positivity
  have hD : (0 : K) < d := Nat.cast_pos.2 hd
  have hN : (0 : K) ≤ n := Nat.cast_nonneg n
  have hπ : (0 : K) < π := lt_trans (by positivity) hlo
  have hsub : ((10 ^ tol - 1 : ℕ) : K) = 10 ^ tol - 1 := by
    rw [Nat.cast_sub (Nat.one_le_pow _ _ (by norm_num))]; push_cast; rfl
  have h14 : (0 : K) < 10 ^ 14 := by positivity
  have hl' : (314159265358979 : K) < π * 10 ^ 14 := (div_lt_iff₀ h14).1 hlo
  have hh' : π * 10 ^ 14 < (314159265358980 : K) := (lt_div_iff₀ h14).1 hhi
  have h15 : (100000000000000 : K) = 10 ^ 14 := by norm_num
  unfold near at hn
  have goal : ∀ P : K, 0 < P → (d : K) * (10 ^ tol - 1) ≤ n * P * 10 ^ tol → n * P * 10 ^ tol ≤ d * (10 ^ tol + 1) →
      |(n : K) / d * P - 1| ≤ 1 / 10 ^ tol := by
    intro P _ h1 h2
    have e : (n : K) / d * P - 1 = (n * P * 10 ^ tol - d * 10 ^ tol) / d * (1 / 10 ^ tol) := by
      field_simp
    rw [e, abs_mul, abs_of_pos (show (0 : K) < 1 / 10 ^ tol by positivity), abs_div, abs_of_pos hD]
    refine mul_le_of_le_one_left (by positivity) ((div_le_one hD).2 (abs_le.2 ⟨?_, ?_⟩)) <;> linarith
  by_cases hm : 0 ≤ m
  · rw [if_pos hm, Bool.and_eq_true, Nat.ble_eq, Nat.ble_eq] at hn
    obtain ⟨j, rfl⟩ := Int.eq_ofNat_of_zero_le hm
    simp only [Int.toNat_natCast] at hn
    have h1 := (Nat.cast_le (α := K)).2 hn.1
    have h2 := (Nat.cast_le (α := K)).2 hn.2
    push_cast at h1 h2
    rw [hsub, h15] at h1
    rw [h15] at h2
    have hc : (0 : K) < (10 ^ 14) ^ j := by positivity
    have b1 : (314159265358979 : K) ^ j ≤ (π * 10 ^ 14) ^ j := pow_le_pow_left₀ (by norm_num) hl'.le _
    have b2 : (π * 10 ^ 14) ^ j ≤ (314159265358980 : K) ^ j := pow_le_pow_left₀ (by positivity) hh'.le _
    rw [mul_pow] at b1 b2
    rw [zpow_natCast]
    refine goal (π ^ j) (by positivity) (le_of_mul_le_mul_right ?_ hc) (le_of_mul_le_mul_right ?_ hc)
    · refine h1.trans ?_
      have := mul_le_mul_of_nonneg_right (mul_le_mul_of_nonneg_left b1 hN) hT.le
      linarith [this]
    · refine le_trans ?_ h2
      have := mul_le_mul_of_nonneg_right (mul_le_mul_of_nonneg_left b2 hN) hT.le
      linarith [this]
  · rw [if_neg hm, Bool.and_eq_true, Nat.ble_eq, Nat.ble_eq] at hn
    obtain ⟨j, hj⟩ := Int.eq_ofNat_of_zero_le (show 0 ≤ -m by omega)
    have hm' : m = -(j : ℤ) := by omega
    subst hm'
    simp only [neg_neg, Int.toNat_natCast] at hn
    have h1 := (Nat.cast_le (α := K)).2 hn.1
    have h2 := (Nat.cast_le (α := K)).2 hn.2
    push_cast at h1 h2
    rw [hsub, h15] at h1
    rw [h15] at h2
    have hc : (0 : K) < (10 ^ 14) ^ j := by positivity
    have b1 : (314159265358979 : K) ^ j ≤ (π * 10 ^ 14) ^ j := pow_le_pow_left₀ (by norm_num) hl'.le _
    have b2 : (π * 10 ^ 14) ^ j ≤ (314159265358980 : K) ^ j := pow_le_pow_left₀ (by positivity) hh'.le _
    rw [mul_pow] at b1 b2
    have hP : (0 : K) < π ^ j := by positivity
    have hT1 : (0 : K) ≤ 10 ^ tol - 1 := by
      rw [← hsub]; exact Nat.cast_nonneg _
    rw [zpow_neg, zpow_natCast]
    refine goal (π ^ j)⁻¹ (by positivity) (le_of_mul_le_mul_right ?_ (mul_pos hP hc)) (le_of_mul_le_mul_right ?_ (mul_pos hP hc))
    · have e : (n : K) * (π ^ j)⁻¹ * 10 ^ tol * (π ^ j * (10 ^ 14) ^ j) = n * (10 ^ 14) ^ j * 10 ^ tol := by
        field_simp
      rw [e]
      refine le_trans ?_ h1
      exact mul_le_mul_of_nonneg_left b2 (mul_nonneg hD.le hT1)
    · have e : (n : K) * (π ^ j)⁻¹ * 10 ^ tol * (π ^ j * (10 ^ 14) ^ j) = n * (10 ^ 14) ^ j * 10 ^ tol := by
        field_simp
      rw [e]
      refine h2.trans ?_
      exact mul_le_mul_of_nonneg_left b1 (by positivity)

/-- A law that passes the check holds. -/
theorem law_sound (h : Hasher) {π : K} (hlo : (314159265358979 : K) / 10 ^ 14 < π)
    (hhi : π < (314159265358980 : K) / 10 ^ 14) {s : Law} (hok : lawOK s = true) :
    (⟨.constant, s.name⟩ : UKey) ∈ (loaded saneTable π h).units.map Prod.fst ∧
    (∀ x ∈ s.consts, (⟨.constant, x.1⟩ : UKey) ∈ (loaded saneTable π h).units.map Prod.fst) ∧
    ∃ rs : List Row, List.Forall₂ (fun (u : String × Int) r => r ∈ unitTable ∧ u.1 ∈ r.labels) s.units rs ∧
      ∃ ρ : K, |ρ - 1| ≤ 1 / 10 ^ s.tol ∧ ∀ v : Valuation (loaded saneTable π h),
        v.size (unitDim ⟨.constant, s.name⟩) = ρ * ((s.p : K) / s.q * π ^ s.pi *
          ((s.consts.map fun x => v.size (unitDim ⟨.constant, x.1⟩) ^ x.2).prod *
          (List.zipWith (fun (u : String × Int) (r : Row) => v.size (unitDim r.key) ^ u.2) s.units rs).prod)) := by
  have hπ : (0 : K) < π := lt_trans (by positivity) hlo
  unfold lawOK at hok
  rcases ha : constOf s.name with _ | ⟨a, x⟩
  · simp [ha] at hok
  rcases hc : cprodOf s.consts with _ | ⟨t, y⟩
  · simp [ha, hc] at hok
  rcases hu : prodOf s.units with _ | ⟨t', y'⟩
  · simp [ha, hc, hu] at hok
  simp only [ha, hc, hu, Bool.and_eq_true, Nat.blt_eq, decide_eq_true_eq] at hok
  obtain ⟨⟨⟨p0, q0⟩, rfl⟩, hn⟩ := hok
  obtain ⟨-, a1, a2, ka, va⟩ := const_sound h hπ ha
  obtain ⟨y8, t1, t2, kc, vc⟩ := cprod_sound h hπ _ _ _ hc
  obtain ⟨y8', u1, u2, rs, f2, vu⟩ := prod_sound h hπ _ _ _ hu
  refine ⟨ka, kc, rs, f2, _, near_sound hlo hhi (Nat.mul_pos a2 (Nat.mul_pos (Nat.mul_pos p0 t1) u1)) hn, fun v => ?_⟩
  rw [vc v, vu v, va v, gsize_add v.pos _ _ _ (by rw [y8, baseKeys_length]) (by rw [y8', baseKeys_length])]
  generalize gsize v.val baseKeys y = G
  generalize gsize v.val baseKeys y' = G'
  have m1 : (a.1 : K) ≠ 0 := (Nat.cast_pos (α := K).2 a1).ne'
  have m2 : (a.2.1 : K) ≠ 0 := (Nat.cast_pos (α := K).2 a2).ne'
  have m3 : (s.p : K) ≠ 0 := (Nat.cast_pos (α := K).2 p0).ne'
  have m4 : (s.q : K) ≠ 0 := (Nat.cast_pos (α := K).2 q0).ne'
  have m5 : (t.1 : K) ≠ 0 := (Nat.cast_pos (α := K).2 t1).ne'
  have m6 : (t.2.1 : K) ≠ 0 := (Nat.cast_pos (α := K).2 t2).ne'
  have m7 : (t'.1 : K) ≠ 0 := (Nat.cast_pos (α := K).2 u1).ne'
  have m8 : (t'.2.1 : K) ≠ 0 := (Nat.cast_pos (α := K).2 u2).ne'
  unfold coefVal
  rw [zpow_sub₀ hπ.ne', zpow_sub₀ hπ.ne', zpow_sub₀ hπ.ne']
  have z1 := (zpow_pos hπ s.pi).ne'
  have z2 := (zpow_pos hπ t.2.2).ne'
  have z3 := (zpow_pos hπ t'.2.2).ne'
  generalize π ^ s.pi = w1 at *
  generalize π ^ t.2.2 = w2 at *
  generalize π ^ t'.2.2 = w3 at *
  generalize π ^ a.2.2 = w4 at *
  push_cast
  field_simp

end PQ.Shipped
