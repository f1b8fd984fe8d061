import Verif.Lemmas.UnitText
import Verif.Lemmas.Size

/-! # Evaluating a unit expression -/

namespace PQ

open Dict LawfulRPow

variable {K : Type _}

set_option linter.unusedSectionVars false

section
variable [Field K] [LinearOrder K] [IsStrictOrderedRing K] [RPow K] [LawfulRPow K]

theorem UX.number_exponent (w : World K) (u : UKey) (e : UX) :
    ∀ x, e.number = some x → e.exponent w u = 0 := by
  induction e with
  | name s => simp [UX.number]
  | num q => simp [UX.exponent]
  | neg a ih =>
    intro x hx
    simp only [UX.number, Option.map_eq_some_iff] at hx
    obtain ⟨y, hy, -⟩ := hx
    simpa [UX.exponent] using ih y hy
  | mul a b iha ihb =>
    intro x hx
    simp only [UX.number, Option.bind_eq_some_iff, Option.map_eq_some_iff] at hx
    obtain ⟨y, hy, z, hz, -⟩ := hx
    simp [UX.exponent, iha y hy, ihb z hz]
  | div a b iha ihb =>
    intro x hx
    simp only [UX.number, Option.bind_eq_some_iff, Option.map_eq_some_iff] at hx
    obtain ⟨y, hy, z, hz, -⟩ := hx
    simp [UX.exponent, iha y hy, ihb z hz]
  | pow a b iha ihb =>
    intro x hx
    simp only [UX.number, Option.bind_eq_some_iff, Option.map_eq_some_iff] at hx
    obtain ⟨y, hy, z, hz, -⟩ := hx
    simp [UX.exponent, iha y hy]

theorem rpow_defined_int {x : K} {n : ℤ} (h : PowDefined x (n : ℚ)) : rpow x (n : ℚ) = x ^ n := by
  have key : x ≠ 0 ∨ ∃ m : ℕ, n = m := by
    rcases h with h | ⟨m, hm⟩ | ⟨h, -⟩
    · exact Or.inl h.ne'
    · exact Or.inr ⟨m, by exact_mod_cast hm⟩
    · exact Or.inl h
  rcases key with h | ⟨m, rfl⟩
  · exact rpow_intCast x n h
  · rw [Int.cast_natCast, rpow_natCast, zpow_natCast]

theorem UX.number_factor (w : World K) (e : UX) (hs : e.Sensible w) :
    ∀ x, e.number = some x → (e.factor : K) = (x : K) := by
  induction e with
  | name s => simp [UX.number]
  | num q => intro x hx; simp only [UX.number, Option.some.injEq] at hx; subst hx; rfl
  | neg a ih =>
    intro x hx
    simp only [UX.number, Option.map_eq_some_iff] at hx
    obtain ⟨y, hy, rfl⟩ := hx
    rw [UX.factor, ih hs y hy, Rat.cast_neg]
  | mul a b iha ihb =>
    intro x hx
    simp only [UX.number, Option.bind_eq_some_iff, Option.map_eq_some_iff] at hx
    obtain ⟨y, hy, z, hz, rfl⟩ := hx
    rw [UX.factor, iha hs.1 y hy, ihb hs.2 z hz, Rat.cast_mul]
  | div a b iha ihb =>
    intro x hx
    simp only [UX.number, Option.bind_eq_some_iff, Option.map_eq_some_iff] at hx
    obtain ⟨y, hy, z, hz, rfl⟩ := hx
    rw [UX.factor, iha hs.1 y hy, ihb hs.2.1 z hz, Rat.cast_div]
  | pow a b iha ihb =>
    intro x hx
    simp only [UX.number, Option.bind_eq_some_iff, Option.map_eq_some_iff] at hx
    obtain ⟨y, hy, z, hz, rfl⟩ := hx
    obtain ⟨ha, -, z', hz', hd, hn⟩ := hs
    rw [hz] at hz'
    simp only [Option.some.injEq] at hz'
    subst hz'
    obtain ⟨n, rfl⟩ := hn (by simp [hy])
    rw [iha ha y hy] at hd
    rw [UX.factor, iha ha y hy, hz]
    simp only [Option.getD_some, Rat.num_intCast]
    rw [rpow_defined_int hd, Rat.cast_zpow]

omit [LinearOrder K] [IsStrictOrderedRing K] [LawfulRPow K] in
theorem asQty_num (x : ℚ) : (RVal.const (.num x) : RVal K).asQty = none := rfl

omit [Field K] [LinearOrder K] [IsStrictOrderedRing K] [LawfulRPow K] [RPow K] in
theorem asNum_num (x : ℚ) : (RVal.const (.num x) : RVal K).asNum = some x := rfl

/-- The value of a sensible expression. -/
theorem eval_denotes (F : PyOps K) (w : World K) (e : UX) (hs : e.Sensible w) :
    ∃ v, evalTree (stdOps F) w e.ast = .ok v ∧ Denotes w v e := by
  induction e with
  | name s =>
    obtain ⟨u, hu⟩ := Option.isSome_iff_exists.1 hs
    have hctx : w.context s = .ok (.unit u) := by
      have : get? w.registry (String.ofList s) = some u := hu
      simp [World.context, this]
    refine ⟨.unit u, hctx, by simp [UX.number], fun _ => ⟨⟨1, unitDim u⟩, rfl, rfl, ?_, ?_⟩⟩
    · simp only [unitDim]
      split
      · exact Canon.nil
      · exact canon_single u one_ne_zero
    · intro x
      simp only [unitDim, UX.exponent, hu, Option.some.injEq]
      by_cases hc : u.cls = .dimensionless
      · rw [if_pos hc, if_neg]
        · simp [expo, get?]
        · rintro ⟨rfl, h⟩; exact h hc
      · rw [if_neg hc, expo_cons]
        by_cases hx : u = x
        · subst hx; simp [hc]
        · simp [hx, expo, get?]
  | num q => exact ⟨.const (.num q), rfl, by simp [UX.number], by simp [UX.number]⟩
  | neg a ih =>
    obtain ⟨v, hv, h1, h2⟩ := ih hs
    rcases hn : a.number with _ | x
    · obtain ⟨q, hq, hm, hc, he⟩ := h2 hn
      refine ⟨.qty ⟨- q.mag, q.dim⟩, ?_, by simp [UX.number, hn], fun _ => ⟨_, rfl, ?_, hc, he⟩⟩
      · rw [UX.ast, evalTree, hv]
        simp only [stdOps, stdUn, hq]
      · simp only [hm]; rfl
    · rw [h1 x hn] at hv
      refine ⟨.const (.num (- x)), ?_, ?_, by simp [UX.number, hn]⟩
      · rw [UX.ast, evalTree, hv]; rfl
      · intro y hy; simp only [UX.number, hn, Option.map_some, Option.some.injEq] at hy; rw [hy]
  | mul a b iha ihb =>
    obtain ⟨v, hv, h1, h2⟩ := iha hs.1
    obtain ⟨v', hv', h1', h2'⟩ := ihb hs.2
    rcases hn : a.number with _ | x
    · obtain ⟨q, hq, hm, hc, he⟩ := h2 hn
      rcases hn' : b.number with _ | y
      · obtain ⟨q', hq', hm', hc', he'⟩ := h2' hn'
        refine ⟨.qty ⟨q.mag * q'.mag, Dim.mul q.dim q'.dim⟩, ?_, by simp [UX.number, hn],
          fun _ => ⟨_, rfl, ?_, ?_, ?_⟩⟩
        · rw [UX.ast, evalTree, hv, hv']; simp only [stdOps, stdBin, hq, hq']
        · simp only [hm, hm']; rfl
        · exact canon_mul hc hc'.nonzero
        · intro u; rw [expo_mul hc.nodup hc'.nodup, he, he']; rfl
      · rw [h1' y hn'] at hv'
        refine ⟨.qty ⟨q.mag * (y : K), q.dim⟩, ?_, by simp [UX.number, hn], fun _ => ⟨_, rfl, ?_, hc, ?_⟩⟩
        · rw [UX.ast, evalTree, hv, hv']
          simp only [stdOps, stdBin, hq, asQty_num, asNum_num, asNum_none hq]
        · simp only [hm, UX.factor, b.number_factor w hs.2 y hn']
        · intro u; simp only [UX.exponent, b.number_exponent w u y hn', add_zero]; exact he u
    · rw [h1 x hn] at hv
      rcases hn' : b.number with _ | y
      · obtain ⟨q', hq', hm', hc', he'⟩ := h2' hn'
        refine ⟨.qty ⟨(x : K) * q'.mag, q'.dim⟩, ?_, by simp [UX.number, hn'],
          fun _ => ⟨_, rfl, ?_, hc', ?_⟩⟩
        · rw [UX.ast, evalTree, hv, hv']
          simp only [stdOps, stdBin, hq', asQty_num, asNum_num, asNum_none hq']
        · simp only [hm', UX.factor, a.number_factor w hs.1 x hn]
        · intro u; simp only [UX.exponent, a.number_exponent w u x hn, zero_add]; exact he' u
      · rw [h1' y hn'] at hv'
        refine ⟨.const (.num (x * y)), ?_, ?_, by simp [UX.number, hn, hn']⟩
        · rw [UX.ast, evalTree, hv, hv']; rfl
        · intro z hz
          simp only [UX.number, hn, hn', Option.bind_some, Option.map_some, Option.some.injEq] at hz
          rw [hz]
  | div a b iha ihb =>
    obtain ⟨v, hv, h1, h2⟩ := iha hs.1
    obtain ⟨v', hv', h1', h2'⟩ := ihb hs.2.1
    rcases hn : a.number with _ | x
    · obtain ⟨q, hq, hm, hc, he⟩ := h2 hn
      rcases hn' : b.number with _ | y
      · obtain ⟨q', hq', hm', hc', he'⟩ := h2' hn'
        refine ⟨.qty ⟨q.mag / q'.mag, Dim.div q.dim q'.dim⟩, ?_, by simp [UX.number, hn],
          fun _ => ⟨_, rfl, ?_, ?_, ?_⟩⟩
        · rw [UX.ast, evalTree, hv, hv']; simp only [stdOps, stdBin, hq, hq']
        · simp only [hm, hm']; rfl
        · exact canon_div hc hc'.nonzero
        · intro u; rw [expo_div hc.nodup hc'.nodup, he, he']; rfl
      · rw [h1' y hn'] at hv'
        refine ⟨.qty ⟨q.mag / (y : K), q.dim⟩, ?_, by simp [UX.number, hn], fun _ => ⟨_, rfl, ?_, hc, ?_⟩⟩
        · rw [UX.ast, evalTree, hv, hv']
          simp only [stdOps, stdBin, hq, asQty_num, asNum_num, asNum_none hq]
        · simp only [hm, UX.factor, b.number_factor w hs.2.1 y hn']
        · intro u; simp only [UX.exponent, b.number_exponent w u y hn', sub_zero]; exact he u
    · rw [h1 x hn] at hv
      rcases hn' : b.number with _ | y
      · obtain ⟨q', hq', hm', hc', he'⟩ := h2' hn'
        refine ⟨.qty ⟨(x : K) / q'.mag, Dim.pow q'.dim (-1)⟩, ?_, by simp [UX.number, hn'],
          fun _ => ⟨_, rfl, ?_, canon_pow (p := -1) hc', ?_⟩⟩
        · rw [UX.ast, evalTree, hv, hv']
          simp only [stdOps, stdBin, hq', asQty_num, asNum_num, asNum_none hq']
        · simp only [hm', UX.factor, a.number_factor w hs.1 x hn]
        · intro u
          change expo (Dim.pow q'.dim (-1)) u = _
          rw [expo_pow, he']
          simp only [UX.exponent, a.number_exponent w u x hn]; ring
      · rw [h1' y hn'] at hv'
        have hy : y ≠ 0 := by
          intro h
          apply hs.2.2
          rw [b.number_factor w hs.2.1 y hn', h, Rat.cast_zero]
        refine ⟨.const (.num (x / y)), ?_, ?_, by simp [UX.number, hn, hn']⟩
        · rw [UX.ast, evalTree, hv, hv']
          simp only [stdOps, stdBin, asQty_num, asNum_num, if_neg hy]
        · intro z hz
          simp only [UX.number, hn, hn', Option.bind_some, Option.map_some, Option.some.injEq] at hz
          rw [hz]
  | pow a b iha ihb =>
    obtain ⟨ha, hb, y, hy, hd, hint⟩ := hs
    obtain ⟨v, hv, h1, h2⟩ := iha ha
    obtain ⟨v', hv', h1', -⟩ := ihb hb
    rw [h1' y hy] at hv'
    rcases hn : a.number with _ | x
    · obtain ⟨q, hq, hm, hc, he⟩ := h2 hn
      refine ⟨.qty ⟨rpow q.mag y, Dim.pow q.dim y⟩, ?_, by simp [UX.number, hn],
        fun _ => ⟨_, rfl, ?_, canon_pow hc y, ?_⟩⟩
      · rw [UX.ast, evalTree, hv, hv']
        simp only [stdOps, stdBin, hq, asQty_num, asNum_num, asNum_none hq]
      · simp only [hm, UX.factor, hy, Option.getD_some]
      · intro u; simp only [expo_pow, he, UX.exponent, hy, Option.getD_some]
    · rw [h1 x hn] at hv
      obtain ⟨n, rfl⟩ := hint (by simp [hn])
      have hz : ¬ (x = 0 ∧ (n : ℚ) < 0) := by
        rintro ⟨rfl, hneg⟩
        rw [a.number_factor w ha 0 hn, Rat.cast_zero] at hd
        rcases hd with h | ⟨m, hm⟩ | ⟨h, -⟩
        · exact lt_irrefl _ h
        · rw [hm] at hneg; exact absurd hneg (not_lt.2 (Nat.cast_nonneg m))
        · exact h rfl
      refine ⟨.const (.num (x ^ n)), ?_, ?_, by simp [UX.number, hn, hy]⟩
      · rw [UX.ast, evalTree, hv, hv']
        simp only [stdOps, stdBin, asQty_num, asNum_num, Rat.den_intCast, if_true, if_neg hz,
          Rat.num_intCast]
      · intro z hz'
        simp only [UX.number, hn, hy, Option.bind_some, Option.map_some, Option.some.injEq,
          Rat.num_intCast] at hz'
        rw [hz']

/-! ## physical value -/

theorem rpow_mul_defined {x s : K} {y : ℚ} (hs : 0 < s) (h : PowDefined x y) :
    rpow (x * s) y = rpow x y * rpow s y := by
  rcases h with h | ⟨n, rfl⟩ | ⟨h, n, rfl⟩
  · exact mul_rpow _ _ _ h hs
  · rw [rpow_natCast, rpow_natCast, rpow_natCast, mul_pow]
  · rw [rpow_intCast _ _ (mul_ne_zero h hs.ne'), rpow_intCast _ _ h, rpow_intCast _ _ hs.ne',
      mul_zpow]

theorem size_of_expo {w : World K} (v : Valuation w) {d d' : Dim} (h : Canon d) (h' : Canon d')
    (he : ∀ u, expo d u = expo d' u) : v.size d = v.size d' :=
  dsize_same v.val h.nodup h'.nodup (h.sameContent h' he)

/-- The value of an expression is its factor times the size of any dimensionality with its
exponents. -/
theorem UX.value_eq {w : World K} (v : Valuation w) (e : UX) (hs : e.Sensible w) :
    ∃ d, Canon d ∧ (∀ u, expo d u = e.exponent w u) ∧ e.value v = e.factor * v.size d := by
  induction e with
  | name s =>
    obtain ⟨u, hu⟩ := Option.isSome_iff_exists.1 hs
    by_cases hc : u.cls = .dimensionless
    · refine ⟨[], Canon.nil, ?_, ?_⟩
      · intro x
        rw [UX.exponent, if_neg]
        · simp [expo, get?]
        · rw [hu]; rintro ⟨h, h'⟩
          simp only [Option.some.injEq] at h; subst h; exact h' hc
      · simp only [UX.value, UX.factor, hu, Option.map_some, Option.getD_some, v.dimless u hc]
        simp [Valuation.size, dsize]
    · refine ⟨[(u, 1)], canon_single u one_ne_zero, ?_, ?_⟩
      · intro x
        rw [UX.exponent, hu, expo_cons]
        by_cases hx : u = x
        · subst hx; simp [hc]
        · simp [hx, expo, get?]
      · simp only [UX.value, UX.factor, hu, Option.map_some, Option.getD_some]
        simp [Valuation.size, dsize, rpow_one]
  | num q => exact ⟨[], Canon.nil, fun u => by simp [expo, get?, UX.exponent], by
      simp [UX.value, UX.factor, Valuation.size, dsize]⟩
  | neg a ih =>
    obtain ⟨d, h1, h2, h3⟩ := ih hs
    exact ⟨d, h1, h2, by rw [UX.value, UX.factor, h3, neg_mul]⟩
  | mul a b iha ihb =>
    obtain ⟨d, h1, h2, h3⟩ := iha hs.1
    obtain ⟨d', h1', h2', h3'⟩ := ihb hs.2
    refine ⟨Dim.mul d d', canon_mul h1 h1'.nonzero, ?_, ?_⟩
    · intro u; rw [expo_mul h1.nodup h1'.nodup, h2, h2']; rfl
    · have h : v.size (Dim.mul d d') = v.size d * v.size d' := dsize_mul v.pos d d'
      rw [UX.value, UX.factor, h3, h3', h]; ring
  | div a b iha ihb =>
    obtain ⟨d, h1, h2, h3⟩ := iha hs.1
    obtain ⟨d', h1', h2', h3'⟩ := ihb hs.2.1
    refine ⟨Dim.div d d', canon_div h1 h1'.nonzero, ?_, ?_⟩
    · intro u; rw [expo_div h1.nodup h1'.nodup, h2, h2']; rfl
    · have h : v.size (Dim.div d d') = v.size d / v.size d' := dsize_div v.pos d d'
      rw [UX.value, UX.factor, h3, h3', h, mul_div_mul_comm]
  | pow a b iha ihb =>
    obtain ⟨ha, -, y, hy, hd, -⟩ := hs
    obtain ⟨d, h1, h2, h3⟩ := iha ha
    refine ⟨Dim.pow d y, canon_pow h1 y, ?_, ?_⟩
    · intro u; rw [expo_pow, h2]; simp only [UX.exponent, hy, Option.getD_some]
    · rw [UX.value, UX.factor, hy, Option.getD_some, h3, Valuation.size, Valuation.size,
        dsize_pow v.pos, rpow_mul_defined (dsize_pos v.pos d) hd]

end
end PQ
