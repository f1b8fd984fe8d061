import Verif.Lemmas.Simplified
import Verif.Lemmas.NDArr
import Verif.Lemmas.ExampleSimplify

/-!
# Properties C08, C19, C20: `simplified` and the ordering of dimensionalities

`fuel` is the interpreter's recursion limit; three levels are always enough.
-/

namespace PQ

open Dict LawfulRPow World

variable {K : Type _} [Field K] [LinearOrder K] [IsStrictOrderedRing K] [RPow K] [LawfulRPow K]
variable {h : Hasher} {w : World K}

/-! ## C19 -/

theorem simplified_loop {q r : Quantity K} {fuel : Nat} (hr : q.simplified w fuel = .ok r) :
    ∃ rq, simplifiedLoop w fuel ⟨1, []⟩ q.dim = .ok rq ∧ r.dim = rq.dim ∧
      r.mag = q.mag.map (fun x => rq.mag * x) := by
  unfold Quantity.simplified at hr
  rcases hl : simplifiedLoop w fuel ⟨1, []⟩ q.dim with e | rq
  · rw [hl] at hr; exact absurd hr (by simp)
  · rw [hl] at hr; simp only [Except.ok.injEq] at hr; subst hr
    exact ⟨rq, rfl, rfl, rfl⟩

/-- C19: a returned simplification denotes the same physical value, has the same shape and is
expressed only in current default units. -/
theorem C19_value (hw : Reachable h w) (hds : DefaultsSafe w) (q r : Quantity K) (fuel : Nat)
    (hq : DimOK w q.dim) (hr : q.simplified w fuel = .ok r) :
    r.mag.shape = q.mag.shape ∧ DimOK w r.dim ∧ (∀ u ∈ r.dim.map Prod.fst, IsDefaultUnit w u) ∧
    ∀ v : Valuation w, v.phys r = v.phys q := by
  obtain ⟨rq, hl, hd, hm⟩ := simplified_loop hr
  obtain ⟨h1, h2, h3, h4, -⟩ := simplifiedLoop_spec hw.wf hds hq hl
  refine ⟨by rw [hm]; rfl, hd ▸ h2, hd ▸ h4, fun v => ?_⟩
  unfold Valuation.phys
  rw [hm, hd, NDArr.map_map]
  exact NDArr.map_congr (fun x => by rw [← h3 v]; ring) _

/-- C19: simplification returns exactly when every unit of `q` bottoms out in units that can be
converted to the default of their class. -/
theorem C19_returns (hw : Reachable h w) (hds : DefaultsSafe w) (q : Quantity K) (fuel : Nat)
    (hf : 3 ≤ fuel) (hq : DimOK w q.dim) :
    Returns (q.simplified w fuel) ↔ ∀ kv ∈ q.dim, Simplifies w kv.1 := by
  obtain ⟨n, rfl⟩ := Nat.exists_eq_add_of_le hf
  have h1 : Returns (q.simplified w (3 + n)) ↔ Returns (simplifiedLoop w (3 + n) ⟨1, []⟩ q.dim) := by
    unfold Quantity.simplified
    rcases simplifiedLoop w (3 + n) ⟨1, []⟩ q.dim with e | rq
    · exact ⟨fun h => absurd h (not_returns_error _), fun h => absurd h (not_returns_error _)⟩
    · exact ⟨fun _ => returns_ok _, fun _ => returns_ok _⟩
  rw [h1, simplifiedLoop_returns]
  constructor
  · intro hh kv hkv
    have := hh kv hkv
    rw [Nat.add_comm] at this
    exact (unitSimplified_returns hw.wf hds (hq.known kv hkv) n).1 this
  · intro hh kv hkv
    rw [Nat.add_comm]
    exact (unitSimplified_returns hw.wf hds (hq.known kv hkv) n).2 (hh kv hkv)

/-- C19: simplifying a simplified quantity changes neither magnitudes nor units. -/
theorem C19_idempotent (hw : Reachable h w) (hds : DefaultsSafe w) (hg : GoodDefaults w)
    (q r r' : Quantity K) (f₁ f₂ : Nat) (hq : DimOK w q.dim) (hr : q.simplified w f₁ = .ok r)
    (hr' : r.simplified w f₂ = .ok r') : r'.mag = r.mag ∧ SameContent r'.dim r.dim := by
  obtain ⟨rq, hl, hd, hm⟩ := simplified_loop hr
  obtain ⟨rq', hl', hd', hm'⟩ := simplified_loop hr'
  obtain ⟨h1, h2, h3, h4, -⟩ := simplifiedLoop_spec hw.wf hds hq hl
  have hrd : DimOK w r.dim := hd ▸ h2
  obtain ⟨h1', h2', h3', h4', -⟩ := simplifiedLoop_spec hw.wf hds hrd hl'
  have hcomp : Compatible w r.dim q.dim := by
    refine ⟨rq.mag⁻¹, fun v => ?_⟩
    rw [← h3 v, hd]; field_simp
  have hc : SameContent rq'.dim rq.dim := (simplified_content hw.wf hds hg hrd hq hl' hl).2 hcomp
  refine ⟨?_, by rw [hd', hd]; exact hc⟩
  have h5 : rq'.mag = 1 := by
    obtain ⟨v⟩ := exists_valuation hw.wf
    have e := h3' v
    have e2 : v.size rq'.dim = v.size r.dim := by
      rw [hd]; exact dsize_same v.val h2'.canon.nodup h2.canon.nodup hc
    rw [e2] at e
    have hp := (v.size_pos r.dim).ne'
    have : rq'.mag * v.size r.dim = 1 * v.size r.dim := by rw [one_mul]; exact e
    exact mul_right_cancel₀ hp this
  rw [hm', h5]
  exact NDArr.map_id' (fun x => one_mul x) _

/-- C19: if the default units themselves simplify (they do when each is a unit of its class), the
second simplification does return. -/
theorem C19_idempotent_returns (hw : Reachable h w) (hds : DefaultsSafe w)
    (hself : ∀ u, IsDefaultUnit w u → Simplifies w u) (q r : Quantity K) (fuel : Nat)
    (hf : 3 ≤ fuel) (hq : DimOK w q.dim) (hr : q.simplified w fuel = .ok r) :
    Returns (r.simplified w fuel) := by
  obtain ⟨-, h2, h3, -⟩ := C19_value hw hds q r fuel hq hr
  rw [C19_returns hw hds r fuel hf h2]
  exact fun kv hkv => hself _ (h3 _ (List.mem_map.2 ⟨kv, hkv, rfl⟩))

/-- 3 km*Hz -/
noncomputable def exS : Quantity ℝ := ⟨NDArr.scalar 3, [(uKm, 1), (uHz, 1)]⟩

theorem exS_ok : DimOK exWorld exS.dim :=
  ⟨⟨by decide, by simp [exS]⟩, by rw [exKeys]; simp [exS], by simp [exS, uKm, uHz]⟩

theorem exS_returns : Returns (exS.simplified exWorld 3) :=
  (C19_returns exWorld_reachable ex_defaultsSafe exS 3 le_rfl exS_ok).2 (by
    simp only [exS, List.mem_cons, List.not_mem_nil, or_false, forall_eq_or_imp, forall_eq]
    exact ⟨Or.inl ex_meets_km, ex_simplifies_hz⟩)

example : ∃ r r', exS.simplified exWorld 3 = .ok r ∧ r.simplified exWorld 3 = .ok r' ∧ r'.mag = r.mag := by
  obtain ⟨r, hr⟩ := exS_returns
  obtain ⟨r', hr'⟩ := C19_idempotent_returns exWorld_reachable ex_defaultsSafe ex_default_simplifies
    exS r 3 le_rfl exS_ok hr
  exact ⟨r, r', hr, hr', (C19_idempotent exWorld_reachable ex_defaultsSafe ex_goodDefaults exS r r' 3 3
    exS_ok hr hr').1⟩

/-- C65, for units that bottom out in units convertible to the default of their class (all shipped units
but one, `C79_simplified_partial`): `simplified` returns, whatever the recursion limit above 3.
Missing: units created without a definition, `C65_false_undefined`. -/
theorem C65_returns_partial (hw : Reachable h w) (hds : DefaultsSafe w) (q : Quantity K) (fuel : Nat)
    (hf : 3 ≤ fuel) (hq : DimOK w q.dim) (hu : ∀ kv ∈ q.dim, Simplifies w kv.1) :
    Returns (q.simplified w fuel) := (C19_returns hw hds q fuel hf hq).2 hu

/-- C65 does not hold for every quantity: a unit created without a definition outside the base-unit
classes (`UnitQuantity('foo')`) makes `simplified` recurse until the interpreter's limit. -/
theorem C65_false_undefined : ∃ w : World ℝ, Reachable exH w ∧ ∃ u : UKey, DimOK w [(u, 1)] ∧
    ∀ (fuel : Nat) (m : NDArr ℝ),
      (⟨m, [(u, 1)]⟩ : Quantity ℝ).simplified w fuel = .error .recursionError := by
  let a : NewUnit ℝ := { cls := .unitQuantity, name := "foo", definition := .none }
  refine ⟨(Op.run (exWorldN 5) (.newUnit a)).2, Reachable.step _ exWorld_reachable
    ⟨by simp [a, DefArg.toDef], by simp [a]⟩, ⟨.unitQuantity, "foo"⟩,
    ⟨⟨by decide, by simp⟩, ?_, by simp⟩, ?_⟩
  · have : (Op.run (exWorldN 5) (.newUnit a)).2.units.map Prod.fst =
      [⟨.dimensionless, "dimensionless"⟩, uM, uKm, uS, uHz, ⟨.unitQuantity, "foo"⟩] := by rfl
    rw [this]; simp
  · intro fuel m
    unfold Quantity.simplified
    rw [simplifiedLoop, unitSimplified_undefined rfl rfl]

/-! ## C20 -/

/-- C20: the simplified dimensionalities of `a` and `b` are equal (`==`) exactly when `a` can be
rescaled to the units of `b`. -/
theorem C20_simplified_iff_rescale (hw : Reachable h w) (hds : DefaultsSafe w) (hg : GoodDefaults w)
    (a b ra rb : Quantity K) (f₁ f₂ : Nat) (ha : DimOK w a.dim) (hb : DimOK w b.dim)
    (hs : HashSafe w a.dim b.dim) (hsr : NoColl w ra.dim rb.dim)
    (hra : a.simplified w f₁ = .ok ra) (hrb : b.simplified w f₂ = .ok rb) :
    w.deq ra.dim rb.dim = true ↔ Returns (a.rescale w b.dim) := by
  obtain ⟨qa, la, da, -⟩ := simplified_loop hra
  obtain ⟨qb, lb, db, -⟩ := simplified_loop hrb
  have oka := (simplifiedLoop_spec hw.wf hds ha la).2.1
  have okb := (simplifiedLoop_spec hw.wf hds hb lb).2.1
  rw [rescale_returns hw.wf ha hb hs, ← simplified_content hw.wf hds hg ha hb la lb, ← da, ← db]
  exact ⟨fun h => hsr h, fun h => deq_same (da ▸ oka.canon.nodup) (db ▸ okb.canon.nodup) h⟩

example : NoColl exWorld dM dM ∧ HashSafe exWorld dKm dM ∧ GoodDefaults exWorld :=
  ⟨fun _ => SameContent.refl _, ex_safe_km_m, ex_goodDefaults⟩

/-! ## C08 -/

/-- C08: the four order comparisons of dimensionalities (`dimensionality.py` 205-215) are the
comparisons of the number of base dimensions, hence a total preorder with consistent operators. -/
theorem C08_total_preorder (fuel : Nat) (a b c : Dim) (na nb nc : ℚ)
    (ha : Dim.ndims w fuel a = .ok na) (hb : Dim.ndims w fuel b = .ok nb)
    (hc : Dim.ndims w fuel c = .ok nc) :
    Dim.le w fuel a a = .ok true ∧
    (Dim.le w fuel a b = .ok true ∨ Dim.le w fuel b a = .ok true) ∧
    (Dim.le w fuel a b = .ok true → Dim.le w fuel b c = .ok true → Dim.le w fuel a c = .ok true) ∧
    (Dim.lt w fuel a b = .ok true ↔ Dim.le w fuel b a = .ok false) ∧
    (Dim.gt w fuel a b = Dim.lt w fuel b a) ∧ (Dim.ge w fuel a b = Dim.le w fuel b a) := by
  simp only [Dim.le, Dim.lt, Dim.gt, Dim.ge, Dim.cmp, ha, hb, hc, Except.ok.injEq, decide_eq_true_eq,
    decide_eq_false_iff_not, ge_iff_le, gt_iff_lt, not_le, le_refl, true_and, and_true]
  exact ⟨le_total _ _, fun h1 h2 => le_trans h1 h2⟩

theorem absSum_perm {a b : Dim} (hp : a.Perm b) : Dim.absSum a = Dim.absSum b := by
  unfold Dim.absSum
  exact (hp.map _).sum_eq

/-- C08: the number of base dimensions, and with it the order, depends only on the physical
dimension: compatible dimensionalities are indistinguishable in it. -/
theorem C08_physical (hw : Reachable h w) (hds : DefaultsSafe w) (hg : GoodDefaults w) (fuel : Nat)
    (a b : Dim) (ha : DimOK w a) (hb : DimOK w b) (hc : Compatible w a b) (na nb : ℚ)
    (hna : Dim.ndims w fuel a = .ok na) (hnb : Dim.ndims w fuel b = .ok nb) : na = nb := by
  have key : ∀ (d : Dim) (n : ℚ), DimOK w d → Dim.ndims w fuel d = .ok n →
      ∃ rq, simplifiedLoop w fuel ⟨1, []⟩ d = .ok rq ∧ n = Dim.absSum rq.dim := by
    intro d n hd hn
    unfold Dim.ndims Dim.simplified at hn
    cases d with
    | nil =>
      refine ⟨⟨1, []⟩, by simp [simplifiedLoop], ?_⟩
      have : Dim.absSum [] = n := by simpa [Except.map] using hn
      exact this.symm
    | cons kv d =>
      rw [if_neg (by simp)] at hn
      rcases hl : simplifiedLoop w fuel ⟨1, []⟩ (kv :: d) with e | rq
      · rw [hl] at hn; simp [Except.map] at hn
      · rw [hl] at hn
        refine ⟨rq, rfl, ?_⟩
        have : Dim.absSum rq.dim = n := by simpa [Except.map] using hn
        exact this.symm
  obtain ⟨qa, la, rfl⟩ := key a na ha hna
  obtain ⟨qb, lb, rfl⟩ := key b nb hb hnb
  have oka := (simplifiedLoop_spec hw.wf hds ha la).2.1
  have okb := (simplifiedLoop_spec hw.wf hds hb lb).2.1
  have := (simplified_content hw.wf hds hg ha hb la lb).2 hc
  exact absSum_perm (perm_of_get?_eq oka.canon.nodup okb.canon.nodup this)

theorem exNdims_km : Dim.ndims exWorld 3 dKm = .ok 1 := by
  have h1 : Dim.ndims exWorld 3 dKm = .ok (Dim.absSum [(uM, 1)]) := by
    have hs : ∃ s, unitSimplified exWorld 3 uKm = .ok s := by
      have := (unitSimplified_returns exWorld_wf ex_defaultsSafe (u := uKm) (by rw [exKeys]; simp) 0).2
        (Or.inl ex_meets_km)
      exact this
    obtain ⟨s, hs⟩ := hs
    have hd : s.dim = dM := by
      have h2 := hs
      rw [unitSimplified, if_pos (by rfl), exDefaults] at h2
      simp only [uKm] at h2
      unfold World.rescaleS at h2
      rw [if_neg (by
        have : exWorld.deq dKm dM = false := ex_deq_km_m
        simpa [unitDim, dKm, uKm] using this)] at h2
      rcases hc : exWorld.convFactor (unitDim ⟨.length, "kilometer"⟩) dM with e | cf
      · simp only [hc] at h2
        have := convFactor_error hc; subst this
        exact absurd h2 (by simp)
      · simp only [hc, Except.ok.injEq] at h2
        rw [← h2]
    unfold Dim.ndims Dim.simplified
    rw [if_neg (by simp [dKm]), dKm, simplifiedLoop, hs]
    simp only [simplifiedLoop, hd]
    have : Dim.mul [] (Dim.pow dM 1) = [(uM, 1)] := by decide +kernel
    rw [this]
    rfl
  rw [h1]
  simp [Dim.absSum]

example : Compatible exWorld dKm dM ∧ Dim.ndims exWorld 3 dKm = .ok 1 := ⟨ex_compat, exNdims_km⟩

end PQ
