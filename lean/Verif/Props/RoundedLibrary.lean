import Verif.Lemmas.ShippedRounded2
import Verif.Props.Shipped
import Mathlib.Analysis.Convex.SpecificFunctions.Basic

/-!
# Property C151: the shipped library in rounded arithmetic

`loadedWith lit saneTable pf h` is the state after importing the units and positive constants of the library with
an arithmetic `A` that makes a relative error of at most `eps` in every operation, reads every literal with such
an error and has `pf` for `math.pi`; `loaded saneTable π h` is the exact state with the real numbers, in which sizes
are those the definitions mean.  The hypotheses are about the exact state.
-/

namespace PQ

open Dict World Shipped LawfulRPow

variable {A : Arith} {lit : Int → Nat → Fl A} {pf : Fl A} {π : ℝ}

attribute [local irreducible] table unitTable constTable dims rowErrs

/-! ## Auxiliary facts: the two states have the same units -/

theorem unitRef_same {w : World (Fl A)} {w' : World ℝ} {u : UKey}
    (h : (w.convRef u).map SQ.dim = (w'.convRef u).map SQ.dim) : (w.unitRef u).dim = (w'.unitRef u).dim := by
  unfold World.unitRef
  rcases h1 : w.convRef u with _ | r <;> rcases h2 : w'.convRef u with _ | r' <;> rw [h1, h2] at h <;>
    simp_all

theorem refUnits_same {w : World (Fl A)} {w' : World ℝ} {d : Dim}
    (h : ∀ kv ∈ d, (w.unitRef kv.1).dim = (w'.unitRef kv.1).dim) : (w.refUnits d).dim = (w'.refUnits d).dim := by
  unfold World.refUnits
  have main : ∀ (d : Dim) (x : SQ (Fl A)) (y : SQ ℝ), x.dim = y.dim →
      (∀ kv ∈ d, (w.unitRef kv.1).dim = (w'.unitRef kv.1).dim) →
      (d.foldl w.refStep x).dim = (d.foldl w'.refStep y).dim := by
    intro d
    induction d with
    | nil => exact fun x y e _ => e
    | cons kv d ih =>
      intro x y e hh
      rw [List.foldl_cons, List.foldl_cons]
      refine ih _ _ ?_ fun kv' hk => hh kv' (by simp [hk])
      simp only [World.refStep, e, hh kv (by simp)]
  exact main d _ _ rfl h

theorem row_ref_same (hl : RoundedLiterals A lit pf π) (hπ : 0 < π) (h : Hasher) (i : Nat) : ∀ r : Row,
    table[i]? = some r → r.positive = true →
    ((loadedWith lit saneTable pf h).convRef r.key).map SQ.dim = ((loaded saneTable π h).convRef r.key).map SQ.dim := by
  induction i using Nat.strong_induction_on with
  | _ i ih =>
    intro r hr hp
    have hmem : r ∈ saneTable := List.mem_filter.2 ⟨List.mem_of_getElem? hr, hp⟩
    obtain ⟨inf, i1, i2, -⟩ := load_info h (π := π) saneTable_sub hmem
    obtain ⟨inf', j1, j2, -⟩ := loadWith_info saneTable_sub h hmem (lit := lit) (pf := pf)
    obtain ⟨κ, hw⟩ := (sane_with hl hπ h).flWF _ (budget_with h)
    have hw' := (sane_reachable (K := ℝ) h hπ).wf
    unfold World.convRef
    rw [i1, j1, Option.bind_some, Option.bind_some, hw.conv _ _ j1, hw'.conv _ _ i1, i2, j2]
    rcases hd : r.definition with _ | e
    · rfl
    · obtain ⟨r1, r2, r3⟩ := sub_refs hr hd
      have hrefs : e.refs (min i nUnits) = true := by
        rcases le_total i nUnits with hle | hle
        · rwa [min_eq_left hle]
        · rwa [min_eq_right hle]
      simp only [Option.map_some, World.reference, Option.some.injEq]
      rw [Expr.evalWith_dim (π := π)]
      refine refUnits_same fun kv hkv => unitRef_same ?_
      obtain ⟨-, j, hj, hk⟩ := (Expr.eval_dim (keyAt saneTable) π _ e hrefs).2 kv hkv
      have hjn : j < nUnits := lt_of_lt_of_le hj (min_le_right _ _)
      obtain ⟨r', t1, -, t3⟩ := table_get_unit hjn
      rw [hk, keyAt_sane hjn, ← keyAt_table hjn, keyAt_get t1]
      exact ih j (lt_of_lt_of_le hj (min_le_left _ _)) r' t1 t3

theorem ref_same (hl : RoundedLiterals A lit pf π) (hπ : 0 < π) (h : Hasher) {d : Dim}
    (hd : DimOK (loaded saneTable π h) d) :
    ((loadedWith lit saneTable pf h).refUnits d).dim = ((loaded saneTable π h).refUnits d).dim := by
  refine refUnits_same fun kv hkv => unitRef_same ?_
  obtain ⟨r, hr, e⟩ := sane_row h π (hd.known kv hkv)
  obtain ⟨i, hi⟩ := List.getElem?_of_mem (saneTable_sub.subset hr)
  rw [e]
  exact row_ref_same hl hπ h i r hi (List.mem_filter.1 hr).2

theorem dimOK_same (h : Hasher) {d : Dim} (hd : DimOK (loaded saneTable π h) d) :
    DimOK (loadedWith lit saneTable pf h) d :=
  ⟨hd.canon, fun kv hkv => by
    obtain ⟨r, hr, e⟩ := sane_row h π (hd.known kv hkv)
    obtain ⟨i, i1, -⟩ := loadWith_info saneTable_sub h hr (lit := lit) (pf := pf)
    rw [e]; exact known_of_info i1, hd.notDimless⟩

theorem deq_both (h : Hasher) (a b : Dim) :
    (loadedWith lit saneTable pf h).deq a b = (loaded saneTable π h).deq a b := by
  obtain ⟨f1, f2, f3, f4⟩ := sub_fresh_with saneTable_sub saneTable h (lit := lit) (pf := pf)
  have h1 : (loadedWith lit saneTable pf h).hasher = h := by
    rw [loadedWith, loadWith, (runAll_fresh _ _ f1 f2 f3 f4).2.1]; rfl
  unfold World.deq
  rw [h1, sane_hasher]
  unfold Dim.eq
  rw [hash_perm h _ (loaded saneTable π h).order (List.Perm.refl a),
    hash_perm h _ (loaded saneTable π h).order (List.Perm.refl b)]

theorem safe_same (hl : RoundedLiterals A lit pf π) (hπ : 0 < π) (h : Hasher) {a b : Dim}
    (ha : DimOK (loaded saneTable π h) a) (hb : DimOK (loaded saneTable π h) b)
    (hs : HashSafe (loaded saneTable π h) a b) : HashSafe (loadedWith lit saneTable pf h) a b := by
  refine ⟨fun he => hs.direct (by rw [← deq_both (lit := lit) (pf := pf)]; exact he), fun he => ?_⟩
  rw [ref_same hl hπ h ha, ref_same hl hπ h hb] at he ⊢
  exact hs.refs (by rw [← deq_both (lit := lit) (pf := pf)]; exact he)

theorem errsOf_le (u : UKey) : (errsOf u).1 + (errsOf u).2 ≤ 122 := by
  unfold errsOf
  rcases hg : get? ((table.map Row.key).zip rowErrs) u with _ | x
  · simp
  · have hm : x ∈ rowErrs := (List.of_mem_zip (mem_of_get? hg)).2
    have := List.all_eq_true.1 errs_all x hm
    simpa using this

theorem errsOf_unit {r : Row} (hr : r ∈ unitTable) : (errsOf r.key).1 + (errsOf r.key).2 ≤ 86 := by
  obtain ⟨i, hi⟩ := List.getElem?_of_mem hr
  have hi' : i < nUnits := by rw [← unitTable_length]; exact (List.getElem?_eq_some_iff.1 hi).1
  obtain ⟨r', t1, t2, -⟩ := table_get_unit hi'
  rw [hi] at t2; cases t2
  obtain ⟨x, h1, h2, -⟩ := errsOf_row t1
  rw [h2]
  have hm : x ∈ rowErrs.take nUnits := by
    apply List.mem_of_getElem? (i := i)
    rw [List.getElem?_take_of_lt hi']; exact h1
  have := List.all_eq_true.1 errs_units x hm
  simpa using this

/-- The sizes of the units in the two states; those of units without a definition are the same. -/
theorem sizes_both' (hl : RoundedLiterals A lit pf π) (hπ : 0 < π) (h : Hasher) (V : Valuation (loaded saneTable π h)) :
    ∃ v : FlValuation (loadedWith lit saneTable pf h), (∀ d, DimOK (loaded saneTable π h) d →
      OffL A ((d.map (fun kv => |(kv.2 : ℝ)| * ((errsOf kv.1).1 : ℝ))).sum) (v.size d) (V.size d)) ∧
      ∀ s ∈ saneTable, s.definition = none → s.cls ≠ .dimensionless → v.val s.key = V.val s.key := by
  obtain ⟨κ, hw⟩ := (sane_with hl hπ h).flWF _ (budget_with h)
  obtain ⟨v, hv⟩ := hw.free V.val V.pos
  have hbase : ∀ s ∈ saneTable, s.definition = none → s.cls ≠ .dimensionless → v.val s.key = V.val s.key := by
    intro s hs hsd hsc
    refine hv _ ?_ hsc
    obtain ⟨inf, j1, -, j3⟩ := loadWith_info saneTable_sub h hs (lit := lit) (pf := pf)
    unfold World.convRef
    rw [j1, Option.bind_some, j3.2 hsd]
  refine ⟨v, fun d hd => size_off (n := fun u => ((errsOf u).1 : ℝ)) (v := v.val) V.pos d fun kv hkv => ?_, hbase⟩
  obtain ⟨r, hr, e⟩ := sane_row h π (hd.known kv hkv)
  obtain ⟨i, hi⟩ := List.getElem?_of_mem (saneTable_sub.subset hr)
  rw [e]
  exact row_off hl hπ h v V hbase i r hi (List.mem_filter.1 hr).2

/-- The sizes of the units in the two states. -/
theorem sizes_both (hl : RoundedLiterals A lit pf π) (hπ : 0 < π) (h : Hasher) (V : Valuation (loaded saneTable π h)) :
    ∃ v : FlValuation (loadedWith lit saneTable pf h), ∀ d, DimOK (loaded saneTable π h) d →
      OffL A ((d.map (fun kv => |(kv.2 : ℝ)| * ((errsOf kv.1).1 : ℝ))).sum) (v.size d) (V.size d) := by
  obtain ⟨v, hv, -⟩ := sizes_both' hl hπ h V
  exact ⟨v, hv⟩

theorem cost_split (a b : UKey → ℝ) (m : ℝ) (d : Dim) (hm : ∀ kv ∈ d, a kv.1 + b kv.1 ≤ m) :
    dimCost b d + (d.map (fun kv => |(kv.2 : ℝ)| * a kv.1)).sum ≤ unitSteps m d := by
  unfold unitSteps dimCost
  induction d with
  | nil => simp
  | cons kv d ih =>
    simp only [List.map_cons, List.sum_cons]
    have h1 := ih fun kv' hk => hm kv' (by simp [hk])
    have h2 := mul_le_mul_of_nonneg_left (hm kv (by simp)) (abs_nonneg (kv.2 : ℝ))
    linarith

theorem rescale_both (hl : RoundedLiterals A lit pf π) (hπ : 0 < π) (h : Hasher) (m : ℝ)
    (q r : Quantity (Fl A)) (d : Dim) (hq : DimOK (loaded saneTable π h) q.dim) (hd : DimOK (loaded saneTable π h) d)
    (hs : HashSafe (loaded saneTable π h) q.dim d)
    (hmq : ∀ kv ∈ q.dim, ((errsOf kv.1).1 : ℝ) + ((errsOf kv.1).2 : ℝ) ≤ m)
    (hmd : ∀ kv ∈ d, ((errsOf kv.1).1 : ℝ) + ((errsOf kv.1).2 : ℝ) ≤ m)
    (hres : q.rescale (loadedWith lit saneTable pf h) d = .ok r) :
    SameContent r.dim d ∧ ∀ V : Valuation (loaded saneTable π h),
      WithinErrors A (unitSteps m q.dim + unitSteps m d + 4)
        (r.mag.map (fun x => x.val * V.size d)) (q.mag.map (fun x => x.val * V.size q.dim)) := by
  have hq' := dimOK_same h hq (lit := lit) (pf := pf)
  have hd' := dimOK_same h hd (lit := lit) (pf := pf)
  obtain ⟨h1, h2⟩ := C58_rescale (sane_with hl hπ h) _ (budget_with h) q r d hq' hd'
    (safe_same hl hπ h hq hd hs) hres
  refine ⟨h1, fun V => ?_⟩
  obtain ⟨v, hv⟩ := sizes_both hl hπ h V
  have hrn : Dict.Nodup r.dim := by
    unfold Quantity.rescale at hres
    split at hres
    · cases hres; exact hq.canon.nodup
    · split at hres
      · cases hres; exact hd.canon.nodup
      · cases hres
      · cases hres
  have hsz : v.size r.dim = v.size d := dsize_same v.val hrn hd.canon.nodup h1
  obtain ⟨g1, g2⟩ := (h2 v).log
  refine withinErrors_of_log g1 fun i => ?_
  obtain ⟨t, t1, t2, t3⟩ := g2 i
  simp only [FlValuation.phys, NDArr.map] at t3 ⊢
  rw [hsz] at t3
  -- x * v d = t * (y * v q), with both sizes off by a factor
  obtain ⟨a, a1, a2, a3⟩ := hv d hd
  obtain ⟨b, b1, b2, b3⟩ := hv q.dim hq
  refine ⟨t * b / a, div_pos (mul_pos t1 b1) a1, ?_, ?_⟩
  · rw [Real.log_div (mul_pos t1 b1).ne' a1.ne', Real.log_mul t1.ne' b1.ne']
    have c1 := cost_split (fun u => ((errsOf u).1 : ℝ)) (fun u => ((errsOf u).2 : ℝ)) m q.dim hmq
    have c2 := cost_split (fun u => ((errsOf u).1 : ℝ)) (fun u => ((errsOf u).2 : ℝ)) m d hmd
    have c3 := mul_le_mul_of_nonneg_right (add_le_add c1 c2) A.L_nonneg
    have hL := A.L_nonneg
    rw [abs_le] at t2 a2 b2 ⊢
    constructor <;> linarith
  · rw [a3, b3] at t3
    field_simp
    linear_combination t3

/-! ## The library -/

/-- C151: the import returns, in any arithmetic (31 negative constants included). -/
theorem C151_import_returns (h : Hasher) : (loadWith lit table pf (World.init h)).1 = none :=
  loadWith_returns full_sub h

/-- C151: the state is one a user could reach with constructor calls, so everything proved about rounded arithmetic
in reachable states holds of the library. -/
theorem C151_reachable (hl : RoundedLiterals A lit pf π) (hπ : 0 < π) (h : Hasher) :
    Reachable h (loadedWith lit saneTable pf h) := sane_with hl hπ h

/-- C151: with rounded arithmetic exactly those conversions return that are possible according to the exact
definitions. -/
theorem C151_returns (hl : RoundedLiterals A lit pf π) (hπ : 0 < π) (h : Hasher)
    (q : Quantity (Fl A)) (d : Dim) (hq : DimOK (loaded saneTable π h) q.dim) (hd : DimOK (loaded saneTable π h) d)
    (hs : HashSafe (loaded saneTable π h) q.dim d) :
    Returns (q.rescale (loadedWith lit saneTable pf h) d) ↔ Compatible (loaded saneTable π h) q.dim d := by
  have hq' := dimOK_same h hq (lit := lit) (pf := pf)
  have hd' := dimOK_same h hd (lit := lit) (pf := pf)
  rw [C58_returns (sane_with hl hπ h) q d hq' hd' (safe_same hl hπ h hq hd hs)]
  obtain ⟨κ, hw⟩ := (sane_with hl hπ h).flWF _ (budget_with h)
  rw [hw.compatible_iff (fun _ => Nat.cast_nonneg _) hq' hd', PQ.compatible_iff (sane_reachable h hπ).wf hq hd,
    ref_same hl hπ h hq, ref_same hl hπ h hd]

/-- C151: converting between units and constants of the library, compound ones included, keeps the exact physical
value, according to the exact definitions, up to at most 122 rounding errors for each unit to the first power, two
for each unit and four for the conversion itself. -/
theorem C151_rescale (hl : RoundedLiterals A lit pf π) (hπ : 0 < π) (h : Hasher)
    (q r : Quantity (Fl A)) (d : Dim) (hq : DimOK (loaded saneTable π h) q.dim) (hd : DimOK (loaded saneTable π h) d)
    (hs : HashSafe (loaded saneTable π h) q.dim d)
    (hres : q.rescale (loadedWith lit saneTable pf h) d = .ok r) :
    SameContent r.dim d ∧ ∀ V : Valuation (loaded saneTable π h),
      WithinErrors A (unitSteps 122 q.dim + unitSteps 122 d + 4)
        (r.mag.map (fun x => x.val * V.size d)) (q.mag.map (fun x => x.val * V.size q.dim)) :=
  rescale_both hl hπ h 122 q r d hq hd hs (fun kv _ => by exact_mod_cast errsOf_le kv.1)
    (fun kv _ => by exact_mod_cast errsOf_le kv.1) hres

/-- C151: at most 86 for each unit when no constants are involved. -/
theorem C151_rescale_units (hl : RoundedLiterals A lit pf π) (hπ : 0 < π) (h : Hasher)
    (q r : Quantity (Fl A)) (d : Dim) (hq : DimOK (loaded saneTable π h) q.dim) (hd : DimOK (loaded saneTable π h) d)
    (hs : HashSafe (loaded saneTable π h) q.dim d)
    (huq : ∀ kv ∈ q.dim, ∃ s ∈ unitTable, kv.1 = s.key) (hud : ∀ kv ∈ d, ∃ s ∈ unitTable, kv.1 = s.key)
    (hres : q.rescale (loadedWith lit saneTable pf h) d = .ok r) :
    SameContent r.dim d ∧ ∀ V : Valuation (loaded saneTable π h),
      WithinErrors A (unitSteps 86 q.dim + unitSteps 86 d + 4)
        (r.mag.map (fun x => x.val * V.size d)) (q.mag.map (fun x => x.val * V.size q.dim)) := by
  refine rescale_both hl hπ h 86 q r d hq hd hs (fun kv hkv => ?_) (fun kv hkv => ?_) hres
  · obtain ⟨s, hs, e⟩ := huq kv hkv
    rw [e]; exact_mod_cast errsOf_unit hs
  · obtain ⟨s, hs, e⟩ := hud kv hkv
    rw [e]; exact_mod_cast errsOf_unit hs

/-- C151: with doubles (relative errors of at most `2 ^ -52`), converting a quantity from one unit of the library
to another is right in the first thirteen digits: each number is off by at most `1 / 10 ^ 13` of the exact result. -/
theorem C151_thirteen_digits (heps : A.eps ≤ 1 / 2 ^ 52) (hl : RoundedLiterals A lit pf π) (hπ : 0 < π) (h : Hasher)
    (s t : Row) (hs : s ∈ unitTable) (ht : t ∈ unitTable)
    (hsafe : HashSafe (loaded saneTable π h) (unitDim s.key) (unitDim t.key)) (m : NDArr (Fl A)) (r : Quantity (Fl A))
    (hres : (⟨m, unitDim s.key⟩ : Quantity (Fl A)).rescale (loadedWith lit saneTable pf h) (unitDim t.key) = .ok r) :
    SameContent r.dim (unitDim t.key) ∧ r.mag.shape = m.shape ∧ ∀ (V : Valuation (loaded saneTable π h)) (i : List Nat),
      |(r.mag.elem i).val - (m.elem i).val * (V.val s.key / V.val t.key)| ≤
        1 / 10 ^ 13 * |(m.elem i).val * (V.val s.key / V.val t.key)| := by
  have hsub : ∀ {x : Row}, x ∈ unitTable → x ∈ saneTable := fun hx => by
    rw [saneTable_eq]; exact List.mem_append_left _ hx
  have known : ∀ {x : Row}, x ∈ unitTable → DimOK (loaded saneTable π h) (unitDim x.key) := fun hx =>
    unitDim_ok (sane_known h π (hsub hx))
  have hkeys : ∀ {x : Row}, x ∈ unitTable → ∀ kv ∈ unitDim x.key, ∃ s ∈ unitTable, kv.1 = s.key := by
    intro x hx kv hkv
    unfold unitDim at hkv
    split at hkv
    · simp at hkv
    · rw [List.mem_singleton.1 hkv]; exact ⟨x, hx, rfl⟩
  obtain ⟨h1, h2⟩ := C151_rescale_units hl hπ h ⟨m, unitDim s.key⟩ r (unitDim t.key) (known hs) (known ht) hsafe
    (hkeys hs) (hkeys ht) hres
  have hone : ∀ (V : Valuation (loaded saneTable π h)) (u : UKey), V.size (unitDim u) = V.val u := by
    intro V u
    unfold Valuation.size unitDim
    split
    · rename_i hc; rw [V.dimless _ hc, dsize_nil]
    · rw [dsize_cons, dsize_nil, rpow_one, mul_one]
  have hsteps : ∀ u : UKey, unitSteps 86 (unitDim u) ≤ 88 := by
    intro u
    unfold unitSteps unitDim
    split
    · rw [dimCost_nil]; norm_num
    · rw [dimCost_cons, dimCost_nil]; norm_num
  have hsh : r.mag.shape = m.shape := by
    obtain ⟨V⟩ := exists_valuation (sane_reachable (K := ℝ) h hπ).wf
    exact (h2 V).1
  refine ⟨h1, hsh, fun V i => ?_⟩
  obtain ⟨a, a1, a2, a3⟩ := (h2 V).2 i
  simp only [NDArr.map, hone] at a3
  have hVt := V.pos t.key
  have e1 : (r.mag.elem i).val = a * ((m.elem i).val * (V.val s.key / V.val t.key)) := by
    field_simp
    linear_combination a3
  rw [e1, show a * ((m.elem i).val * (V.val s.key / V.val t.key)) - (m.elem i).val * (V.val s.key / V.val t.key)
    = (a - 1) * ((m.elem i).val * (V.val s.key / V.val t.key)) by ring, abs_mul]
  refine mul_le_mul_of_nonneg_right ?_ (abs_nonneg _)
  have hp := A.one_sub_pos
  have hb : 1 - 180 * A.eps ≤ (1 - A.eps) ^ (unitSteps 86 (unitDim s.key) + unitSteps 86 (unitDim t.key) + 4) := by
    have b1 : (1 - A.eps) ^ (180 : ℝ) ≤ (1 - A.eps) ^ (unitSteps 86 (unitDim s.key) + unitSteps 86 (unitDim t.key) + 4) :=
      Real.rpow_le_rpow_of_exponent_ge hp (by linarith [A.eps_nonneg]) (by linarith [hsteps s.key, hsteps t.key])
    have b2 : 1 + (180 : ℝ) * (-A.eps) ≤ (1 + -A.eps) ^ (180 : ℝ) :=
      one_add_mul_self_le_rpow_one_add (by linarith [A.eps_lt_one]) (by norm_num)
    have b3 : (1 + -A.eps) = 1 - A.eps := by ring
    rw [b3] at b2
    linarith
  have he := A.eps_nonneg
  have hsmall : 180 * A.eps ≤ 180 / 2 ^ 52 := by linarith
  have hlow : (0 : ℝ) < 1 - 180 * A.eps := by
    have : (180 : ℝ) / 2 ^ 52 < 1 := by norm_num
    linarith
  have hup : a ≤ (1 - 180 * A.eps)⁻¹ := a2.trans (inv_anti₀ hlow hb)
  have hdown := hb.trans a1
  rw [abs_le]
  constructor
  · have : (180 : ℝ) / 2 ^ 52 ≤ 1 / 10 ^ 13 := by norm_num
    linarith
  · have h3 : (1 - 180 * A.eps)⁻¹ ≤ (1 - 180 / 2 ^ 52)⁻¹ := inv_anti₀ (by norm_num) (by linarith)
    have h4 : ((1 : ℝ) - 180 / 2 ^ 52)⁻¹ ≤ 1 + 1 / 10 ^ 13 := by norm_num
    linarith

/-! ## A concrete case: exact literals in an arithmetic that is ten percent off -/

noncomputable def exLit (p : Int) (q : Nat) : Fl exArith := ⟨(p : ℝ) / q⟩

theorem exLiterals : RoundedLiterals exArith exLit ⟨Real.pi⟩ Real.pi :=
  ⟨fun p q _ => by simp only [exLit, sub_self, abs_zero]; exact mul_nonneg exArith.eps_nonneg (abs_nonneg _),
   by simp only [sub_self, abs_zero]; exact mul_nonneg exArith.eps_nonneg (abs_nonneg _)⟩

/-- Feet convert to metres, in this arithmetic too. -/
example : ∃ (h : Hasher) (s t : Row) (r : Quantity (Fl exArith)), s ∈ unitTable ∧ t ∈ unitTable ∧
    HashSafe (loaded saneTable Real.pi h) (unitDim s.key) (unitDim t.key) ∧
    (⟨NDArr.scalar ⟨3⟩, unitDim s.key⟩ : Quantity (Fl exArith)).rescale (loadedWith exLit saneTable ⟨Real.pi⟩ h)
      (unitDim t.key) = .ok r := by
  obtain ⟨s, t, s1, t1, s3, t3, hd, hsafe⟩ := foot_meter
  obtain ⟨s', a1, a2, -⟩ := table_get_unit (show 45 < nUnits by decide)
  obtain ⟨t', b1, b2, -⟩ := table_get_unit (show 34 < nUnits by decide)
  rw [s1] at a1; cases a1
  rw [t1] at b1; cases b1
  have hs : s ∈ saneTable := List.mem_filter.2 ⟨List.mem_of_getElem? s1, s3⟩
  have ht : t ∈ saneTable := List.mem_filter.2 ⟨List.mem_of_getElem? t1, t3⟩
  obtain ⟨x, hx, -⟩ := dims_get s1
  have hy : dims[34]? = some x := by rw [← hd]; exact hx
  obtain ⟨r, hr⟩ := (C151_returns exLiterals Real.pi_pos libH
    (⟨NDArr.scalar ⟨3⟩, unitDim s.key⟩ : Quantity (Fl exArith)) (unitDim t.key)
    (unitDim_ok (sane_known libH Real.pi hs)) (unitDim_ok (sane_known libH Real.pi ht))
    (hsafe Real.pi Real.pi_pos)).2 ((row_compat libH Real.pi_pos s1 hx s3 t1 hy t3).2 rfl)
  exact ⟨libH, s, t, r, List.mem_of_getElem? a2, List.mem_of_getElem? b2, hsafe Real.pi Real.pi_pos, hr⟩

end PQ
