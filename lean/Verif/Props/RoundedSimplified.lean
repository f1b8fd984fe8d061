import Verif.Lemmas.ShippedSimplify
import Verif.Lemmas.UncertainRounding2
import Verif.Props.RoundedLibrary
import Verif.Props.RoundedArith
import Verif.Props.Simplified

/-!
# Property C152: simplifying quantities in shipped units with rounded arithmetic

As in C151, `loadedWith lit saneTable pf h` is the state after the import with an arithmetic that makes relative
errors, and the hypotheses and sizes are those of the exact state `loaded saneTable π h`.
-/

namespace PQ

open Dict World Shipped LawfulRPow

variable {A : Arith} {lit : Int → Nat → Fl A} {pf : Fl A} {π : ℝ}

attribute [local irreducible] table unitTable constTable dims rowErrs

namespace Shipped

theorem simpFrom_get (b : Nat) : ∀ (rs : List Row) (ts : List (Nat × Nat)) (xs : List (List Int)) (i : Nat) (r : Row)
    (t : Nat × Nat) (x : List Int), simpFrom b rs ts xs = true → rs[i]? = some r → ts[i]? = some t → xs[i]? = some x →
    t.1 + (t.2 + (if r.cls.irreducible then 8 else simpErr x + 1)) ≤ b
  | [], _, _, _, _, _, _, _, h, _, _ => by simp at h
  | _ :: _, [], _, _, _, _, _, _, _, h, _ => by simp at h
  | _ :: _, _ :: _, [], _, _, _, _, _, _, _, h => by simp at h
  | r' :: rs, t' :: ts, x' :: xs, 0, r, t, x, h, hr, ht, hx => by
      simp only [List.getElem?_cons_zero, Option.some.injEq] at hr ht hx
      subst hr ht hx
      rw [simpFrom, Bool.and_eq_true] at h
      exact Nat.le_of_ble_eq_true h.1
  | r' :: rs, t' :: ts, x' :: xs, i + 1, r, t, x, h, hr, ht, hx => by
      simp only [List.getElem?_cons_succ] at hr ht hx
      rw [simpFrom, Bool.and_eq_true] at h
      exact simpFrom_get b rs ts xs i r t x h.2 hr ht hx

/-- Twice the exponents of a unit in the base units. -/
def dimsOf (u : UKey) : List Int := (get? ((table.map Row.key).zip dims) u).getD []

theorem dimsOf_row {i : Nat} {r : Row} {x : List Int} (hr : table[i]? = some r) (hx : dims[i]? = some x) :
    dimsOf r.key = x := by
  have hm : (r.key, x) ∈ (table.map Row.key).zip dims := by
    apply List.mem_of_getElem? (i := i)
    rw [List.getElem?_zip_eq_some]
    exact ⟨by rw [List.getElem?_map, hr]; rfl, hx⟩
  have hn : Dict.Nodup ((table.map Row.key).zip dims) := by
    unfold Dict.Nodup
    exact keys_nodup.sublist (zip_fst_sublist _ _)
  unfold dimsOf
  rw [get?_of_mem_nodup hn hm]; rfl

/-- Errors made in simplifying a unit. -/
def scostOf (u : UKey) : Nat :=
  (errsOf u).2 + (if u.cls.irreducible then 8 else simpErr (dimsOf u) + 1)

theorem total_le {r : Row} (hr : r ∈ table) : (errsOf r.key).1 + scostOf r.key ≤ 263 := by
  obtain ⟨i, hi⟩ := List.getElem?_of_mem hr
  obtain ⟨t, t1, t2, -⟩ := errsOf_row hi
  obtain ⟨x, hx, -⟩ := dims_get hi
  unfold scostOf
  rw [t2, dimsOf_row hi hx]
  exact simpFrom_get 263 _ _ _ i r t x table_simp hi t1 hx

theorem total_unit {r : Row} (hr : r ∈ unitTable) : (errsOf r.key).1 + scostOf r.key ≤ 148 := by
  obtain ⟨i, hi⟩ := List.getElem?_of_mem hr
  have hi' : i < nUnits := by rw [← unitTable_length]; exact (List.getElem?_eq_some_iff.1 hi).1
  obtain ⟨r', k1, k2, -⟩ := table_get_unit hi'
  rw [hi] at k2; cases k2
  obtain ⟨t, t1, t2, -⟩ := errsOf_row k1
  obtain ⟨x, hx, -⟩ := dims_get k1
  unfold scostOf
  rw [t2, dimsOf_row k1 hx]
  exact simpFrom_get 148 _ _ _ i r t x unit_simp hi t1 hx

theorem errsOf_base {u : UKey} (hu : u ∈ baseKeys) : errsOf u = (0, 0) := by
  obtain ⟨j, hj, rfl⟩ := List.mem_map.1 hu
  obtain ⟨r, -, h2, h3, -⟩ := base_sane hj
  obtain ⟨x, x1, x2, -⟩ := errsOf_row h2
  have := List.all_eq_true.1 base_errs j hj
  rw [x1] at this
  rw [h3, x2]
  simpa using this

theorem base_irreducible {u : UKey} (hu : u ∈ baseKeys) : u.cls.irreducible = true ∧ u.cls ≠ .dimensionless := by
  obtain ⟨j, hj, rfl⟩ := List.mem_map.1 hu
  obtain ⟨r, h1, h2, h3, h4, h5⟩ := base_sane hj
  rw [h3]; exact baseClasses_irreducible _ h5

theorem scostOf_base {u : UKey} (hu : u ∈ baseKeys) : scostOf u = 8 := by
  unfold scostOf; rw [errsOf_base hu, (base_irreducible hu).1]; rfl

theorem dimCost_expDim : ∀ (ks : List UKey) (x : List Int), dimCost (fun _ => (8 : ℝ)) (expDim ks x) ≤ (simpErr x : ℝ)
  | [], x => by simp [expDim, dimCost]
  | _ :: _, [] => by simp [expDim, dimCost, simpErr]
  | k :: ks, e :: x => by
      have ih := dimCost_expDim ks x
      simp only [expDim, List.zipWith_cons_cons, List.filter_cons, simpErr, List.map_cons, List.sum_cons] at ih ⊢
      by_cases he : e = 0
      · subst he
        simpa using ih
      · have h0 : ¬ ((e : ℚ) / 2 = 0) := by simpa using he
        rw [if_pos (by simpa using he), if_neg he, dimCost_cons]
        push_cast
        have h1 : |(e : ℝ) / 2| * 8 = 4 * |(e : ℝ)| := by rw [abs_div]; norm_num; ring
        rw [h1]
        have : ((e.natAbs : ℝ)) = |(e : ℝ)| := by
          rw [← Int.cast_natCast, Int.natCast_natAbs, Int.cast_abs]
        rw [this]
        push_cast at ih
        linarith

/-- The default units after the import. -/
theorem defaults_with (h : Hasher) (c : UClass) :
    (loadedWith lit saneTable pf h).defaults c = (defaultOf c).map unitDim := by
  obtain ⟨f1, f2, f3, f4⟩ := sub_fresh_with saneTable_sub saneTable h (lit := lit) (pf := pf)
  have := (runAll_info _ _ f1 f2 f3 f4).2.2 c
  rw [loadedWith, loadWith, this, ← find_default saneTable _ saneTable_sub saneTable_eq c, List.find?_map]
  simp only [World.init, Option.map_map]
  rfl

end Shipped

theorem defaults_same (h : Hasher) (c : UClass) :
    (loadedWith lit saneTable pf h).defaults c = (loaded saneTable π h).defaults c := by
  rw [defaults_with, loaded_defaults h π saneTable _ saneTable_sub saneTable_eq]

theorem defaultsSafe_same (hl : RoundedLiterals A lit pf π) (hπ : 0 < π) (h : Hasher)
    (hds : DefaultsSafe (loaded saneTable π h)) : DefaultsSafe (loadedWith lit saneTable pf h) := by
  intro u d hu hd
  obtain ⟨r, hr, rfl⟩ := loadWith_row saneTable_sub h hu
  rw [defaults_same (π := π)] at hd
  have hk := sane_known h π hr
  have hd' := (C42_good_defaults h hπ _ _ hd).1
  exact safe_same hl hπ h (unitDim_ok hk) hd' (hds _ _ hk hd)

theorem convRef_same (hl : RoundedLiterals A lit pf π) (hπ : 0 < π) (h : Hasher) {u : UKey}
    (hu : u ∈ (loaded saneTable π h).units.map Prod.fst) :
    ((loadedWith lit saneTable pf h).convRef u).map SQ.dim = ((loaded saneTable π h).convRef u).map SQ.dim := by
  obtain ⟨r, hr, rfl⟩ := sane_row h π hu
  obtain ⟨i, hi⟩ := List.getElem?_of_mem (saneTable_sub.subset hr)
  exact row_ref_same hl hπ h i r hi (List.mem_filter.1 hr).2

theorem known_same (h : Hasher) {u : UKey} (hu : u ∈ (loadedWith lit saneTable pf h).units.map Prod.fst) :
    u ∈ (loaded saneTable π h).units.map Prod.fst := by
  obtain ⟨r, hr, rfl⟩ := loadWith_row saneTable_sub h hu
  exact sane_known h π hr

/-- What a derived unit consists of. -/
theorem derived_dim (hl : RoundedLiterals A lit pf π) (hπ : 0 < π) (h : Hasher) {u : UKey} {r : SQ (Fl A)}
    (hr : (loadedWith lit saneTable pf h).convRef u = some r) :
    SameContent r.dim (expDim baseKeys (dimsOf u)) ∧ Dict.Nodup r.dim := by
  have hu : u ∈ (loadedWith lit saneTable pf h).units.map Prod.fst := by
    unfold World.convRef at hr
    rcases hi : (loadedWith lit saneTable pf h).info u with _ | i
    · rw [hi] at hr; cases hr
    · exact known_of_info hi
  have hu' := known_same h hu (π := π)
  have hs := convRef_same hl hπ h hu'
  rw [hr] at hs
  rcases hr' : (loaded saneTable π h).convRef u with _ | r'
  · rw [hr'] at hs; cases hs
  rw [hr'] at hs
  simp only [Option.map_some, Option.some.injEq] at hs
  have hw := sane_reachable (K := ℝ) h hπ
  obtain ⟨rpos, rbase⟩ := hw.wf.refBase _ _ hr'
  refine ⟨?_, by rw [hs]; exact rbase.canon.nodup⟩
  obtain ⟨s, hsm, rfl⟩ := sane_row h π hu'
  obtain ⟨i, x, hi, hx⟩ := sane_index hsm
  obtain ⟨c, c0, hc⟩ := row_size h hw i s x hi hx (List.mem_filter.1 hsm).2
  rw [hs, dimsOf_row hi hx]
  have hcase : s.key.cls = .dimensionless ∨ s.key.cls ≠ .dimensionless := em _
  refine base_content_of_ratio hw.wf rbase (expDim_base h π x) (c / r'.mag) fun v => ?_
  have h1 := hw.wf.refSize _ _ v hr'
  have h2 := hc v
  have h3 : dsize v.val (unitDim s.key) = v.val s.key := by
    unfold unitDim
    split
    · rename_i hcc; rw [v.dimless _ hcc, dsize_nil]
    · rw [dsize_cons, dsize_nil, rpow_one, mul_one]
  rw [h3, h1] at h2
  unfold Valuation.size at h2 ⊢
  rw [dsize_expDim, div_mul_eq_mul_div, ← h2]
  field_simp

theorem simplify_budget (hl : RoundedLiterals A lit pf π) (hπ : 0 < π) (h : Hasher) :
    SimplifyBudget (loadedWith lit saneTable pf h) (fun u => ((errsOf u).2 : ℝ)) (fun u => (scostOf u : ℝ)) := by
  refine ⟨fun u => Nat.cast_nonneg _, fun u d hi hd => ?_, fun u r hi hr => ?_⟩
  · rw [defaults_with] at hd
    obtain ⟨k, hk, rfl⟩ := Option.map_eq_some_iff.1 hd
    obtain ⟨hb, -⟩ := defaultOf_spec _ _ hk
    have hnd : u.cls ≠ .dimensionless := by
      intro e; rw [e] at hi; exact absurd hi (by decide)
    unfold unitDim scostOf
    rw [if_neg hnd, if_neg (base_irreducible hb).2, if_pos hi]
    simp only [dimCost, List.map_cons, List.map_nil, List.sum_cons, List.sum_nil, errsOf_base hb]
    push_cast
    simp only [abs_one]
    linarith
  · obtain ⟨h1, h2⟩ := derived_dim hl hπ h hr
    have hb := expDim_base h π (dimsOf u)
    have h3 : dimCost (fun u => (scostOf u : ℝ)) r.dim ≤ (simpErr (dimsOf u) : ℝ) := by
      rw [dimCost_same _ h2 hb.canon.nodup h1]
      refine le_trans (le_of_eq (dimCost_congr (c' := fun _ => (8 : ℝ)) fun kv hkv => ?_)) (dimCost_expDim baseKeys _)
      rw [scostOf_base ((expDim_keys baseKeys _).subset (List.mem_map.2 ⟨kv, hkv, rfl⟩))]
      norm_num
    unfold scostOf at h3 ⊢
    rw [if_neg (by simp [hi])]
    push_cast at h3 ⊢
    linarith

theorem simplify_both (hl : RoundedLiterals A lit pf π) (hπ : 0 < π) (h : Hasher)
    (hds : DefaultsSafe (loaded saneTable π h)) (m : ℝ) (q r : Quantity (Fl A)) (fuel : Nat)
    (hq : DimOK (loaded saneTable π h) q.dim)
    (hm : ∀ kv ∈ q.dim, ((errsOf kv.1).1 : ℝ) + (scostOf kv.1 : ℝ) ≤ m)
    (hres : q.simplified (loadedWith lit saneTable pf h) fuel = .ok r) :
    (∀ u ∈ r.dim.map Prod.fst, IsDefaultUnit (loaded saneTable π h) u) ∧
    ∀ V : Valuation (loaded saneTable π h), WithinErrors A (unitSteps m q.dim + 1)
      (r.mag.map (fun x => x.val * V.size r.dim)) (q.mag.map (fun x => x.val * V.size q.dim)) := by
  obtain ⟨h1, h2⟩ := C94_simplified (sane_with hl hπ h) (defaultsSafe_same hl hπ h hds) _ _ (budget_with h)
    (simplify_budget hl hπ h) q r fuel (dimOK_same h hq) hres
  have hdef : ∀ u ∈ r.dim.map Prod.fst, IsDefaultUnit (loaded saneTable π h) u := by
    intro u hu
    obtain ⟨c, d, hd, hm⟩ := h1 u hu
    exact ⟨c, d, by rw [← defaults_same (lit := lit) (pf := pf)]; exact hd, hm⟩
  refine ⟨hdef, fun V => ?_⟩
  obtain ⟨v, hv, hvb⟩ := sizes_both' hl hπ h V
  have hbase : v.size r.dim = V.size r.dim := by
    refine dsize_congr fun kv hkv => ?_
    obtain ⟨c, d, hd, hm⟩ := hdef kv.1 (List.mem_map.2 ⟨kv, hkv, rfl⟩)
    rw [loaded_defaults h π saneTable _ saneTable_sub saneTable_eq] at hd
    obtain ⟨k, hk, rfl⟩ := Option.map_eq_some_iff.1 hd
    obtain ⟨hb, -⟩ := defaultOf_spec _ _ hk
    unfold unitDim at hm
    rw [if_neg (base_irreducible hb).2] at hm
    simp only [List.map_cons, List.map_nil, List.mem_singleton] at hm
    rw [hm]
    obtain ⟨j, hj, rfl⟩ := List.mem_map.1 hb
    obtain ⟨s, s1, s2, s3, s4, s5⟩ := base_sane hj
    rw [s3]
    exact hvb s s1 s4 (baseClasses_irreducible _ s5).2
  obtain ⟨g1, g2⟩ := (h2 v).log
  refine withinErrors_of_log g1 fun i => ?_
  obtain ⟨t, t1, t2, t3⟩ := g2 i
  simp only [FlValuation.phys, NDArr.map] at t3 ⊢
  rw [hbase] at t3
  obtain ⟨b, b1, b2, b3⟩ := hv q.dim hq
  refine ⟨t * b, mul_pos t1 b1, ?_, ?_⟩
  · rw [Real.log_mul t1.ne' b1.ne']
    have c1 := cost_split (fun u => ((errsOf u).1 : ℝ)) (fun u => (scostOf u : ℝ)) m q.dim hm
    have c3 := mul_le_mul_of_nonneg_right c1 A.L_nonneg
    have hL := A.L_nonneg
    rw [abs_le] at t2 b2 ⊢
    constructor <;> linarith
  · rw [b3] at t3
    linear_combination t3

/-! ## Which quantities simplify -/

theorem loop_returns {w : World (Fl A)} {fuel : Nat} (d : Dim) (rq : SQ (Fl A)) :
    Returns (simplifiedLoop w fuel rq d) ↔ ∀ kv ∈ d, Returns (unitSimplified w fuel kv.1) := by
  induction d generalizing rq with
  | nil => simp only [simplifiedLoop, List.not_mem_nil, false_imp_iff, implies_true, iff_true]; exact returns_ok _
  | cons kv d ih =>
    obtain ⟨u, p⟩ := kv
    rw [simplifiedLoop, List.forall_mem_cons]
    rcases unitSimplified w fuel u with e | s
    · exact ⟨fun h => absurd h (not_returns_error _), fun h => absurd h.1 (not_returns_error _)⟩
    · simp only
      rw [ih]
      exact ⟨fun h => ⟨returns_ok _, h⟩, fun h => h.2⟩

theorem rescaleS_same (hl : RoundedLiterals A lit pf π) (hπ : 0 < π) (h : Hasher) {a b : Dim}
    (ha : DimOK (loaded saneTable π h) a) (hb : DimOK (loaded saneTable π h) b) :
    Returns ((loadedWith lit saneTable pf h).rescaleS ⟨1, a⟩ b) ↔ Returns ((loaded saneTable π h).rescaleS ⟨1, a⟩ b) := by
  unfold World.rescaleS
  simp only [convFactor_def, deq_both (π := π), ref_same hl hπ h ha, ref_same hl hπ h hb]
  by_cases h1 : (loaded saneTable π h).deq a b = true
  · simp only [h1, if_true]
    exact ⟨fun _ => returns_ok _, fun _ => returns_ok _⟩
  · simp only [h1]
    by_cases h2 : (loaded saneTable π h).deq ((loaded saneTable π h).refUnits a).dim
        ((loaded saneTable π h).refUnits b).dim = true
    · simp only [h2, if_true]
      exact ⟨fun _ => returns_ok _, fun _ => returns_ok _⟩
    · simp only [h2]
      exact ⟨fun h => absurd h (not_returns_error _), fun h => absurd h (not_returns_error _)⟩

theorem unitSimplified_same (hl : RoundedLiterals A lit pf π) (hπ : 0 < π) (h : Hasher) (fuel : Nat) (u : UKey)
    (hk : u ∈ (loaded saneTable π h).units.map Prod.fst) :
    Returns (unitSimplified (loadedWith lit saneTable pf h) fuel u) ↔
      Returns (unitSimplified (loaded saneTable π h) fuel u) := by
  induction fuel using Nat.strong_induction_on generalizing u with
  | _ fuel ih =>
    cases fuel with
    | zero =>
      rw [unitSimplified, unitSimplified]
      exact ⟨fun h => absurd h (not_returns_error _), fun h => absurd h (not_returns_error _)⟩
    | succ fuel =>
      rw [unitSimplified, unitSimplified, defaults_same (π := π)]
      split
      · rcases hd : (loaded saneTable π h).defaults u.cls with _ | d
        · exact ⟨fun h => absurd h (not_returns_error _), fun h => absurd h (not_returns_error _)⟩
        · exact rescaleS_same hl hπ h (unitDim_ok hk) (C42_good_defaults h hπ _ _ hd).1
      · have hs := convRef_same hl hπ h hk (A := A) (lit := lit) (pf := pf)
        rcases hr : (loadedWith lit saneTable pf h).convRef u with _ | r <;>
          rcases hr' : (loaded saneTable π h).convRef u with _ | r' <;> rw [hr, hr'] at hs <;>
          simp only [Option.map_some, Option.map_none, Option.some.injEq, reduceCtorEq] at hs
        · exact ih fuel (Nat.lt_succ_self _) u hk
        · simp only
          cases fuel with
          | zero =>
            rw [scalarSimplified, scalarSimplified]
            exact ⟨fun h => absurd h (not_returns_error _), fun h => absurd h (not_returns_error _)⟩
          | succ fuel =>
            have hb := ((sane_reachable (K := ℝ) h hπ).wf.refBase _ _ hr').2
            have key : Returns (simplifiedLoop (loadedWith lit saneTable pf h) fuel ⟨1, []⟩ r.dim) ↔
                Returns (simplifiedLoop (loaded saneTable π h) fuel ⟨1, []⟩ r'.dim) := by
              rw [loop_returns, simplifiedLoop_returns, hs]
              exact forall_congr' fun kv => forall_congr' fun hkv => ih fuel (by omega) _ (hb.known kv hkv)
            rw [scalarSimplified, scalarSimplified]
            rcases h1 : simplifiedLoop (loadedWith lit saneTable pf h) fuel ⟨1, []⟩ r.dim with e | s <;>
              rcases h2 : simplifiedLoop (loaded saneTable π h) fuel ⟨1, []⟩ r'.dim with e' | s' <;> rw [h1, h2] at key
            · exact ⟨fun h => absurd h (not_returns_error _), fun h => absurd h (not_returns_error _)⟩
            · exact absurd (key.2 (returns_ok _)) (not_returns_error _)
            · exact absurd (key.1 (returns_ok _)) (not_returns_error _)
            · exact ⟨fun _ => returns_ok _, fun _ => returns_ok _⟩

theorem simplified_same (hl : RoundedLiterals A lit pf π) (hπ : 0 < π) (h : Hasher) (q : Quantity (Fl A))
    (fuel : Nat) (hq : DimOK (loaded saneTable π h) q.dim) (m : NDArr ℝ) :
    Returns (q.simplified (loadedWith lit saneTable pf h) fuel) ↔
      Returns ((⟨m, q.dim⟩ : Quantity ℝ).simplified (loaded saneTable π h) fuel) := by
  have key : Returns (simplifiedLoop (loadedWith lit saneTable pf h) fuel ⟨1, []⟩ q.dim) ↔
      Returns (simplifiedLoop (loaded saneTable π h) fuel ⟨1, []⟩ q.dim) := by
    rw [loop_returns, simplifiedLoop_returns]
    exact forall_congr' fun kv => forall_congr' fun hkv => unitSimplified_same hl hπ h fuel _ (hq.known kv hkv)
  unfold Quantity.simplified
  simp only
  rcases h1 : simplifiedLoop (loadedWith lit saneTable pf h) fuel ⟨1, []⟩ q.dim with e | s <;>
    rcases h2 : simplifiedLoop (loaded saneTable π h) fuel ⟨1, []⟩ q.dim with e' | s' <;> rw [h1, h2] at key
  · exact ⟨fun h => absurd h (not_returns_error _), fun h => absurd h (not_returns_error _)⟩
  · exact absurd (key.2 (returns_ok _)) (not_returns_error _)
  · exact absurd (key.1 (returns_ok _)) (not_returns_error _)
  · exact ⟨fun _ => returns_ok _, fun _ => returns_ok _⟩

/-! ## The property -/

/-- C152: with rounded arithmetic exactly those quantities simplify that do with exact arithmetic: those all of
whose units can be expressed in default units. -/
theorem C152_returns (hl : RoundedLiterals A lit pf π) (hπ : 0 < π) (h : Hasher)
    (hds : DefaultsSafe (loaded saneTable π h)) (q : Quantity (Fl A)) (fuel : Nat) (hf : 3 ≤ fuel)
    (hq : DimOK (loaded saneTable π h) q.dim) :
    Returns (q.simplified (loadedWith lit saneTable pf h) fuel) ↔
      ∀ kv ∈ q.dim, Simplifies (loaded saneTable π h) kv.1 := by
  rw [simplified_same hl hπ h q fuel hq (NDArr.scalar 1)]
  exact C19_returns (sane_reachable h hπ) hds _ fuel hf hq

/-- C152: every quantity in units and constants of the library other than `statampere` simplifies. -/
theorem C152_all_but_one (hl : RoundedLiterals A lit pf π) (hπ : 0 < π) (h : Hasher)
    (hds : DefaultsSafe (loaded saneTable π h)) (q : Quantity (Fl A)) (fuel : Nat) (hf : 3 ≤ fuel)
    (hq : DimOK (loaded saneTable π h) q.dim) (hn : ∀ kv ∈ q.dim, kv.1 ≠ ⟨.current, "statampere"⟩) :
    Returns (q.simplified (loadedWith lit saneTable pf h) fuel) := by
  rw [simplified_same hl hπ h q fuel hq (NDArr.scalar 1)]
  exact C79_simplified_partial h hπ hds _ hq hn fuel hf

/-- C152: the result is in default units and has the exact physical value, according to the exact definitions, up
to at most 263 rounding errors for each unit to the first power, two for each unit, and one. -/
theorem C152_simplified (hl : RoundedLiterals A lit pf π) (hπ : 0 < π) (h : Hasher)
    (hds : DefaultsSafe (loaded saneTable π h)) (q r : Quantity (Fl A)) (fuel : Nat)
    (hq : DimOK (loaded saneTable π h) q.dim)
    (hres : q.simplified (loadedWith lit saneTable pf h) fuel = .ok r) :
    (∀ u ∈ r.dim.map Prod.fst, IsDefaultUnit (loaded saneTable π h) u) ∧
    ∀ V : Valuation (loaded saneTable π h), WithinErrors A (unitSteps 263 q.dim + 1)
      (r.mag.map (fun x => x.val * V.size r.dim)) (q.mag.map (fun x => x.val * V.size q.dim)) := by
  refine simplify_both hl hπ h hds 263 q r fuel hq (fun kv hkv => ?_) hres
  obtain ⟨s, hs, e⟩ := sane_row h π (hq.known kv hkv)
  rw [e]; exact_mod_cast total_le (saneTable_sub.subset hs)

/-- C152: at most 148 for each unit when no constants are involved. -/
theorem C152_simplified_units (hl : RoundedLiterals A lit pf π) (hπ : 0 < π) (h : Hasher)
    (hds : DefaultsSafe (loaded saneTable π h)) (q r : Quantity (Fl A)) (fuel : Nat)
    (hq : DimOK (loaded saneTable π h) q.dim) (hu : ∀ kv ∈ q.dim, ∃ s ∈ unitTable, kv.1 = s.key)
    (hres : q.simplified (loadedWith lit saneTable pf h) fuel = .ok r) :
    ∀ V : Valuation (loaded saneTable π h), WithinErrors A (unitSteps 148 q.dim + 1)
      (r.mag.map (fun x => x.val * V.size r.dim)) (q.mag.map (fun x => x.val * V.size q.dim)) := by
  refine (simplify_both hl hπ h hds 148 q r fuel hq (fun kv hkv => ?_) hres).2
  obtain ⟨s, hs, e⟩ := hu kv hkv
  rw [e]; exact_mod_cast total_unit hs

/-- C152: with doubles, simplifying numbers in one unit of the library is right in the first thirteen digits. -/
theorem C152_thirteen_digits (heps : A.eps ≤ 1 / 2 ^ 52) (hl : RoundedLiterals A lit pf π) (hπ : 0 < π) (h : Hasher)
    (hds : DefaultsSafe (loaded saneTable π h)) (s : Row) (hs : s ∈ unitTable) (m : NDArr (Fl A)) (r : Quantity (Fl A))
    (fuel : Nat) (hres : (⟨m, unitDim s.key⟩ : Quantity (Fl A)).simplified (loadedWith lit saneTable pf h) fuel = .ok r) :
    r.mag.shape = m.shape ∧ ∀ (V : Valuation (loaded saneTable π h)) (i : List Nat),
      |(r.mag.elem i).val * V.size r.dim - (m.elem i).val * V.val s.key| ≤
        1 / 10 ^ 13 * |(m.elem i).val * V.val s.key| := by
  have hsub : s ∈ saneTable := by rw [saneTable_eq]; exact List.mem_append_left _ hs
  have h2 := C152_simplified_units hl hπ h hds ⟨m, unitDim s.key⟩ r fuel (unitDim_ok (sane_known h π hsub))
    (fun kv hkv => by
      unfold unitDim at hkv
      split at hkv
      · simp at hkv
      · rw [List.mem_singleton.1 hkv]; exact ⟨s, hs, rfl⟩) hres
  have hone : ∀ V : Valuation (loaded saneTable π h), V.size (unitDim s.key) = V.val s.key := by
    intro V
    unfold Valuation.size unitDim
    split
    · rename_i hc; rw [V.dimless _ hc, dsize_nil]
    · rw [dsize_cons, dsize_nil, rpow_one, mul_one]
  have hsteps : unitSteps 148 (unitDim s.key) ≤ 150 := by
    unfold unitSteps unitDim
    split
    · rw [dimCost_nil]; norm_num
    · rw [dimCost_cons, dimCost_nil]; norm_num
  obtain ⟨V0⟩ := exists_valuation (sane_reachable (K := ℝ) h hπ).wf
  refine ⟨(h2 V0).1, fun V i => ?_⟩
  obtain ⟨a, a1, a2, a3⟩ := (h2 V).2 i
  simp only [NDArr.map, hone] at a3
  rw [a3, show a * ((m.elem i).val * V.val s.key) - (m.elem i).val * V.val s.key
    = (a - 1) * ((m.elem i).val * V.val s.key) by ring, abs_mul]
  refine mul_le_mul_of_nonneg_right ?_ (abs_nonneg _)
  have hp := A.one_sub_pos
  have hb : 1 - 151 * A.eps ≤ (1 - A.eps) ^ (unitSteps 148 (unitDim s.key) + 1) := by
    have b1 : (1 - A.eps) ^ (151 : ℝ) ≤ (1 - A.eps) ^ (unitSteps 148 (unitDim s.key) + 1) :=
      Real.rpow_le_rpow_of_exponent_ge hp (by linarith [A.eps_nonneg]) (by linarith)
    have b2 : 1 + (151 : ℝ) * (-A.eps) ≤ (1 + -A.eps) ^ (151 : ℝ) :=
      one_add_mul_self_le_rpow_one_add (by linarith [A.eps_lt_one]) (by norm_num)
    have b3 : (1 + -A.eps) = 1 - A.eps := by ring
    rw [b3] at b2
    linarith
  have he := A.eps_nonneg
  have hsmall : 151 * A.eps ≤ 151 / 2 ^ 52 := by linarith
  have hlow : (0 : ℝ) < 1 - 151 * A.eps := by
    have : (151 : ℝ) / 2 ^ 52 < 1 := by norm_num
    linarith
  have hup : a ≤ (1 - 151 * A.eps)⁻¹ := a2.trans (inv_anti₀ hlow hb)
  have hdown := hb.trans a1
  rw [abs_le]
  constructor
  · have : (151 : ℝ) / 2 ^ 52 ≤ 1 / 10 ^ 13 := by norm_num
    linarith
  · have h3 : (1 - 151 * A.eps)⁻¹ ≤ (1 - 151 / 2 ^ 52)⁻¹ := inv_anti₀ (by norm_num) (by linarith)
    have h4 : ((1 : ℝ) - 151 / 2 ^ 52)⁻¹ ≤ 1 + 1 / 10 ^ 13 := by norm_num
    linarith

/-- Square feet simplify in an arithmetic that is ten percent off. -/
example : ∃ (h : Hasher) (r : Quantity (Fl exArith)), DefaultsSafe (loaded saneTable Real.pi h) ∧
    DimOK (loaded saneTable Real.pi h) [(footRow.key, 2)] ∧
    (⟨NDArr.scalar ⟨3⟩, [(footRow.key, 2)]⟩ : Quantity (Fl exArith)).simplified
      (loadedWith exLit saneTable ⟨Real.pi⟩ h) 3 = .ok r := by
  have hf : footRow ∈ saneTable := List.mem_filter.2 ⟨foot_mem, by decide⟩
  have hq : DimOK (loaded saneTable Real.pi libH) [(footRow.key, 2)] :=
    ⟨⟨by simp [Dict.Nodup], by simp⟩, fun kv hkv => by rw [List.mem_singleton.1 hkv]; exact sane_known libH Real.pi hf,
      fun kv hkv => by rw [List.mem_singleton.1 hkv]; decide⟩
  obtain ⟨r, hr⟩ := C152_all_but_one exLiterals Real.pi_pos libH (lib_defaultsSafe Real.pi_pos)
    (⟨NDArr.scalar ⟨3⟩, [(footRow.key, 2)]⟩ : Quantity (Fl exArith)) 3 le_rfl hq
    (fun kv hkv => by rw [List.mem_singleton.1 hkv]; decide)
  exact ⟨libH, r, lib_defaultsSafe Real.pi_pos, hq, hr⟩

end PQ
