import Verif.Lemmas.Quantity
import Verif.Spec.Simplify

/-! # Lemmas about `simplified` -/

namespace PQ

open Dict LawfulRPow World

variable {K : Type _} [Field K] [LinearOrder K] [IsStrictOrderedRing K] [RPow K] [LawfulRPow K]

/-- The size that `simplified` gives to the class of a unit, for an arbitrary assignment of sizes. -/
def dfltVal (w : World K) (b : UKey → K) (u : UKey) : K :=
  match w.defaults u.cls with
  | some d => dsize b d
  | none => 1

theorem dfltVal_pos {w : World K} {b : UKey → K} (hb : ∀ u, 0 < b u) (u : UKey) :
    0 < dfltVal w b u := by
  unfold dfltVal
  split
  · exact dsize_pos hb _
  · exact one_pos

/-- `refUnits` under an arbitrary assignment of sizes. -/
theorem refFold_dsize {w : World K} {b : UKey → K} (hb : ∀ u, 0 < b u) (d : Dim) (rq : SQ K) :
    dsize b (d.foldl (refStep w) rq).dim
      = dsize b rq.dim * dsize (fun u => dsize b (w.unitRef u).dim) d := by
  induction d generalizing rq with
  | nil => simp
  | cons kv d ih =>
    rw [List.foldl_cons, ih]
    simp only [refStep, dsize_cons]
    rw [dsize_mul hb, dsize_pow hb, mul_assoc]

theorem refUnits_dsize {w : World K} {b : UKey → K} (hb : ∀ u, 0 < b u) (d : Dim) :
    dsize b (w.refUnits d).dim = dsize (fun u => dsize b (w.unitRef u).dim) d := by
  rw [World.refUnits, refFold_dsize hb]; simp

/-- Sizes separate contents. -/
theorem content_of_dsize {a b : Dim} (ha : Canon a) (hb : Canon b)
    (h : ∀ val : UKey → K, (∀ u, 0 < val u) → dsize val a = dsize val b) : SameContent a b := by
  have two : (1 : K) < 2 := one_lt_two
  have e : ∀ u, expo a u = expo b u := by
    intro k
    let val : UKey → K := fun u => if u = k then 2 else 1
    have hv := h val (fun u => by simp only [val]; split <;> norm_num)
    have hb1 : ∀ u, u ≠ k → val u = 1 := fun u hu => by simp [val, hu]
    have hx : val k = 2 := by simp [val]
    rw [dsize_update ha.nodup hb1 hx (fun p => rpow_one_left p) (rpow_zero _),
      dsize_update hb.nodup hb1 hx (fun p => rpow_one_left p) (rpow_zero _)] at hv
    by_contra hne
    have h2 : rpow (2 : K) (expo a k - expo b k) = 1 := by
      have h3 := rpow_add (2 : K) (expo a k - expo b k) (expo b k) (by norm_num)
      rw [sub_add_cancel, hv] at h3
      have h4 := (rpow_pos (2 : K) (expo b k) (by norm_num)).ne'
      have h5 : (1 : K) * rpow 2 (expo b k) = rpow 2 (expo a k - expo b k) * rpow 2 (expo b k) := by
        rw [one_mul]; exact h3
      exact (mul_right_cancel₀ h4 h5).symm
    exact rpow_ne_one (2 : K) _ two (sub_ne_zero.2 hne) h2
  exact Canon.sameContent ha hb e

/-- What simplifying one unit delivers. -/
structure SimpOK (w : World K) (s : SQ K) (u : UKey) : Prop where
  pos : 0 < s.mag
  ok : DimOK w s.dim
  value : ∀ v : Valuation w, s.mag * v.size s.dim = v.val u
  dflt : ∀ x ∈ s.dim.map Prod.fst, IsDefaultUnit w x
  shape : GoodDefaults w → ∀ b : UKey → K, (∀ x, 0 < b x) →
    dsize b s.dim = dsize (dfltVal w b) (w.unitRef u).dim

theorem unitDim_of_ne {u : UKey} (h : u.cls ≠ .dimensionless) : unitDim u = [(u, 1)] := by
  unfold unitDim; rw [if_neg h]

theorem irreducible_ne_dimless {u : UKey} (h : u.cls.irreducible = true) : u.cls ≠ .dimensionless := by
  intro e; rw [e] at h; exact absurd h (by decide)

theorem refUnits_unitDim {w : World K} (hw : WF w) {u : UKey} (hk : u ∈ w.units.map Prod.fst)
    (hd : u.cls ≠ .dimensionless) :
    SameContent (w.refUnits (unitDim u)).dim (w.unitRef u).dim := by
  refine content_of_dsize (K := K) (refUnits_spec hw (unitDim_ok hk)).2.1.canon
    (unitRef_spec hw hk hd).2.1.canon fun val hv => ?_
  rw [refUnits_dsize hv, unitDim_of_ne hd]
  simp [dsize_cons, rpow_one]

/-- Everything known about the default units of a well-formed world. -/
theorem WF.default_ok {w : World K} (hw : WF w) {c : UClass} {d : Dim} (h : w.defaults c = some d) :
    DimOK w d := hw.defaultsOK c d h

/-- An irreducible unit that rescales to the default of its class. -/
theorem irreducible_simpOK {w : World K} (hw : WF w) (hds : DefaultsSafe w) {u : UKey} {d : Dim}
    (hk : u ∈ w.units.map Prod.fst) (hi : u.cls.irreducible = true) (hd : w.defaults u.cls = some d)
    {s : SQ K} (hs : w.rescaleS ⟨1, unitDim u⟩ d = .ok s) : SimpOK w s u := by
  have hnd := irreducible_ne_dimless hi
  have hu := unitDim_ok hk
  have hdo := hw.default_ok hd
  have safe := hds u d hk hd
  have huv : ∀ v : Valuation w, v.size (unitDim u) = v.val u := fun v => by
    rw [unitDim_of_ne hnd]; simp [Valuation.size, dsize_cons, rpow_one]
  -- the result: positive magnitude, dimensionality with the content of `d`
  have key : 0 < s.mag ∧ DimOK w s.dim ∧ SameContent s.dim d ∧
      (∀ v : Valuation w, s.mag * v.size s.dim = v.size (unitDim u)) := by
    unfold World.rescaleS at hs
    split at hs
    · rename_i he
      simp only [Except.ok.injEq] at hs; subst hs
      exact ⟨one_pos, hu, safe.direct he, fun v => one_mul _⟩
    · rcases hc : w.convFactor (unitDim u) d with e | cf
      · simp only [hc] at hs
        have := convFactor_error hc; subst this
        exact absurd hs (by simp)
      · simp only [hc, Except.ok.injEq] at hs; subst hs
        obtain ⟨c1, c2⟩ := convFactor_ok hw hu hdo safe.refs hc
        exact ⟨by simpa using c1, hdo, SameContent.refl _, fun v => by simp [c2 v]⟩
  obtain ⟨k1, k2, k3, k4⟩ := key
  refine ⟨k1, k2, fun v => by rw [k4 v, huv v], ?_, ?_⟩
  · intro x hx
    refine ⟨u.cls, d, hd, ?_⟩
    have : get? d x ≠ none := by
      rw [← k3 x]
      intro h0
      exact (get?_eq_none_iff _ _).1 h0 hx
    by_contra hc
    exact this ((get?_eq_none_iff _ _).2 hc)
  · intro hg b hb
    obtain ⟨-, u₀, h0c, h0k, h0b, hcomp⟩ := hg _ _ hd
    have hcu : Compatible w (unitDim u) (unitDim u₀) := by
      refine compatible_trans ⟨s.mag, fun v => ?_⟩ hcomp
      rw [← k4 v, Valuation.size, Valuation.size,
        dsize_same v.val k2.canon.nodup hdo.canon.nodup k3]
    have h0nd : u₀.cls ≠ .dimensionless := by rw [h0c]; exact hnd
    have href := (compatible_iff hw hu (unitDim_ok h0k)).1 hcu
    have r1 := refUnits_unitDim hw hk hnd
    have r2 := refUnits_unitDim hw h0k h0nd
    have r3 : (w.unitRef u₀).dim = [(u₀, 1)] := by
      unfold World.unitRef; rw [h0b]; exact unitDim_of_ne h0nd
    have hc : SameContent (w.unitRef u).dim [(u₀, 1)] := by
      rw [← r3]; exact (r1.symm.trans href).trans r2
    have n1 := (unitRef_spec hw hk hnd).2.1.canon.nodup
    have n2 : Nodup ([(u₀, 1)] : Dim) := by simp [Dict.Nodup]
    rw [dsize_same _ n1 n2 hc, dsize_same b k2.canon.nodup hdo.canon.nodup k3]
    simp only [dsize_cons, dsize_nil, mul_one, rpow_one]
    unfold dfltVal
    rw [h0c, hd]

/-- State of the simplification loop after processing a prefix. -/
structure LoopOK (w : World K) (rq rq' : SQ K) (d : Dim) : Prop where
  pos : 0 < rq'.mag
  ok : DimOK w rq'.dim
  value : ∀ v : Valuation w, rq'.mag * v.size rq'.dim = rq.mag * v.size rq.dim * v.size d
  dflt : ∀ x ∈ rq'.dim.map Prod.fst, IsDefaultUnit w x
  shape : GoodDefaults w → ∀ b : UKey → K, (∀ x, 0 < b x) →
    dsize b rq'.dim = dsize b rq.dim * dsize (fun u => dsize (dfltVal w b) (w.unitRef u).dim) d

theorem simplifiedLoop_ok {w : World K} {fuel : Nat}
    (ih : ∀ u s, u ∈ w.units.map Prod.fst → u.cls ≠ .dimensionless →
      unitSimplified w fuel u = .ok s → SimpOK w s u)
    (d : Dim) (hk : ∀ kv ∈ d, kv.1 ∈ w.units.map Prod.fst)
    (hd : ∀ kv ∈ d, kv.1.cls ≠ .dimensionless) (rq rq' : SQ K) (h0 : 0 < rq.mag)
    (hok : DimOK w rq.dim) (hdf : ∀ x ∈ rq.dim.map Prod.fst, IsDefaultUnit w x)
    (h : simplifiedLoop w fuel rq d = .ok rq') : LoopOK w rq rq' d := by
  induction d generalizing rq with
  | nil =>
    simp only [simplifiedLoop, Except.ok.injEq] at h; subst h
    exact ⟨h0, hok, fun v => by simp [Valuation.size], hdf, fun _ b _ => by simp⟩
  | cons kv d ihd =>
    obtain ⟨u, p⟩ := kv
    rw [simplifiedLoop] at h
    rcases hs : unitSimplified w fuel u with e | s
    · rw [hs] at h; exact absurd h (by simp)
    rw [hs] at h
    simp only at h
    have su := ih u s (hk (u, p) List.mem_cons_self) (hd (u, p) List.mem_cons_self) hs
    have hr := ihd (fun kv hkv => hk kv (by simp [hkv])) (fun kv hkv => hd kv (by simp [hkv]))
      ⟨rq.mag * rpow s.mag p, Dim.mul rq.dim (Dim.pow s.dim p)⟩ (mul_pos h0 (rpow_pos _ _ su.pos))
      (hok.mul (su.ok.pow p)) (fun x hx => by
        rcases mem_keys_mul hx with hx | hx
        · exact hdf x hx
        · exact su.dflt x (mem_keys_pow hx)) h
    refine ⟨hr.pos, hr.ok, fun v => ?_, hr.dflt, fun hg b hb => ?_⟩
    · rw [hr.value v]
      have e1 : v.size (Dim.mul rq.dim (Dim.pow s.dim p)) = v.size rq.dim * rpow (v.size s.dim) p := by
        simp only [Valuation.size]; rw [dsize_mul v.pos, dsize_pow v.pos]
      have e2 : v.size ((u, p) :: d) = rpow (v.val u) p * v.size d := by
        simp only [Valuation.size, dsize_cons]
      rw [e1, e2, ← su.value v, mul_rpow _ _ _ su.pos (v.size_pos _)]
      ring
    · rw [hr.shape hg b hb, dsize_mul hb, dsize_pow hb, dsize_cons, su.shape hg b hb]
      ring

/-- `unit.simplified`, when it returns. -/
theorem unitSimplified_ok {w : World K} (hw : WF w) (hds : DefaultsSafe w) (fuel : Nat) (u : UKey)
    (s : SQ K) (hk : u ∈ w.units.map Prod.fst) (hd : u.cls ≠ .dimensionless)
    (h : unitSimplified w fuel u = .ok s) : SimpOK w s u := by
  induction fuel using Nat.strong_induction_on generalizing u s with
  | _ fuel ih =>
    cases fuel with
    | zero => rw [unitSimplified] at h; exact absurd h (by simp)
    | succ fuel =>
      rw [unitSimplified] at h
      split at h
      · rename_i hi
        rcases hdf : w.defaults u.cls with _ | d
        · rw [hdf] at h; exact absurd h (by simp)
        · rw [hdf] at h
          exact irreducible_simpOK hw hds hk hi hdf h
      · rcases hc : w.convRef u with _ | r
        · rw [hc] at h
          exact ih fuel (Nat.lt_succ_self _) u s hk hd h
        · rw [hc] at h
          simp only at h
          cases fuel with
          | zero => rw [scalarSimplified] at h; exact absurd h (by simp)
          | succ fuel =>
            rw [scalarSimplified] at h
            rcases hl : simplifiedLoop w fuel ⟨1, []⟩ r.dim with e | rq
            · rw [hl] at h; exact absurd h (by simp)
            rw [hl] at h
            simp only [Except.ok.injEq] at h; subst h
            obtain ⟨rpos, rbase⟩ := hw.refBase u r hc
            have L := simplifiedLoop_ok (fun u s => ih fuel (by omega) u s) r.dim rbase.known
              rbase.notDimless ⟨1, []⟩ rq one_pos (DimOK.nil w) (by simp) hl
            have hur : w.unitRef u = r := by unfold World.unitRef; rw [hc]
            refine ⟨mul_pos L.pos rpos, L.ok, fun v => ?_, L.dflt, fun hg b hb => ?_⟩
            · have h1 := L.value v
              have h2 := (unitRef_spec hw hk hd).2.2 v
              rw [hur] at h2
              have h3 : v.size ([] : Dim) = 1 := rfl
              rw [h3, one_mul, one_mul] at h1
              rw [← h2, ← h1]; ring
            · rw [L.shape hg b hb, hur]
              simp only [dsize_nil, one_mul]
              refine dsize_congr fun kv hkv => ?_
              have hb1 := rbase.base kv hkv
              have hnd := rbase.notDimless kv hkv
              have : (w.unitRef kv.1).dim = [(kv.1, 1)] := by
                unfold World.unitRef; rw [hb1]; exact unitDim_of_ne hnd
              rw [this]
              simp [dsize_cons, rpow_one]

/-- The simplification loop over a dimensionality, when it returns. -/
theorem simplifiedLoop_spec {w : World K} (hw : WF w) (hds : DefaultsSafe w) {fuel : Nat} {d : Dim}
    (hd : DimOK w d) {rq : SQ K} (h : simplifiedLoop w fuel ⟨1, []⟩ d = .ok rq) :
    0 < rq.mag ∧ DimOK w rq.dim ∧ (∀ v : Valuation w, rq.mag * v.size rq.dim = v.size d) ∧
      (∀ x ∈ rq.dim.map Prod.fst, IsDefaultUnit w x) ∧
      (GoodDefaults w → ∀ b : UKey → K, (∀ x, 0 < b x) →
        dsize b rq.dim = dsize (dfltVal w b) (w.refUnits d).dim) := by
  have L := simplifiedLoop_ok (fun u s => unitSimplified_ok hw hds fuel u s) d hd.known hd.notDimless
    ⟨1, []⟩ rq one_pos (DimOK.nil w) (by simp) h
  refine ⟨L.pos, L.ok, fun v => ?_, L.dflt, fun hg b hb => ?_⟩
  · rw [L.value v]
    have h3 : v.size ([] : Dim) = 1 := rfl
    rw [h3]; ring
  · rw [L.shape hg b hb, refUnits_dsize (dfltVal_pos hb)]; simp

/-- Simplified dimensionalities of compatible dimensionalities have the same content. -/
theorem simplified_content {w : World K} (hw : WF w) (hds : DefaultsSafe w) (hg : GoodDefaults w)
    {f₁ f₂ : Nat} {a b : Dim} (ha : DimOK w a) (hb : DimOK w b) {ra rb : SQ K}
    (h₁ : simplifiedLoop w f₁ ⟨1, []⟩ a = .ok ra) (h₂ : simplifiedLoop w f₂ ⟨1, []⟩ b = .ok rb) :
    SameContent ra.dim rb.dim ↔ Compatible w a b := by
  obtain ⟨a1, a2, a3, a4, a5⟩ := simplifiedLoop_spec hw hds ha h₁
  obtain ⟨b1, b2, b3, b4, b5⟩ := simplifiedLoop_spec hw hds hb h₂
  constructor
  · intro h
    refine ⟨ra.mag / rb.mag, fun v => ?_⟩
    have e : v.size ra.dim = v.size rb.dim := dsize_same v.val a2.canon.nodup b2.canon.nodup h
    rw [← a3 v, ← b3 v, e]; field_simp
  · intro h
    have href := (compatible_iff hw ha hb).1 h
    refine content_of_dsize (K := K) a2.canon b2.canon fun val hv => ?_
    rw [a5 hg val hv, b5 hg val hv]
    exact dsize_same _ (refUnits_spec hw ha).2.1.canon.nodup (refUnits_spec hw hb).2.1.canon.nodup href

end PQ

namespace PQ

open Dict LawfulRPow World

variable {K : Type _} [Field K] [LinearOrder K] [IsStrictOrderedRing K] [RPow K] [LawfulRPow K]

theorem rescaleS_returns {w : World K} (hw : WF w) {q : SQ K} {d : Dim} (hq : DimOK w q.dim)
    (hd : DimOK w d) (hs : HashSafe w q.dim d) :
    Returns (w.rescaleS q d) ↔ Compatible w q.dim d := by
  unfold World.rescaleS
  split
  · rename_i he
    exact ⟨fun _ => compatible_of_same hq.canon.nodup hd.canon.nodup (hs.direct he),
      fun _ => returns_ok _⟩
  · rw [← convFactor_returns hw hq hd hs.refs]
    rcases hc : w.convFactor q.dim d with e | cf
    · have := convFactor_error hc
      subst this
      exact ⟨fun h => absurd h (not_returns_error _), fun h => absurd h (not_returns_error _)⟩
    · exact ⟨fun _ => returns_ok _, fun _ => returns_ok _⟩

/-- A unit of a base-unit class simplifies exactly when it meets the default of its class. -/
theorem unitSimplified_irreducible {w : World K} (hw : WF w) (hds : DefaultsSafe w) {u : UKey}
    (hk : u ∈ w.units.map Prod.fst) (hi : u.cls.irreducible = true) (fuel : Nat) :
    Returns (unitSimplified w (fuel + 1) u) ↔ MeetsDefault w u := by
  rw [unitSimplified, if_pos hi]
  rcases hd : w.defaults u.cls with _ | d
  · refine ⟨fun h => absurd h (not_returns_error _), ?_⟩
    rintro ⟨-, d, h, -⟩
    rw [hd] at h; exact absurd h (by simp)
  · simp only
    rw [rescaleS_returns hw (unitDim_ok hk) (hw.default_ok hd) (hds u d hk hd)]
    refine ⟨fun h => ⟨hi, d, hd, h⟩, ?_⟩
    rintro ⟨-, d', h, hc⟩
    rw [hd] at h; simp only [Option.some.injEq] at h; subst h
    exact hc

/-- A unit without definition outside the base-unit classes never simplifies. -/
theorem unitSimplified_undefined {w : World K} {u : UKey} (hi : u.cls.irreducible = false)
    (hc : w.convRef u = none) (fuel : Nat) : unitSimplified w fuel u = .error .recursionError := by
  induction fuel with
  | zero => rw [unitSimplified]
  | succ n ih =>
    rw [unitSimplified, if_neg (by rw [hi]; simp), hc]
    exact ih

theorem simplifiedLoop_returns {w : World K} {fuel : Nat} (d : Dim) (rq : SQ K) :
    Returns (simplifiedLoop w fuel rq d) ↔ ∀ kv ∈ d, Returns (unitSimplified w fuel kv.1) := by
  induction d generalizing rq with
  | nil => simp only [simplifiedLoop, List.not_mem_nil, false_imp_iff, implies_true, iff_true]; exact returns_ok _
  | cons kv d ih =>
    obtain ⟨u, p⟩ := kv
    rw [simplifiedLoop, List.forall_mem_cons]
    rcases hs : unitSimplified w fuel u with e | s
    · exact ⟨fun h => absurd h (not_returns_error _), fun h => absurd h.1 (not_returns_error _)⟩
    · simp only
      rw [ih]
      exact ⟨fun h => ⟨returns_ok _, h⟩, fun h => h.2⟩

/-- When `unit.simplified` returns. -/
theorem unitSimplified_returns {w : World K} (hw : WF w) (hds : DefaultsSafe w) {u : UKey}
    (hk : u ∈ w.units.map Prod.fst) (fuel : Nat) :
    Returns (unitSimplified w (fuel + 3) u) ↔ Simplifies w u := by
  rcases hi : u.cls.irreducible with _ | _
  · rcases hc : w.convRef u with _ | r
    · rw [unitSimplified_undefined hi hc]
      refine ⟨fun h => absurd h (not_returns_error _), ?_⟩
      rintro (⟨h, -⟩ | ⟨-, r, h, -⟩)
      · rw [hi] at h; exact absurd h (by simp)
      · rw [hc] at h; exact absurd h (by simp)
    · have hb := (hw.refBase u r hc).2
      rw [unitSimplified, if_neg (by rw [hi]; simp), hc]
      simp only
      have h1 : Returns (scalarSimplified w (fuel + 2) r) ↔
          Returns (simplifiedLoop w (fuel + 1) ⟨1, []⟩ r.dim) := by
        rw [scalarSimplified]
        rcases simplifiedLoop w (fuel + 1) ⟨1, []⟩ r.dim with e | rq
        · exact ⟨fun h => absurd h (not_returns_error _), fun h => absurd h (not_returns_error _)⟩
        · exact ⟨fun _ => returns_ok _, fun _ => returns_ok _⟩
      rw [h1, simplifiedLoop_returns]
      have h2 : ∀ kv ∈ r.dim, (Returns (unitSimplified w (fuel + 1) kv.1) ↔ MeetsDefault w kv.1) := by
        intro kv hkv
        rcases hi' : kv.1.cls.irreducible with _ | _
        · rw [unitSimplified_undefined hi' (hb.base kv hkv)]
          refine ⟨fun h => absurd h (not_returns_error _), ?_⟩
          rintro ⟨h, -⟩
          rw [hi'] at h; exact absurd h (by simp)
        · exact unitSimplified_irreducible hw hds (hb.known kv hkv) hi' fuel
      constructor
      · intro h
        exact Or.inr ⟨hi, r, hc, fun kv hkv => (h2 kv hkv).1 (h kv hkv)⟩
      · rintro (⟨h, -⟩ | ⟨-, r', h, hm⟩)
        · rw [hi] at h; exact absurd h (by simp)
        · rw [hc] at h; simp only [Option.some.injEq] at h; subst h
          exact fun kv hkv => (h2 kv hkv).2 (hm kv hkv)
  · rw [unitSimplified_irreducible hw hds hk hi (fuel + 2)]
    refine ⟨Or.inl, ?_⟩
    rintro (h | ⟨h, -⟩)
    · exact h
    · rw [hi] at h; exact absurd h (by simp)

end PQ
