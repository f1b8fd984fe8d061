import Verif.Model.Preferred
import Verif.Props.UnitStrings
import Verif.Props.Simplified
import Verif.Lemmas.Display2

/-!
# C45: `rescale_preferred`, `rescale()`
-/

namespace PQ

open Dict

section
variable {K : Type _} [Field K] [LinearOrder K] [IsStrictOrderedRing K] [RPow K] [LawfulRPow K]
  {h : Hasher} {w : World K}

/-- An entry of the list of preferred units that exists in `w`. -/
def PrefOK (w : World K) (p : Pref K) : Prop :=
  DimOK w p.dim ∧ ∀ u, p = .unit u → u ∈ w.units.map Prod.fst ∧ u.cls ≠ .dimensionless

omit [LinearOrder K] [IsStrictOrderedRing K] [LawfulRPow K] in
theorem rescalePreferredGo_mem [DecidableEq K] (fr : ℚ → List Char) (uni : Bool) (fuel : Nat) (q r : Quantity K)
    (s : List Char) : ∀ ps : List (Pref K × NumKinds),
    rescalePreferredGo w fr uni fuel q s ps = .ok r → ∃ x ∈ ps, q.rescale w x.1.dim = .ok r
  | [], hr => by cases hr
  | (p, kp) :: ps, hr => by
      unfold rescalePreferredGo at hr
      split at hr
      · cases hr
      · split at hr
        · exact ⟨_, List.mem_cons_self, hr⟩
        · obtain ⟨x, hx, h1⟩ := rescalePreferredGo_mem fr uni fuel q r s ps hr
          exact ⟨x, List.mem_cons_of_mem _ hx, h1⟩

/-- C45: whatever `rescale_preferred` returns has the units of one of the preferred units, the shape
and the physical value of the quantity. -/
theorem C45_value (hw : Reachable h w) (fr : ℚ → List Char) (uni : Bool) (fuel : Nat)
    (q r : Quantity K) (k : NumKinds) (ps : List (Pref K × NumKinds)) (hq : DimOK w q.dim)
    (hp : ∀ x ∈ ps, DimOK w x.1.dim ∧ HashSafe w q.dim x.1.dim)
    (hr : q.rescalePreferred w fr uni fuel k ps = .ok r) :
    ∃ x ∈ ps, SameContent r.dim x.1.dim ∧ r.mag.shape = q.mag.shape ∧
      ∀ v : Valuation w, v.phys r = v.phys q := by
  unfold Quantity.rescalePreferred at hr
  split at hr
  · cases hr
  · obtain ⟨x, hx, h1⟩ := rescalePreferredGo_mem fr uni fuel q r _ ps hr
    obtain ⟨hd, hs⟩ := hp x hx
    obtain ⟨h2, h3, -⟩ := rescale_ok hw.wf hq hd hs h1
    exact ⟨x, hx, h3, h2, fun v => rescale_phys hw.wf hq hd hs h1 v⟩

/-- `rescale()` without units is `rescale_preferred`, except that every exception becomes a plain
`Exception`. -/
theorem C45_rescale_none (fr : ℚ → List Char) (uni : Bool) (fuel : Nat) (q : Quantity K) (k : NumKinds)
    (ps : List (Pref K × NumKinds)) (x : Py (Quantity K)) :
    q.rescaleArg w fr uni fuel k ps none = x ↔
      (∃ r, q.rescalePreferred w fr uni fuel k ps = .ok r ∧ x = .ok r) ∨
      (∃ e, q.rescalePreferred w fr uni fuel k ps = .error e ∧ x = .error .exception) := by
  unfold Quantity.rescaleArg
  simp only
  rcases q.rescalePreferred w fr uni fuel k ps with e | r
  · simp [eq_comm]
  · simp [eq_comm]

/-- `rescale(units)` with units given is the conversion to these units, whatever the preferred units:
it returns exactly when the units are compatible, and then the same physical value in these units. -/
theorem C45_rescale_units (hw : Reachable h w) (fr : ℚ → List Char) (uni : Bool) (fuel : Nat)
    (q : Quantity K) (k : NumKinds) (ps : List (Pref K × NumKinds)) (d : Dim) (hq : DimOK w q.dim)
    (hd : DimOK w d) (hs : HashSafe w q.dim d) :
    (Returns (q.rescaleArg w fr uni fuel k ps (some d)) ↔ Compatible w q.dim d) ∧
    ∀ r, q.rescaleArg w fr uni fuel k ps (some d) = .ok r →
      SameContent r.dim d ∧ r.mag.shape = q.mag.shape ∧ ∀ v : Valuation w, v.phys r = v.phys q := by
  refine ⟨rescale_returns hw.wf hq hd hs, fun r hr => ?_⟩
  obtain ⟨h1, h2, -⟩ := rescale_ok hw.wf hq hd hs hr
  exact ⟨h2, h1, fun v => rescale_phys hw.wf hq hd hs hr v⟩

/-- The simplified units of a preferred unit against those of the quantity. -/
theorem pref_content (hw : WF w) (hds : DefaultsSafe w) (hg : GoodDefaults w) {f₁ f₂ : Nat}
    {q s : Quantity K} {p : Pref K} {d : Dim} (hq : DimOK w q.dim) (hp : PrefOK w p)
    (hs : q.simplified w f₁ = .ok s) (hd : p.simplifiedDim w f₂ = .ok d) :
    DimOK w s.dim ∧ DimOK w d ∧ (SameContent s.dim d ↔ Compatible w q.dim p.dim) := by
  obtain ⟨rq, hl, hd1, -⟩ := simplified_loop hs
  have h1 := simplifiedLoop_spec hw hds hq hl
  refine ⟨hd1 ▸ h1.2.1, ?_⟩
  rw [hd1]
  cases p with
  | unit u =>
    obtain ⟨hk, hc⟩ := hp.2 u rfl
    simp only [Pref.simplifiedDim] at hd
    rcases hu : unitSimplified w f₂ u with e | su
    · rw [hu] at hd; cases hd
    · rw [hu] at hd
      simp only [Except.map, Except.ok.injEq] at hd
      subst hd
      have hsu := unitSimplified_ok hw hds f₂ u su hk hc hu
      have hloop : simplifiedLoop w f₂ ⟨1, []⟩ (unitDim u)
          = .ok ⟨1 * rpow su.mag 1, Dim.mul [] (Dim.pow su.dim 1)⟩ := by
        rw [unitDim_of_ne hc]
        simp only [simplifiedLoop, hu]
      have := simplified_content hw hds hg hq hp.1 hl hloop
      refine ⟨hsu.ok, ?_⟩
      rw [← this]
      have hsame : SameContent (Dim.mul [] (Dim.pow su.dim 1)) su.dim := by
        refine Canon.sameContent (canon_mul ⟨by simp [Dict.Nodup], by simp⟩
          (canon_pow hsu.ok.canon 1).nonzero) hsu.ok.canon (fun x => ?_)
        rw [expo_mul (by simp [Dict.Nodup]) (nodup_pow hsu.ok.canon.nodup 1), expo_pow]
        simp [expo]
      exact ⟨fun h => h.trans hsame.symm, fun h => h.trans hsame⟩
  | quantity p =>
    simp only [Pref.simplifiedDim] at hd
    rcases hu : p.simplified w f₂ with e | sp
    · rw [hu] at hd; cases hd
    · rw [hu] at hd
      simp only [Except.map, Except.ok.injEq] at hd
      subst hd
      obtain ⟨rp, hlp, hdp, -⟩ := simplified_loop hu
      rw [hdp]
      exact ⟨(simplifiedLoop_spec hw hds hp.1 hlp).2.1, simplified_content hw hds hg hq hp.1 hl hlp⟩

theorem tag_nodup (k : NumKinds) {d : Dim} (hd : Dict.Nodup d) : Dict.Nodup (k.tag d) := by
  have := k.tag_val d
  have h2 : (k.tag d).map Prod.fst = d.map Prod.fst := by
    conv_rhs => rw [← this]
    simp [PDim.toDim, Function.comp_def]
  unfold Dict.Nodup at hd ⊢
  rw [h2]
  exact hd

theorem tag_known (k : NumKinds) {d : Dim} (hd : DimOK w d) :
    ∀ kv ∈ k.tag d, kv.1 ∈ w.units.map Prod.fst := by
  intro kv hkv
  refine hd.known (kv.1, kv.2.val) ?_
  have := k.tag_val d
  rw [← this]
  exact List.mem_map.2 ⟨kv, hkv, rfl⟩

/-- Two simplified dimensionalities that print faithfully have the same string iff the units are
compatible. -/
theorem pref_str (hw : Reachable h w) (hds : DefaultsSafe w) (hg : GoodDefaults w) (fr : ℚ → List Char)
    {f₁ f₂ : Nat} {q s : Quantity K} {p : Pref K} {d : Dim} {k kp : NumKinds} (hq : DimOK w q.dim)
    (hp : PrefOK w p) (hs : q.simplified w f₁ = .ok s) (hd : p.simplifiedDim w f₂ = .ok d)
    (h1 : Printable w fr (k.tag s.dim)) (h2 : Printable w fr (kp.tag d)) :
    strDim w fr false (k.tag s.dim) = strDim w fr false (kp.tag d) ↔ Compatible w q.dim p.dim := by
  obtain ⟨ok1, ok2, hc⟩ := pref_content hw.wf hds hg hq hp hs hd
  rw [← hc]
  have n1 := tag_nodup k ok1.canon.nodup
  have n2 := tag_nodup kp ok2.canon.nodup
  constructor
  · intro he
    have := C69_injective_partial w fr _ _ n1 n2 h1 h2 he
    rwa [k.tag_val, kp.tag_val] at this
  · intro he
    refine (C69_content_partial hw fr false _ _ n1 n2 ?_ (tag_known k ok1) h1.exp h2.exp).1
    rw [k.tag_val, kp.tag_val]
    exact he

/-- The same in either printing mode, for legible dimensionalities. -/
theorem pref_str_legible (hw : Reachable h w) (hds : DefaultsSafe w) (hg : GoodDefaults w) (fr : ℚ → List Char)
    (uni : Bool) {f₁ f₂ : Nat} {q s : Quantity K} {p : Pref K} {d : Dim} {k kp : NumKinds} (hq : DimOK w q.dim)
    (hp : PrefOK w p) (hs : q.simplified w f₁ = .ok s) (hd : p.simplifiedDim w f₂ = .ok d)
    (hl : Legible w fr uni (k.tag s.dim) (kp.tag d)) :
    strDim w fr uni (k.tag s.dim) = strDim w fr uni (kp.tag d) ↔ Compatible w q.dim p.dim := by
  obtain ⟨ok1, ok2, hc⟩ := pref_content hw.wf hds hg hq hp hs hd
  rw [← hc]
  have n1 := tag_nodup k ok1.canon.nodup
  have n2 := tag_nodup kp ok2.canon.nodup
  constructor
  · intro he
    have h1 : SameContent (k.tag s.dim).toDim (kp.tag d).toDim := by
      cases uni with
      | false => exact hl.string_inj n1 n2 (by simpa [strDim] using he)
      | true => exact hl.unicode_inj n1 n2 (by simpa [strDim] using he)
    rwa [k.tag_val, kp.tag_val] at h1
  · intro he
    obtain ⟨h1, h2, -⟩ := C69_content_partial hw fr uni (k.tag s.dim) (kp.tag d) n1 n2
      (by rw [k.tag_val, kp.tag_val]; exact he) (tag_known k ok1)
      (fun kv hk => (hl.exp kv (List.mem_append_left _ hk)).1)
      (fun kv hk => (hl.exp kv (List.mem_append_right _ hk)).1)
    unfold strDim
    rw [h1, h2]

/-- The walk along the preferred units, when equal strings mean compatible units. -/
theorem preferred_walk (hw : Reachable h w) (fr : ℚ → List Char) (uni : Bool) (fuel : Nat)
    (q s : Quantity K) (k : NumKinds) (hq : DimOK w q.dim) (hs : q.simplified w fuel = .ok s) :
    ∀ ps : List (Pref K × NumKinds),
    (∀ x ∈ ps, PrefOK w x.1 ∧ HashSafe w q.dim x.1.dim ∧ ∃ d, x.1.simplifiedDim w fuel = .ok d ∧
      (strDim w fr uni (k.tag s.dim) = strDim w fr uni (x.2.tag d) ↔ Compatible w q.dim x.1.dim)) →
    ((∀ x ∈ ps, ¬ Compatible w q.dim x.1.dim) → q.rescalePreferred w fr uni fuel k ps = .error .exception) ∧
    (∀ pre x post, ps = pre ++ x :: post → (∀ y ∈ pre, ¬ Compatible w q.dim y.1.dim) →
      Compatible w q.dim x.1.dim →
      q.rescalePreferred w fr uni fuel k ps = q.rescale w x.1.dim ∧
        Returns (q.rescalePreferred w fr uni fuel k ps)) := by
  unfold Quantity.rescalePreferred
  rw [hs]
  simp only
  intro ps
  induction ps with
  | nil =>
    intro _
    refine ⟨fun _ => rfl, fun pre x post he => ?_⟩
    simp at he
  | cons y ps ih =>
    intro hx
    obtain ⟨ih1, ih2⟩ := ih (fun x hm => hx x (List.mem_cons_of_mem _ hm))
    obtain ⟨p, kp⟩ := y
    obtain ⟨hpok, hsafe, d, hd, key⟩ := hx _ List.mem_cons_self
    simp only at hpok hsafe hd key
    constructor
    · intro hn
      unfold rescalePreferredGo
      rw [hd]
      simp only
      rw [if_neg (fun h => hn _ List.mem_cons_self (key.1 h))]
      exact ih1 (fun x hm => hn x (List.mem_cons_of_mem _ hm))
    · intro pre x post he hpre hcx
      unfold rescalePreferredGo
      rw [hd]
      simp only
      cases pre with
      | nil =>
        simp only [List.nil_append, List.cons.injEq] at he
        obtain ⟨rfl, rfl⟩ := he
        rw [if_pos (key.2 hcx)]
        exact ⟨rfl, (rescale_returns hw.wf hq hpok.1 hsafe).2 hcx⟩
      | cons z pre =>
        simp only [List.cons_append, List.cons.injEq] at he
        obtain ⟨rfl, rfl⟩ := he
        rw [if_neg (fun h => hpre _ List.mem_cons_self (key.1 h))]
        exact ih2 pre x post rfl (fun y hy => hpre y (List.mem_cons_of_mem _ hy)) hcx

/-- C45: if the units involved print faithfully (`Printable`), `rescale_preferred` rescales to the
first preferred unit that is compatible with the quantity; if there is none it raises `Exception`.
Missing: units that do not print faithfully (`C45_false_*`). -/
theorem C45_first_compatible_partial (hw : Reachable h w) (hds : DefaultsSafe w) (hg : GoodDefaults w)
    (fr : ℚ → List Char) (fuel : Nat) (q s : Quantity K) (k : NumKinds) (hq : DimOK w q.dim)
    (hs : q.simplified w fuel = .ok s) (hpr : Printable w fr (k.tag s.dim)) (ps : List (Pref K × NumKinds))
    (hps : ∀ x ∈ ps, PrefOK w x.1 ∧ HashSafe w q.dim x.1.dim ∧
      ∃ d, x.1.simplifiedDim w fuel = .ok d ∧ Printable w fr (x.2.tag d)) :
    ((∀ x ∈ ps, ¬ Compatible w q.dim x.1.dim) → q.rescalePreferred w fr false fuel k ps = .error .exception) ∧
    (∀ pre x post, ps = pre ++ x :: post → (∀ y ∈ pre, ¬ Compatible w q.dim y.1.dim) →
      Compatible w q.dim x.1.dim →
      q.rescalePreferred w fr false fuel k ps = q.rescale w x.1.dim ∧
        Returns (q.rescalePreferred w fr false fuel k ps)) := by
  refine preferred_walk hw fr false fuel q s k hq hs ps (fun x hx => ?_)
  obtain ⟨h1, h2, d, h3, h4⟩ := hps x hx
  exact ⟨h1, h2, d, h3, pref_str hw hds hg fr hq h1 hs h3 hpr h4⟩

/-- C45: the same with and without `config.use_unicode`, for simplified units that can be told apart
by their text (`Legible`: distinct ordinary symbols, integer exponents).
Missing: units that do not print legibly (`C45_false_*`). -/
theorem C45_first_compatible_modes_partial (hw : Reachable h w) (hds : DefaultsSafe w) (hg : GoodDefaults w)
    (fr : ℚ → List Char) (uni : Bool) (fuel : Nat) (q s : Quantity K) (k : NumKinds) (hq : DimOK w q.dim)
    (hs : q.simplified w fuel = .ok s) (ps : List (Pref K × NumKinds))
    (hps : ∀ x ∈ ps, PrefOK w x.1 ∧ HashSafe w q.dim x.1.dim ∧
      ∃ d, x.1.simplifiedDim w fuel = .ok d ∧ Legible w fr uni (k.tag s.dim) (x.2.tag d)) :
    ((∀ x ∈ ps, ¬ Compatible w q.dim x.1.dim) → q.rescalePreferred w fr uni fuel k ps = .error .exception) ∧
    (∀ pre x post, ps = pre ++ x :: post → (∀ y ∈ pre, ¬ Compatible w q.dim y.1.dim) →
      Compatible w q.dim x.1.dim →
      q.rescalePreferred w fr uni fuel k ps = q.rescale w x.1.dim ∧
        Returns (q.rescalePreferred w fr uni fuel k ps)) := by
  refine preferred_walk hw fr uni fuel q s k hq hs ps (fun x hx => ?_)
  obtain ⟨h1, h2, d, h3, h4⟩ := hps x hx
  exact ⟨h1, h2, d, h3, pref_str_legible hw hds hg fr uni hq h1 hs h3 h4⟩

end

/-! ## Examples -/

/-- Integral exponents are `int`s, the others `float`s. -/
def intKinds : NumKinds where
  tag d := d.map (fun kv => (kv.1, if kv.2.den = 1 then .int kv.2.num else .float kv.2))
  tag_val d := by
    simp only [PDim.toDim, List.map_map]
    conv_rhs => rw [← List.map_id d]
    refine List.map_congr_left (fun kv _ => ?_)
    obtain ⟨u, e⟩ := kv
    simp only [Function.comp, id]
    split
    · rename_i hd
      exact Prod.ext rfl (Rat.den_eq_one_iff e |>.1 hd)
    · rfl

/-- All exponents are `float`s. -/
def floatKinds : NumKinds where
  tag d := d.map (fun kv => (kv.1, .float kv.2))
  tag_val d := by
    simp only [PDim.toDim, List.map_map]
    conv_rhs => rw [← List.map_id d]
    exact List.map_congr_left (fun kv _ => rfl)

theorem exUnitSimplified_km (fuel : Nat) : ∃ s, unitSimplified exWorld (fuel + 1) uKm = .ok s ∧ s.dim = dM := by
  rw [unitSimplified, if_pos (by rfl), exDefaults]
  simp only [uKm]
  unfold World.rescaleS
  rw [if_neg (by
    have : exWorld.deq dKm dM = false := ex_deq_km_m
    simpa [unitDim, dKm, uKm] using this)]
  obtain ⟨cf, hc⟩ := (convFactor_returns exWorld_wf (ex_dimOK dKm (by simp)) (ex_dimOK dM (by simp))
    ex_safe_km_m.refs).2 ex_compat
  have : exWorld.convFactor (unitDim ⟨.length, "kilometer"⟩) dM = .ok cf := hc
  simp only [this]
  exact ⟨_, rfl, rfl⟩

theorem exUnitSimplified_m (fuel : Nat) : unitSimplified exWorld (fuel + 1) uM = .ok ⟨1, dM⟩ := by
  rw [unitSimplified, if_pos (by rfl), exDefaults]
  simp only [uM]
  unfold World.rescaleS
  rw [if_pos (by simp [World.deq, Dim.eq, unitDim, dM, uM])]
  rfl

theorem exUnitSimplified_s (fuel : Nat) : unitSimplified exWorld (fuel + 1) uS = .ok ⟨1, dS⟩ := by
  rw [unitSimplified, if_pos (by rfl), exDefaults]
  simp only [uS]
  unfold World.rescaleS
  rw [if_pos (by simp [World.deq, Dim.eq, unitDim, dS, uS])]
  rfl

theorem exPrintable_m : Printable exWorld exFr (intKinds.tag dM) := by
  have e : intKinds.tag dM = [(uM, .int 1)] := by decide +kernel
  rw [e]
  have sM : exWorld.unitSymbol false uM = "m".toList := by decide +kernel
  refine ⟨?_, ?_, ?_, ⟨⟨.dimensionless, "dimensionless"⟩, by decide +kernel, rfl⟩⟩ <;> intro kv hk <;>
    simp only [List.mem_cons, List.not_mem_nil, or_false] at hk <;> subst hk
  · simp only [sM]
    exact ⟨⟨by decide, by simp [isIdStart, isAsciiLetter], by decide, by decide⟩,
      by unfold LooksLikeIn; decide +kernel, by decide +kernel⟩
  · decide
  · left; exact ⟨by simp [PyNum.val], by simp [FaithfulExp]⟩

theorem exPrintable_s : Printable exWorld exFr (intKinds.tag dS) := by
  have e : intKinds.tag dS = [(uS, .int 1)] := by decide +kernel
  rw [e]
  have sS : exWorld.unitSymbol false uS = "s".toList := by decide +kernel
  refine ⟨?_, ?_, ?_, ⟨⟨.dimensionless, "dimensionless"⟩, by decide +kernel, rfl⟩⟩ <;> intro kv hk <;>
    simp only [List.mem_cons, List.not_mem_nil, or_false] at hk <;> subst hk
  · simp only [sS]
    exact ⟨⟨by decide, by simp [isIdStart, isAsciiLetter], by decide, by decide⟩,
      by unfold LooksLikeIn; decide +kernel, by decide +kernel⟩
  · decide
  · left; exact ⟨by simp [PyNum.val], by simp [FaithfulExp]⟩

theorem exMul_pow (d : Dim) (hd : d = dM ∨ d = dS) : Dim.mul [] (Dim.pow d 1) = d := by
  rcases hd with rfl | rfl <;> decide +kernel

/-- `PREFERRED = [s, m]`; `(3*km).rescale_preferred()` is in metres. -/
example : ∃ r, (⟨NDArr.scalar 3, dKm⟩ : Quantity ℝ).rescalePreferred exWorld exFr false 3 intKinds
      [(.unit uS, intKinds), (.unit uM, intKinds)] = .ok r ∧ r.dim = dM := by
  obtain ⟨sk, hk, hkd⟩ := exUnitSimplified_km 2
  have hs : (⟨NDArr.scalar 3, dKm⟩ : Quantity ℝ).simplified exWorld 3 =
      .ok ⟨(NDArr.scalar 3).map (fun x => 1 * rpow sk.mag 1 * x), dM⟩ := by
    unfold Quantity.simplified
    simp only [dKm, simplifiedLoop, hk, hkd, exMul_pow dM (Or.inl rfl)]
  have key := C45_first_compatible_partial exWorld_reachable ex_defaultsSafe ex_goodDefaults exFr 3
    (⟨NDArr.scalar 3, dKm⟩ : Quantity ℝ) _ intKinds (ex_dimOK dKm (by simp)) hs exPrintable_m
    [(.unit uS, intKinds), (.unit uM, intKinds)] (by
      intro x hx
      simp only [List.mem_cons, List.not_mem_nil, or_false] at hx
      rcases hx with rfl | rfl
      · refine ⟨⟨ex_dimOK dS (by simp), fun u hu => ?_⟩, ex_safe_km_s, dS, ?_, exPrintable_s⟩
        · cases hu; exact ⟨by rw [exKeys]; simp, by decide⟩
        · simp only [Pref.simplifiedDim, exUnitSimplified_s 2]; rfl
      · refine ⟨⟨ex_dimOK dM (by simp), fun u hu => ?_⟩, ex_safe_km_m, dM, ?_, exPrintable_m⟩
        · cases hu; exact ⟨by rw [exKeys]; simp, by decide⟩
        · simp only [Pref.simplifiedDim, exUnitSimplified_m 2]; rfl)
  obtain ⟨h1, h2⟩ := key.2 [(.unit uS, intKinds)] (.unit uM, intKinds) [] rfl (by
    intro y hy
    simp only [List.mem_cons, List.not_mem_nil, or_false] at hy
    subst hy
    exact ex_incompat) ex_compat
  obtain ⟨r, hr⟩ := h2
  refine ⟨r, hr, ?_⟩
  rw [h1] at hr
  unfold Quantity.rescale at hr
  rw [if_neg (by
    have : exWorld.deq dKm dM = false := ex_deq_km_m
    simpa [unitDim, dM, uM, Pref.dim] using this)] at hr
  split at hr
  · cases hr; rfl
  · cases hr
  · cases hr

/-- The same list with Unicode printing on. -/
example : ∃ r, (⟨NDArr.scalar 3, dKm⟩ : Quantity ℝ).rescalePreferred exWorld exFr true 3 intKinds
      [(.unit uS, intKinds), (.unit uM, intKinds)] = .ok r ∧
    (⟨NDArr.scalar 3, dKm⟩ : Quantity ℝ).rescale exWorld dM = .ok r := by
  obtain ⟨sk, hk, hkd⟩ := exUnitSimplified_km 2
  have hs : (⟨NDArr.scalar 3, dKm⟩ : Quantity ℝ).simplified exWorld 3 =
      .ok ⟨(NDArr.scalar 3).map (fun x => 1 * rpow sk.mag 1 * x), dM⟩ := by
    unfold Quantity.simplified
    simp only [dKm, simplifiedLoop, hk, hkd, exMul_pow dM (Or.inl rfl)]
  have sM : printedSymbol exWorld true uM = "m".toList := by decide +kernel
  have sS : printedSymbol exWorld true uS = "s".toList := by decide +kernel
  have eM : intKinds.tag dM = [(uM, .int 1)] := by decide +kernel
  have eS : intKinds.tag dS = [(uS, .int 1)] := by decide +kernel
  have leg : ∀ u, u = uM ∨ u = uS → Legible exWorld exFr true (intKinds.tag dM) [(u, .int 1)] := by
    intro u hu
    rw [eM]
    refine ⟨?_, ?_, ?_⟩
    · intro kv hk
      rcases hu with rfl | rfl <;>
        simp only [List.cons_append, List.nil_append, List.mem_cons, List.not_mem_nil, or_false] at hk <;>
        rcases hk with rfl | rfl <;> simp only [sM, sS] <;> exact ⟨by decide, by decide, by decide, by decide⟩
    · intro kv hk
      have : kv.2 = .int 1 := by
        simp only [List.cons_append, List.nil_append, List.mem_cons, List.not_mem_nil, or_false] at hk
        rcases hk with rfl | rfl <;> rfl
      rw [this]
      exact ⟨.inl ⟨by simp [PyNum.val], by simp [FaithfulExp]⟩, by simp [PyNum.val]⟩
    · intro a ha b hb h
      rcases hu with rfl | rfl <;>
        simp only [List.cons_append, List.nil_append, List.mem_cons, List.not_mem_nil, or_false] at ha hb <;>
        rcases ha with rfl | rfl <;> rcases hb with rfl | rfl <;>
        first
        | rfl
        | (simp only [sM, sS] at h; exact absurd h (by decide))
  have key := C45_first_compatible_modes_partial exWorld_reachable ex_defaultsSafe ex_goodDefaults exFr true 3
    (⟨NDArr.scalar 3, dKm⟩ : Quantity ℝ) _ intKinds (ex_dimOK dKm (by simp)) hs
    [(.unit uS, intKinds), (.unit uM, intKinds)] (by
      intro x hx
      simp only [List.mem_cons, List.not_mem_nil, or_false] at hx
      rcases hx with rfl | rfl
      · refine ⟨⟨ex_dimOK dS (by simp), fun u hu => ?_⟩, ex_safe_km_s, dS, ?_, by
          simp only [eS]; exact leg uS (.inr rfl)⟩
        · cases hu; exact ⟨by rw [exKeys]; simp, by decide⟩
        · simp only [Pref.simplifiedDim, exUnitSimplified_s 2]; rfl
      · refine ⟨⟨ex_dimOK dM (by simp), fun u hu => ?_⟩, ex_safe_km_m, dM, ?_, by
          have := leg uM (.inl rfl); rw [← eM] at this; exact this⟩
        · cases hu; exact ⟨by rw [exKeys]; simp, by decide⟩
        · simp only [Pref.simplifiedDim, exUnitSimplified_m 2]; rfl)
  obtain ⟨h1, h2⟩ := key.2 [(.unit uS, intKinds)] (.unit uM, intKinds) [] rfl (by
    intro y hy
    simp only [List.mem_cons, List.not_mem_nil, or_false] at hy
    subst hy
    exact ex_incompat) ex_compat
  obtain ⟨r, hr⟩ := h2
  exact ⟨r, hr, h1.symm.trans hr⟩

/-- The simplified units of `m**n` are `m**n`. -/
theorem exSimplified_pow (a : NDArr ℝ) (n : ℚ) (hn : Dim.mul [] (Dim.pow dM n) = [(uM, n)]) :
    ∃ m, (⟨a, [(uM, n)]⟩ : Quantity ℝ).simplified exWorld 3 = .ok ⟨m, [(uM, n)]⟩ := by
  unfold Quantity.simplified
  simp only [simplifiedLoop, exUnitSimplified_m 2, hn]
  exact ⟨_, rfl⟩

/-- C45 is false of the code: with `PREFERRED = [m**10]`, a quantity in `m**10.0` (the exponent a
`float`) has no preferred unit, although the units are the same. -/
theorem C45_false_float_exponent (fr : ℚ → List Char) (hfr : fr 10 = "10.0".toList) (a : NDArr ℝ) :
    (⟨a, [(uM, 10)]⟩ : Quantity ℝ).rescalePreferred exWorld fr false 3 floatKinds
      [(.quantity ⟨NDArr.scalar 1, [(uM, 10)]⟩, intKinds)] = .error .exception := by
  have hn : Dim.mul [] (Dim.pow dM 10) = [(uM, 10)] := by decide +kernel
  obtain ⟨m, hm⟩ := exSimplified_pow a 10 hn
  obtain ⟨m', hm'⟩ := exSimplified_pow (NDArr.scalar 1) 10 hn
  obtain ⟨-, s1, s2⟩ := C69_false_int_float fr hfr
  unfold Quantity.rescalePreferred
  rw [hm]
  simp only [rescalePreferredGo, Pref.simplifiedDim, hm', Except.map]
  have e1 : floatKinds.tag [(uM, 10)] = [(uM, .float 10)] := rfl
  have e2 : intKinds.tag [(uM, 10)] = [(uM, .int 10)] := by decide +kernel
  rw [e1, e2]
  simp only [strDim, Bool.false_eq_true, if_false, s1, s2]
  rw [if_neg (by decide)]

/-- C45 is false of the code: with `PREFERRED = [m**100, m**10]`, a quantity in `m**10` is refused
with `ValueError`, because `m**10` and `m**100` are both printed `m**1`. -/
theorem C45_false_wrong_match (fr : ℚ → List Char) (a : NDArr ℝ) :
    (⟨a, [(uM, 10)]⟩ : Quantity ℝ).rescalePreferred exWorld fr false 3 intKinds
      [(.quantity ⟨NDArr.scalar 1, [(uM, 100)]⟩, intKinds),
       (.quantity ⟨NDArr.scalar 1, [(uM, 10)]⟩, intKinds)] = .error .valueError := by
  obtain ⟨m, hm⟩ := exSimplified_pow a 10 (by decide +kernel)
  obtain ⟨m', hm'⟩ := exSimplified_pow (NDArr.scalar 1) 100 (by decide +kernel)
  have s1 := (C69_false_ten_hundred fr).1
  unfold Quantity.rescalePreferred
  rw [hm]
  simp only [rescalePreferredGo, Pref.simplifiedDim, hm', Except.map]
  have e1 : intKinds.tag [(uM, 10)] = [(uM, .int 10)] := by decide +kernel
  have e2 : intKinds.tag [(uM, 100)] = [(uM, .int 100)] := by decide +kernel
  rw [e1, e2]
  simp only [strDim, Bool.false_eq_true, if_false, s1, if_true, Pref.dim]
  have hd : exWorld.deq [(uM, 10)] [(uM, 100)] = false := by decide +kernel
  have hr : exWorld.deq (exWorld.reference ⟨1, [(uM, 10)]⟩).dim (exWorld.reference ⟨1, [(uM, 100)]⟩).dim
      = false := by decide +kernel
  unfold Quantity.rescale
  simp only [hd, Bool.false_eq_true, if_false]
  unfold World.convFactor
  simp only [hr, Bool.false_eq_true, if_false]

end PQ
