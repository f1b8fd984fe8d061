import Verif.Lemmas.Threads4
import Verif.Props.UnitStrings
import Verif.Lemmas.ExampleSimplify
import Verif.Props.Simplified

/-!
# C59-C62: several threads
-/

namespace PQ

set_option linter.unusedSectionVars false

open Dict LawfulRPow World Prog

universe u v

variable {K : Type u} {ρ : Type v} [Field K] [LinearOrder K] [IsStrictOrderedRing K] [RPow K]
  [LawfulRPow K] {h : Hasher}

/-! ## C59: calculations -/

/-- C59: whatever other threads do - compute, create units, change default units - and however they
are interleaved, a thread that converts, adds, subtracts and compares quantities obtains exactly the
result it would have obtained alone, and it does finish once it has been scheduled often enough. -/
theorem C59_result {w : World K} (ts : List (Thread K ρ)) (i : Nat)
    (p : Prog K ρ) (hi : ts[i]? = some (.reader p)) (hp : Calculates w p) :
    (∀ σ r, ((⟨w, ts⟩ : Sys K ρ).run σ).Result i r → r = p.alone w) ∧
    ∃ n, ∀ σ, n ≤ σ.count i → ((⟨w, ts⟩ : Sys K ρ).run σ).Result i (p.alone w) := by
  obtain ⟨h1, n, h2⟩ := hp.holds
  have key : ∀ σ r, ((⟨w, ts⟩ : Sys K ρ).run σ).Result i r → r = p.alone w := fun σ r hr =>
    reader_result (s := ⟨w, ts⟩) hi h1 σ (fun _ => trivial) hr
  refine ⟨key, n, fun σ hσ => ?_⟩
  obtain ⟨r, hr⟩ := reader_finishes (s := ⟨w, ts⟩) hi h2 σ hσ
  rw [← key σ r hr]; exact hr

/-- C59: executed alone, the thread programs are the functions of the sequential model. -/
theorem C59_alone {w : World K} (q : Quantity K) (d : Dim) (o : Operand K) (hq : DimOK w q.dim)
    (hd : DimOK w d) (ho : DimOK w o.dim) (r : K → K → Bool) :
    (rescaleP q d).alone w = q.rescale w d ∧
    (addLikeP (· + ·) q o).alone w = q.add w o ∧
    (addLikeP (· - ·) q o).alone w = q.sub w o ∧
    (compareP r q o).alone w = q.compare r w o :=
  ⟨(rescaleP_holds hq hd).alone, (addLikeP_holds .add (fun _ _ => rfl) _ hq ho).alone,
    (addLikeP_holds .subtract (fun _ _ => rfl) _ hq ho).alone, (compareP_holds r hq ho).alone⟩

/-- C59 for a single conversion. -/
theorem C59_rescale {w : World K} (ts : List (Thread K (Py (Quantity K)))) (i : Nat)
    (q : Quantity K) (d : Dim) (hq : DimOK w q.dim) (hd : DimOK w d)
    (hi : ts[i]? = some (.reader (rescaleP q d))) (σ : List Nat) (r : Py (Quantity K))
    (hr : ((⟨w, ts⟩ : Sys K _).run σ).Result i r) : r = q.rescale w d :=
  reader_result (s := ⟨w, ts⟩) hi (rescaleP_holds hq hd) σ (fun _ => trivial) hr

/-- The hypotheses of `C59_result` are met by `x.rescale(m) + x` beside a thread that creates a unit
and one that changes the default length. -/
example (x : Quantity ℝ) (hx : x.dim = dKm) :
    Calculates exWorld ((rescaleP x dM).bind fun
      | .error e => .ret (.error e)
      | .ok y => (addLikeP (· + ·) y (.quantity x)).bind .ret) := by
  refine .rescale (by rw [hx]; exact ex_dimOK _ (by simp)) (ex_dimOK _ (by simp)) ?_
  cases hr : x.rescale exWorld dM with
  | error e => exact .ret _
  | ok y =>
    have hy : DimOK exWorld y.dim := by
      have := hr
      unfold Quantity.rescale at this
      split at this
      · simp only [Except.ok.injEq] at this; subst this; rw [hx]; exact ex_dimOK _ (by simp)
      · split at this <;> simp only [Except.ok.injEq, reduceCtorEq] at this
        subst this; exact ex_dimOK _ (by simp)
    exact .add hy (by simp only [Operand.dim]; rw [hx]; exact ex_dimOK _ (by simp)) (.ret _)

example : (Thread.create { cls := .length, name := "mile", definition := .quantity ⟨1609, dM⟩ } :
      Thread ℝ Unit).Starts exWorld ∧
    (Thread.setDefault .length ⟨1, dKm⟩ : Thread ℝ Unit).Starts exWorld := by
  refine ⟨.create _ ⟨?_, by simp⟩ (by simp), .setDefault _ _ (ex_dimOK _ (by simp))⟩
  intro q hq
  simp only [DefArg.toDef, Option.some.injEq] at hq
  subst hq
  exact ⟨by norm_num, ex_dimOK _ (by simp)⟩

/-! ## C60: default units -/

/-- C60: a simplification that returns while other threads create units and change default units
denotes the same physical value, with the same shape (if in no state on the way a unit's comparison
with its class's default hits a hash collision). -/
theorem C60_value {w : World K} (hw : Reachable h w) (ts : List (Thread K (Py (Quantity K))))
    (hts : ∀ t ∈ ts, t.Starts w) (i : Nat) (fuel : Nat) (q : Quantity K) (hq : DimOK w q.dim)
    (hi : ts[i]? = some (.reader (simplifiedP fuel q))) (σ : List Nat)
    (hs : ∀ k, DefaultsSafe ((⟨w, ts⟩ : Sys K _).run (σ.take k)).world) (r : Quantity K)
    (hr : ((⟨w, ts⟩ : Sys K _).run σ).Result i (.ok r)) :
    r.mag.shape = q.mag.shape ∧ DimOK ((⟨w, ts⟩ : Sys K _).run σ).world r.dim ∧
    ∀ v : Valuation ((⟨w, ts⟩ : Sys K _).run σ).world, v.phys r = v.phys q :=
  reader_result (s := ⟨w, ts⟩) hi (simplifiedP_holds fuel q w hq) σ
    (fun k => ⟨((starts_ok hw.wf hts).run (σ.take k)).wf, hs k⟩) hr r rfl

/-- C62, partial. Full claim: `simplified` gives the simplification with respect to one state of the
default units. Proved: when no default unit changes while it runs - whatever units other threads
create, whatever they compute - it gives exactly the sequential result. Missing: see
`C62_false_mixed`. -/
theorem C62_quiet_partial {w : World K} (hw : Reachable h w) (ts : List (Thread K (Py (Quantity K))))
    (i : Nat) (fuel : Nat) (q : Quantity K) (hq : DimOK w q.dim)
    (hi : ts[i]? = some (.reader (simplifiedP fuel q))) (σ : List Nat)
    (hs : ∀ k, ((⟨w, ts⟩ : Sys K _).run (σ.take k)).world.defaults = w.defaults)
    (r : Py (Quantity K)) (hr : ((⟨w, ts⟩ : Sys K _).run σ).Result i r) : r = q.simplified w fuel :=
  reader_result (s := ⟨w, ts⟩) hi (simplifiedP_quiet hw.wf fuel q hq) σ hs hr

/-- C60: under every interleaving the default of a class stays convertible to what it was (and,
without a hash collision, compatible with it). -/
theorem C60_default_convertible {w : World K} (hw : Reachable h w) (ts : List (Thread K ρ))
    (hts : ∀ t ∈ ts, t.Starts w) (σ : List Nat) (c : UClass) (d : Dim) (hd : w.defaults c = some d) :
    ∃ d', ((⟨w, ts⟩ : Sys K ρ).run σ).world.defaults c = some d' ∧
      DimOK ((⟨w, ts⟩ : Sys K ρ).run σ).world d' ∧
      Returns (((⟨w, ts⟩ : Sys K ρ).run σ).world.convFactor d d') ∧
      (NoColl ((⟨w, ts⟩ : Sys K ρ).run σ).world
          (((⟨w, ts⟩ : Sys K ρ).run σ).world.refUnits d).dim
          (((⟨w, ts⟩ : Sys K ρ).run σ).world.refUnits d').dim →
        Compatible ((⟨w, ts⟩ : Sys K ρ).run σ).world d d') := by
  have hok := starts_ok hw.wf hts
  obtain ⟨h0, d', h1, h2, h3⟩ := conv_run hok (c0 := c) (d0 := d)
    ⟨hw.wf.defaultsOK c d hd, d, hd, hw.wf.defaultsOK c d hd, deq_self _ _⟩
    (fun i t ht => (hts t (List.mem_of_getElem? ht)).conv c d) σ
  have hret : Returns (((⟨w, ts⟩ : Sys K ρ).run σ).world.convFactor d d') := by
    rw [convFactor_def]; exact ⟨_, if_pos h3⟩
  exact ⟨d', h1, h2, hret, fun hs => (convFactor_returns (hok.run σ).wf h0 h2 hs).1 hret⟩

/-! ## C61: creating units -/

/-- C61: labels that denote a unit keep denoting it, however threads are interleaved. -/
theorem C61_bound_stable {w : World K} (ts : List (Thread K ρ)) (hts : ∀ t ∈ ts, t.Starts w)
    (σ : List Nat) (l : String) (k : UKey) (hl : get? w.registry l = some k) :
    get? ((⟨w, ts⟩ : Sys K ρ).run σ).world.registry l = some k :=
  (run_inv (I := fun w => get? w.registry l = some k) (J := fun t => t.Hands (· ≠ l))
    (fun w t => bound_step l k w t) (s := ⟨w, ts⟩) hl
    (fun _ t ht => (hts t (List.mem_of_getElem? ht)).hands _) σ).1

/-- C61: a unit whose name and labels are new and are used by no other thread is created as if its
thread ran alone: the call does not raise; afterwards each label denotes the unit, and the unit has
the given definition and the conversion computed from it; and the call does finish. -/
theorem C61_created {w : World K} (ts : List (Thread K ρ))
    (hts : ∀ t ∈ ts, t.Starts w) (i : Nat) (a : NewUnit K) (hi : ts[i]? = some (.create a))
    (hv : (Op.newUnit a).Valid w) (hnew : w.info ⟨a.cls, a.name⟩ = none)
    (hfree : ∀ l ∈ labelsOf a.cls a.name a.symbol a.aliases, get? w.registry l = none)
    (havoid : ∀ j t, j ≠ i → ts[j]? = some t → t.Avoids a) :
    (∀ σ e, ((⟨w, ts⟩ : Sys K ρ).run σ).Created i e → e = none ∧
      (∀ l ∈ labelsOf a.cls a.name a.symbol a.aliases,
        get? ((⟨w, ts⟩ : Sys K ρ).run σ).world.registry l = some ⟨a.cls, a.name⟩) ∧
      ∃ inf, ((⟨w, ts⟩ : Sys K ρ).run σ).world.info ⟨a.cls, a.name⟩ = some inf ∧
        inf.definition = a.definition.toDef ∧ inf.convRef = a.definition.toDef.map w.reference ∧
        inf.symbol = a.symbol ∧ inf.uSymbol = a.uSymbol ∧ inf.aliases = a.aliases) ∧
    ∃ n, ∀ σ, n ≤ σ.count i → ((⟨w, ts⟩ : Sys K ρ).run σ).Created i none := by
  have hstart : ∀ t : Thread K ρ, t.Starts w → ∀ b : NewUnit K, t.Avoids b → t.Clear b := by
    intro t ht b hb
    cases ht with
    | reader p => trivial
    | setDefault c x hd => trivial
    | create b' hv' hc => exact ⟨trivial, hb⟩
  obtain ⟨c, n, hc, hwi⟩ := create_within (ρ := ρ) a
  have hm : ∀ σ, ∃ c', ((⟨w, ts⟩ : Sys K ρ).run σ).threads[i]? = some (.creator c') ∧
      Making w a ((⟨w, ts⟩ : Sys K ρ).run σ).world c' := by
    intro σ
    refine making_run (s := ⟨w, ts⟩) hi ⟨rfl, hnew, fun l hl => Or.inl (hfree l hl),
      convRefP_holds hv⟩ (fun j t hj ht => hstart t (hts t (List.mem_of_getElem? ht)) a (havoid j t hj ht)) σ
  have key : ∀ σ e, ((⟨w, ts⟩ : Sys K ρ).run σ).Created i e → e = none ∧
      Exists w a ((⟨w, ts⟩ : Sys K ρ).run σ).world ∧
      Bound a ((⟨w, ts⟩ : Sys K ρ).run σ).world (NewUnit.labels a) := by
    intro σ e ⟨b, hb⟩
    obtain ⟨c', h1, h2⟩ := hm σ
    rw [hb] at h1
    simp only [Option.some.injEq, Thread.creator.injEq] at h1
    subst h1
    exact h2.2
  refine ⟨fun σ e he => ⟨(key σ e he).1, (key σ e he).2.2, (key σ e he).2.1⟩, n, fun σ hσ => ?_⟩
  obtain ⟨e, he⟩ := creator_finishes (s := ⟨w, ts⟩) (c := c) (by rw [← hc]; exact hi) hwi σ hσ
  have := (key σ e he).1
  subst this; exact he

/-- The thread creates a unit that has the label `l`. -/
def Thread.Labels (l : String) : Thread K ρ → Prop
  | .creator c => l ∈ labelsOf c.arg.cls c.arg.name c.arg.symbol c.arg.aliases
  | _ => False

/-- C61: a label that none of the units being created has stays as it was. -/
theorem C61_label_frame {w : World K} (ts : List (Thread K ρ)) (hts : ∀ t ∈ ts, t.Starts w)
    (σ : List Nat) (l : String) (hl : ∀ t ∈ ts, ¬ t.Labels l) :
    get? ((⟨w, ts⟩ : Sys K ρ).run σ).world.registry l = get? w.registry l := by
  refine (run_inv (I := fun w' => get? w'.registry l = get? w.registry l)
    (J := fun t : Thread K ρ => ¬ t.Labels l ∧ ∀ c, t = .creator c → c.Own) ?_ (s := ⟨w, ts⟩) rfl
    (fun i t ht => ⟨hl t (List.mem_of_getElem? ht), ?_⟩) σ).1
  · intro w' t hI hJ
    obtain ⟨hJ, hO⟩ := hJ
    cases t with
    | reader p => cases p <;> exact ⟨hI, hJ, fun c e => by simp [Thread.step] at e⟩
    | setter s =>
      refine ⟨?_, hJ, fun c e => by simp [Thread.step] at e⟩
      rw [← hI]
      exact (clear_step (ρ := ρ) (t := .setter s) (w := w')
        (a := { cls := .length, name := l, definition := .none }) trivial).1 l (by simp [NewUnit.labels, labelsOf])
    | creator c =>
      obtain ⟨k1, k2⟩ := creator_own (w := w') (hO c rfl)
      refine ⟨?_, ?_, ?_⟩
      · rw [← hI]
        cases c with
        | binding b x ls =>
          simp only [Thread.step, Creator.step]
          rw [get?_set, if_neg]
          intro e; subst e
          exact hJ (hO _ rfl).1
        | defining b p => cases p <;> rfl
        | labelling b ls =>
          cases ls with
          | nil => rfl
          | cons x ls =>
            simp only [Thread.step, Creator.step]
            cases hx : get? w'.registry x with
            | some y => simp only; split <;> rfl
            | none => rfl
        | numbering b r => rfl
        | counting b => rfl
        | counted b n => rfl
        | defaulting b => rfl
        | setting b => rfl
        | done b e => rfl
      · simp only [Thread.step, Thread.Labels] at hJ ⊢
        rw [k2]; exact hJ
      · intro c' e
        simp only [Thread.step, Thread.creator.injEq] at e
        subst e; exact k1
  · intro c e
    have ht' := hts t (List.mem_of_getElem? ht)
    cases ht' with
    | reader p => simp at e
    | setDefault c x hd => simp [Thread.setDefault] at e
    | create b' hv' hc =>
      simp only [Thread.create, Thread.creator.injEq] at e
      subst e; trivial

/-- C61: creating a unit undisturbed is what the sequential model says it is: some number of steps of
its own takes the thread to the end of the call, with the exception, the labels, the defaults and, if
the call returned, exactly the state of the sequential model. -/
theorem C61_alone (w : World K) (a : NewUnit K) (hc : a.cls ≠ .dimensionless) :
    ∃ σ w', (⟨w, [.create a]⟩ : Sys K ρ).run σ = ⟨w', [.creator (.done a (w.newUnit a).1)]⟩ ∧
      w'.registry = (w.newUnit a).2.registry ∧ w'.defaults = (w.newUnit a).2.defaults ∧
      ((w.newUnit a).1 = none → w' = (w.newUnit a).2) := by
  obtain ⟨w', h1, h2, -, h4, h5⟩ := gets_newUnit (ρ := ρ) w a hc
  obtain ⟨σ, hσ⟩ := h1.run (ts := [.create a]) (i := 0) rfl
  exact ⟨σ, w', hσ, h2, h4, h5⟩

/-- C60: changing a default undisturbed is what the sequential model says it is, and so is
simplifying. -/
theorem C60_alone (w : World K) (c : UClass) (a : DefaultArg K) (fuel : Nat) (q : Quantity K) :
    (∃ σ, (⟨w, [.setDefault c a]⟩ : Sys K ρ).run σ =
      ⟨(w.setDefault c (some a)).2, [.setter (.done (w.setDefault c (some a)).1)]⟩) ∧
    (simplifiedP fuel q).alone w = q.simplified w fuel :=
  ⟨(gets_setDefault w c a).run (ts := [.setDefault c a]) (i := 0) rfl, simplifiedP_alone w fuel q⟩

/-! ## Races -/

/-- Two units that want the same symbol. -/
noncomputable def exRaceA : NewUnit ℝ :=
  { cls := .unitQuantity, name := "foo", definition := .quantity ⟨2, dM⟩, symbol := some "x" }
noncomputable def exRaceB : NewUnit ℝ :=
  { cls := .unitQuantity, name := "bar", definition := .quantity ⟨3, dS⟩, symbol := some "x" }

theorem exRaceA_starts : (Thread.create exRaceA : Thread ℝ Unit).Starts exWorld := by
  refine .create _ ⟨?_, by simp [exRaceA]⟩ (by simp [exRaceA])
  intro q hq
  simp only [exRaceA, DefArg.toDef, Option.some.injEq] at hq
  subst hq
  exact ⟨by norm_num, ex_dimOK _ (by simp)⟩

theorem exRaceB_starts : (Thread.create exRaceB : Thread ℝ Unit).Starts exWorld := by
  refine .create _ ⟨?_, by simp [exRaceB]⟩ (by simp [exRaceB])
  intro q hq
  simp only [exRaceB, DefArg.toDef, Option.some.injEq] at hq
  subst hq
  exact ⟨by norm_num, ex_dimOK _ (by simp)⟩

/-- `foo` and `bar` are created at the same time, each interrupted between finding `x` free and
binding it. -/
def exRace : List Nat := List.replicate 8 0 ++ List.replicate 8 1 ++ [0, 0] ++ [1, 1]

/-- C67 (labels are bound once, redefinition raises) does not survive threads: two units of different
value are created with the same symbol, both calls return, and the symbol denotes first the one, then
the other. -/
theorem C67_false_race :
    let s : Sys ℝ Unit := ⟨exWorld, [.create exRaceA, .create exRaceB]⟩
    (s.run exRace).Created 0 none ∧ (s.run exRace).Created 1 none ∧
    get? (s.run (exRace.take 18)).world.registry "x" = some ⟨.unitQuantity, "foo"⟩ ∧
    get? (s.run exRace).world.registry "x" = some ⟨.unitQuantity, "bar"⟩ := by
  refine ⟨⟨exRaceA, rfl⟩, ⟨exRaceB, rfl⟩, ?_, ?_⟩
  · decide +kernel
  · decide +kernel

/-- The two creations interleaved so that both read the class's number before either increments it. -/
def exRace2 : List Nat := List.replicate 3 0 ++ List.replicate 8 1

/-- C69 (strings do not depend on the order of insertion) does not survive threads: two units created
at the same time get the same number, and then `foo*bar` and `bar*foo` print differently. -/
theorem C69_false_race :
    let s : Sys ℝ Unit := ⟨exWorld, [.create { exRaceA with symbol := none }, .create { exRaceB with symbol := none }]⟩
    let w := (s.run exRace2).world
    let foo : UKey := ⟨.unitQuantity, "foo"⟩
    let bar : UKey := ⟨.unitQuantity, "bar"⟩
    formatUnits w exFr false [(foo, .int 1), (bar, .int 1)] = "foo*bar".toList ∧
    formatUnits w exFr false [(bar, .int 1), (foo, .int 1)] = "bar*foo".toList := by
  decide +kernel

/-- Sequentially the two orders of insertion print the same. -/
example :
    let s : Sys ℝ Unit := ⟨exWorld, [.create { exRaceA with symbol := none }, .create { exRaceB with symbol := none }]⟩
    let w := (s.run (List.replicate 8 0 ++ List.replicate 8 1)).world
    let foo : UKey := ⟨.unitQuantity, "foo"⟩
    let bar : UKey := ⟨.unitQuantity, "bar"⟩
    formatUnits w exFr false [(foo, .int 1), (bar, .int 1)] = "foo*bar".toList ∧
    formatUnits w exFr false [(bar, .int 1), (foo, .int 1)] = "foo*bar".toList := by
  decide +kernel

/-- The defaults after `UnitLength.set_default_unit(km)`. -/
noncomputable def exKmWorld : World ℝ := (exWorld.setDefault .length (some ⟨1, dKm⟩)).2

theorem exKmWorld_defaults (c : UClass) : exKmWorld.defaults c =
    (match c with | .length => some dKm | .time => some dS | _ => none) := by
  obtain ⟨cf, hcf⟩ := (convFactor_returns exWorld_wf (ex_dimOK dM (by simp)) (ex_dimOK dKm (by simp))
    ex_safe_m_km.refs).2 (compatible_symm exWorld_wf ex_compat)
  unfold exKmWorld World.setDefault
  simp only [exDefaults, if_true, hcf]
  cases c <;> rfl

/-- C62 as stated is false: `(x*m*km).simplified` with the default length changed from `m` to `km`
between its two units returns the quantity in `m*km` - neither the state before (`m**2`) nor the state
after (`km**2`) has it so. -/
theorem C62_false_mixed (x : NDArr ℝ) (fuel : Nat) :
    let q : Quantity ℝ := ⟨x, [(uM, 1), (uKm, 1)]⟩
    let s : Sys ℝ (Py (Quantity ℝ)) :=
      ⟨exWorld, [.reader (simplifiedP (fuel + 1) q), .setDefault .length ⟨1, dKm⟩]⟩
    ∃ σ r, (s.run σ).Result 0 (.ok r) ∧ (s.run σ).world = exKmWorld ∧
      r.dim = [(uM, 1), (uKm, 1)] ∧
      ¬ (∀ u ∈ r.dim.map Prod.fst, IsDefaultUnit exWorld u) ∧
      ¬ (∀ u ∈ r.dim.map Prod.fst, IsDefaultUnit exKmWorld u) := by
  intro q s
  have hM : unitSimplified exWorld (fuel + 1) uM = .ok ⟨1, dM⟩ := by
    rw [unitSimplified, if_pos (show uM.cls.irreducible = true from rfl)]
    simp only [exDefaults, uM]
    unfold World.rescaleS
    exact if_pos (deq_self exWorld dM)
  have hKm : unitSimplified exKmWorld (fuel + 1) uKm = .ok ⟨1, dKm⟩ := by
    rw [unitSimplified, if_pos (show uKm.cls.irreducible = true from rfl)]
    simp only [exKmWorld_defaults, uKm]
    unfold World.rescaleS
    exact if_pos (deq_self exKmWorld dKm)
  let g : Py (SQ ℝ) → Prog ℝ (Py (Quantity ℝ)) := fun y =>
    ((Prog.ret y).andThen fun s' => simplifiedLoopP (fuel + 1)
      ⟨1 * rpow s'.mag 1, Dim.mul [] (Dim.pow s'.dim 1)⟩ [(uKm, 1)]).andThen fun rq =>
        .ret (.ok ⟨x.map (fun z => rq.mag * z), rq.dim⟩)
  have bind_assoc : ∀ {α β γ : Type} (p : Prog ℝ α) (f : α → Prog ℝ β) (k : β → Prog ℝ γ),
      (p.bind f).bind k = p.bind fun a => (f a).bind k := by
    intro α β γ p f k
    induction p with
    | ret a => rfl
    | read f' ih => simp only [Prog.bind]; congr 1; funext w; exact ih w
  have hq : simplifiedP (fuel + 1) q = (unitSimplifiedP (fuel + 1) uM).bind g := by
    unfold simplifiedP
    simp only [q]
    rw [simplifiedLoopP]
    unfold Prog.andThen
    rw [bind_assoc]
    rfl
  have g1 := gets_bind (ρ := Py (Quantity ℝ)) exWorld (unitSimplifiedP (fuel + 1) uM) g
  rw [← hq, unitSimplifiedP_alone, hM] at g1
  obtain ⟨σ1, h1⟩ := g1.run (ts := s.threads) (i := 0) rfl
  obtain ⟨σ2, h2⟩ := (gets_setDefault (ρ := Py (Quantity ℝ)) exWorld .length ⟨1, dKm⟩).run
    (ts := s.threads.set 0 (.reader (g (.ok ⟨1, dM⟩)))) (i := 1) rfl
  obtain ⟨σ3, h3⟩ := (gets_alone exKmWorld (g (.ok ⟨1, dM⟩))).run
    (ts := (s.threads.set 0 (.reader (g (.ok ⟨1, dM⟩)))).set 1
      (.setter (.done (exWorld.setDefault .length (some ⟨1, dKm⟩)).1))) (i := 0) rfl
  have hr : (g (.ok ⟨1, dM⟩)).alone exKmWorld =
      .ok ⟨x.map (fun z => (1 * rpow (1 : ℝ) 1 * rpow (1 : ℝ) 1) * z), [(uM, 1), (uKm, 1)]⟩ := by
    simp only [g]
    rw [alone_andThen, alone_andThen]
    simp only [Prog.alone]
    rw [simplifiedLoopP_alone _ _ fun y => unitSimplifiedP_alone _ _ y, simplifiedLoop, hKm]
    simp only
    rw [simplifiedLoop]
    have : Dim.mul (Dim.mul [] (Dim.pow dM 1)) (Dim.pow dKm 1) = [(uM, 1), (uKm, 1)] := by decide +kernel
    simp only [this]
  refine ⟨σ1 ++ (σ2 ++ σ3),
    ⟨x.map (fun z => (1 * rpow (1 : ℝ) 1 * rpow (1 : ℝ) 1) * z), [(uM, 1), (uKm, 1)]⟩, ?_, ?_, rfl, ?_, ?_⟩
  · exact (show (s.run (σ1 ++ (σ2 ++ σ3))).threads[0]? = some (.reader (.ret
      (.ok ⟨x.map (fun z => (1 * rpow (1 : ℝ) 1 * rpow (1 : ℝ) 1) * z), [(uM, 1), (uKm, 1)]⟩))) by
        rw [run_append, run_append]
        change ((((⟨exWorld, s.threads⟩ : Sys ℝ _).run σ1).run σ2).run σ3).threads[0]? = _
        rw [h1, h2]
        change ((⟨exKmWorld, _⟩ : Sys ℝ _).run σ3).threads[0]? = _
        rw [h3, hr]
        rfl)
  · rw [run_append, run_append]
    change ((((⟨exWorld, s.threads⟩ : Sys ℝ _).run σ1).run σ2).run σ3).world = _
    rw [h1, h2]
    change ((⟨exKmWorld, _⟩ : Sys ℝ _).run σ3).world = _
    rw [h3]
  · intro hh
    obtain ⟨c, d, hd, hm⟩ := hh uKm (by simp)
    rw [exDefaults] at hd
    cases c <;> simp only [Option.some.injEq, reduceCtorEq] at hd <;> subst hd <;>
      simp [dM, dS, uKm, uM, uS] at hm
  · intro hh
    obtain ⟨c, d, hd, hm⟩ := hh uM (by simp)
    rw [exKmWorld_defaults] at hd
    cases c <;> simp only [Option.some.injEq, reduceCtorEq] at hd <;> subst hd <;>
      simp [dKm, dS, uKm, uM, uS] at hm

end PQ
