import Verif.Lemmas.Threads3

/-! # One thread running alone: the thread programs refine the sequential model -/

namespace PQ

set_option linter.unusedSectionVars false

open Dict LawfulRPow World Prog

universe u v v'

section
variable {K : Type u} {ρ : Type v} [One K] [Mul K] [Div K] [RPow K] [DecidableEq K]

/-- `n` steps of one thread. -/
def Thread.iter (w : World K) (t : Thread K ρ) : Nat → World K × Thread K ρ
  | 0 => (w, t)
  | n + 1 => Thread.iter (t.step w).1 (t.step w).2 n

/-- After some steps of its own the thread reaches the given state. -/
def Thread.Gets (w : World K) (t : Thread K ρ) (w' : World K) (t' : Thread K ρ) : Prop :=
  ∃ n, Thread.iter w t n = (w', t')

theorem Thread.Gets.refl (w : World K) (t : Thread K ρ) : Thread.Gets w t w t := ⟨0, rfl⟩

theorem Thread.Gets.step {w w' : World K} {t t' : Thread K ρ}
    (h : Thread.Gets (t.step w).1 (t.step w).2 w' t') : Thread.Gets w t w' t' := by
  obtain ⟨n, hn⟩ := h; exact ⟨n + 1, hn⟩

theorem Thread.iter_add (w : World K) (t : Thread K ρ) (n m : Nat) :
    Thread.iter w t (n + m) = Thread.iter (Thread.iter w t n).1 (Thread.iter w t n).2 m := by
  induction n generalizing w t with
  | zero => simp [Thread.iter]
  | succ n ih => rw [Nat.succ_add]; exact ih _ _

theorem Thread.Gets.trans {w w1 w2 : World K} {t t1 t2 : Thread K ρ} (h : Thread.Gets w t w1 t1)
    (h' : Thread.Gets w1 t1 w2 t2) : Thread.Gets w t w2 t2 := by
  obtain ⟨n, hn⟩ := h; obtain ⟨m, hm⟩ := h'
  exact ⟨n + m, by rw [Thread.iter_add, hn]; exact hm⟩

/-- Scheduling one thread `n` times in a row. -/
theorem run_replicate (w : World K) (ts : List (Thread K ρ)) (i n : Nat) (t : Thread K ρ)
    (hi : ts[i]? = some t) : (⟨w, ts⟩ : Sys K ρ).run (List.replicate n i) =
      ⟨(Thread.iter w t n).1, ts.set i (Thread.iter w t n).2⟩ := by
  induction n generalizing w ts t with
  | zero =>
    have : ts.set i t = ts := by
      apply List.ext_getElem?
      intro j
      by_cases e : i = j
      · subst e; rw [List.getElem?_set_self (List.getElem?_eq_some_iff.1 hi).1, hi]
      · rw [List.getElem?_set_ne e]
    simp only [List.replicate_zero, Sys.run, List.foldl_nil, Thread.iter, this]
  | succ n ih =>
    have hlen := (List.getElem?_eq_some_iff.1 hi).1
    rw [List.replicate_succ]
    have hs : (⟨w, ts⟩ : Sys K ρ).step i = ⟨(t.step w).1, ts.set i (t.step w).2⟩ := by
      unfold Sys.step; simp only; rw [hi]
    change ((⟨w, ts⟩ : Sys K ρ).step i).run _ = _
    rw [hs, ih _ _ (t.step w).2 (by rw [List.getElem?_set_self hlen])]
    simp only [Thread.iter, List.set_set]

theorem run_append (s : Sys K ρ) (σ τ : List Nat) : s.run (σ ++ τ) = (s.run σ).run τ := by
  unfold Sys.run; rw [List.foldl_append]

/-- Some schedule realises what a thread gets to on its own. -/
theorem Thread.Gets.run {w w' : World K} {t t' : Thread K ρ} (h : Thread.Gets w t w' t')
    {ts : List (Thread K ρ)} {i : Nat} (hi : ts[i]? = some t) :
    ∃ σ, (⟨w, ts⟩ : Sys K ρ).run σ = ⟨w', ts.set i t'⟩ := by
  obtain ⟨n, hn⟩ := h
  exact ⟨List.replicate n i, by rw [run_replicate w ts i n t hi, hn]⟩

/-! ## Computations -/

theorem gets_alone (w : World K) (p : Prog K ρ) :
    Thread.Gets w (.reader p) w (.reader (.ret (p.alone w))) := by
  induction p with
  | ret r => exact .refl _ _
  | read f ih => exact .step (ih w)

theorem gets_bind {α : Type v'} (w : World K) (p : Prog K α) (g : α → Prog K ρ) :
    Thread.Gets w (.reader (p.bind g)) w (.reader (g (p.alone w))) := by
  induction p with
  | ret r => exact .refl _ _
  | read f ih => exact .step (ih w)

theorem alone_andThen {α β : Type v} (w : World K) (p : Prog K (Py α)) (g : α → Prog K (Py β)) :
    (p.andThen g).alone w = match p.alone w with
      | .error e => .error e
      | .ok a => (g a).alone w := by
  unfold Prog.andThen
  rw [alone_bind]
  cases p.alone w <;> rfl

theorem refLoopP_alone (w : World K) (rq : SQ K) (d : Dim) :
    (refLoopP rq d).alone w = d.foldl w.refStep rq := by
  induction d generalizing rq with
  | nil => rfl
  | cons kv d ih =>
    rw [refLoopP, alone_bind, ih]
    rfl

theorem referenceP_alone (w : World K) (q : SQ K) : (referenceP q).alone w = w.reference q := by
  unfold referenceP
  rw [alone_bind, refLoopP_alone]
  rfl

theorem convFactorP_alone (w : World K) (a b : Dim) : (convFactorP a b).alone w = w.convFactor a b := by
  unfold convFactorP
  rw [alone_bind, referenceP_alone, alone_bind, referenceP_alone]
  rfl

theorem rescaleSP_alone (w : World K) (q : SQ K) (d : Dim) : (rescaleSP q d).alone w = w.rescaleS q d := by
  have hd : ∀ g : Bool → Prog K (Py (SQ K)),
      ((deqP q.dim d).bind g).alone w = (g (w.deq q.dim d)).alone w := fun g => rfl
  unfold rescaleSP World.rescaleS
  rw [hd]
  split
  · rfl
  · rw [alone_bind, convFactorP_alone]
    cases w.convFactor q.dim d with
    | ok cf => rfl
    | error e => cases e <;> rfl

theorem simplifiedLoopP_alone (w : World K) (fuel : Nat)
    (ih : ∀ x, (unitSimplifiedP fuel x).alone w = unitSimplified w fuel x) (d : Dim) (rq : SQ K) :
    (simplifiedLoopP fuel rq d).alone w = simplifiedLoop w fuel rq d := by
  induction d generalizing rq with
  | nil => rw [simplifiedLoopP, simplifiedLoop]; rfl
  | cons kv d ihd =>
    obtain ⟨x, p⟩ := kv
    rw [simplifiedLoopP, simplifiedLoop, alone_andThen, ih]
    cases unitSimplified w fuel x with
    | error e => rfl
    | ok s => exact ihd _

theorem unitSimplifiedP_alone (w : World K) (fuel : Nat) (x : UKey) :
    (unitSimplifiedP fuel x).alone w = unitSimplified w fuel x := by
  induction fuel using Nat.strong_induction_on generalizing x with
  | _ fuel ih =>
    cases fuel with
    | zero => rw [unitSimplifiedP, unitSimplified]; rfl
    | succ fuel =>
      rw [unitSimplifiedP, unitSimplified]
      split
      · simp only [Prog.alone]
        cases w.defaults x.cls with
        | none => rfl
        | some d => exact rescaleSP_alone w _ _
      · simp only [Prog.alone]
        cases w.convRef x with
        | none => exact ih fuel (Nat.lt_succ_self _) x
        | some r =>
          cases fuel with
          | zero => simp only; rw [scalarSimplifiedP, scalarSimplified]; rfl
          | succ fuel =>
            simp only
            rw [scalarSimplifiedP, scalarSimplified, alone_andThen,
              simplifiedLoopP_alone w fuel fun y => ih fuel (by omega) y]
            cases simplifiedLoop w fuel ⟨1, []⟩ r.dim <;> rfl

theorem simplifiedP_alone (w : World K) (fuel : Nat) (q : Quantity K) :
    (simplifiedP fuel q).alone w = q.simplified w fuel := by
  unfold simplifiedP Quantity.simplified
  rw [alone_andThen, simplifiedLoopP_alone w fuel fun y => unitSimplifiedP_alone w fuel y]
  cases simplifiedLoop w fuel ⟨1, []⟩ q.dim <;> rfl

/-! ## Default units -/

theorem gets_checking (w : World K) (c : UClass) (d : Dim) (p : Prog K (Py K)) :
    Thread.Gets (ρ := ρ) w (.setter (.checking c d p)) w (.setter (.checking c d (.ret (p.alone w)))) := by
  induction p with
  | ret r => exact .refl _ _
  | read f ih => exact .step (ih w)

theorem gets_setDefault (w : World K) (c : UClass) (a : DefaultArg K) :
    Thread.Gets (ρ := ρ) w (.setDefault c a) (w.setDefault c (some a)).2
      (.setter (.done (w.setDefault c (some a)).1)) := by
  refine .step ?_
  simp only [Thread.setDefault, Thread.step, Setter.step, World.setDefault]
  cases w.defaults c with
  | none => exact .refl _ _
  | some cur =>
    simp only
    split
    · refine (gets_checking w c a.dim _).trans ?_
      rw [convFactorP_alone]
      cases w.convFactor cur a.dim with
      | error e => exact .step (.refl _ _)
      | ok cf => exact .step (.step (.refl _ _))
    · exact .refl _ _

/-! ## Creating a unit -/

theorem gets_defining (w : World K) (a : NewUnit K) (p : Prog K (Option (SQ K))) :
    Thread.Gets (ρ := ρ) w (.creator (.defining a p)) w (.creator (.numbering a (p.alone w))) := by
  induction p with
  | ret r => exact .step (.refl _ _)
  | read f ih => exact .step (ih w)

theorem gets_labelling (w w' : World K) (a : NewUnit K) (ls : List String)
    (h : w.registryAll ⟨a.cls, a.name⟩ ls = (none, w')) :
    Thread.Gets (ρ := ρ) w (.creator (.labelling a ls)) w' (.creator (.labelling a [])) := by
  induction ls generalizing w with
  | nil =>
    simp only [World.registryAll, Prod.mk.injEq, true_and] at h
    subst h; exact .refl _ _
  | cons l ls ih =>
    rw [World.registryAll] at h
    refine .step ?_
    simp only [Thread.step, Creator.step]
    unfold World.registrySet at h
    cases hx : get? w.registry l with
    | some y =>
      simp only [hx] at h ⊢
      by_cases hu : w.unitEq ⟨a.cls, a.name⟩ y = true
      · simp only [hu, if_true] at h ⊢; exact ih w h
      · simp only [hu] at h; exact absurd h (by simp)
    | none =>
      simp only [hx] at h ⊢
      exact .step (ih _ h)

theorem gets_labelling_error (w w' : World K) (a : NewUnit K) (ls : List String) (e : PyErr)
    (h : w.registryAll ⟨a.cls, a.name⟩ ls = (some e, w')) :
    Thread.Gets (ρ := ρ) w (.creator (.labelling a ls)) w' (.creator (.done a (some e))) := by
  induction ls generalizing w with
  | nil => simp [World.registryAll] at h
  | cons l ls ih =>
    rw [World.registryAll] at h
    refine .step ?_
    simp only [Thread.step, Creator.step]
    unfold World.registrySet at h
    cases hx : get? w.registry l with
    | some y =>
      simp only [hx] at h ⊢
      by_cases hu : w.unitEq ⟨a.cls, a.name⟩ y = true
      · simp only [hu, if_true] at h ⊢; exact ih w h
      · simp only [hu] at h ⊢
        simp only [Bool.false_eq_true, if_false, Prod.mk.injEq, Option.some.injEq] at h ⊢
        obtain ⟨rfl, rfl⟩ := h
        exact .refl _ _
    | none =>
      simp only [hx] at h ⊢
      exact .step (ih _ h)

theorem gets_construct (w : World K) (a : NewUnit K) (hc : a.cls ≠ .dimensionless) :
    Thread.Gets (ρ := ρ) w (.create a) (w.construct a)
      (.creator (.labelling a (labelsOf a.cls a.name a.symbol a.aliases))) := by
  refine (gets_defining w a _).trans ?_
  have hr : (convRefP a.definition.toDef).alone w = a.definition.toDef.map w.reference := by
    cases a.definition.toDef with
    | none => rfl
    | some q => simp only [convRefP, alone_bind, referenceP_alone]; rfl
  rw [hr]
  refine .step (.step (.step ?_))
  have : (Creator.step (Creator.step (Creator.step w
      (.numbering a (a.definition.toDef.map w.reference))).1 (.counting a)).1
      (.counted a (w.counter a.cls))).1 = w.construct a := by
    unfold World.construct
    simp only [Creator.step, hc, decide_false, Bool.false_eq_true, if_false]
    cases w.info ⟨a.cls, a.name⟩ <;> rfl
  rw [← this]
  exact .refl _ _

/-- A thread that creates a unit undisturbed does what the sequential model says.  (When the call
raises, the sequential model forgets an object that nothing refers to; the thread model does not.) -/
theorem gets_newUnit (w : World K) (a : NewUnit K) (hc : a.cls ≠ .dimensionless) :
    ∃ w', Thread.Gets (ρ := ρ) w (.create a) w' (.creator (.done a (w.newUnit a).1)) ∧
      w'.registry = (w.newUnit a).2.registry ∧ w'.counters = (w.newUnit a).2.counters ∧
      w'.defaults = (w.newUnit a).2.defaults ∧
      ((w.newUnit a).1 = none → w' = (w.newUnit a).2) := by
  rcases hr : (w.construct a).registryAll ⟨a.cls, a.name⟩
    (labelsOf a.cls a.name a.symbol a.aliases) with ⟨e, w2⟩
  cases e with
  | some e =>
    have hn : (w.newUnit a) = if w2.registry.any (fun kv => decide (kv.2 = ⟨a.cls, a.name⟩)) then
        (some e, w2) else (some e, { w2 with units := w.units }) := by
      unfold World.newUnit; simp only [hr]
    have hg := (gets_construct (ρ := ρ) w a hc).trans (gets_labelling_error _ _ a _ e hr)
    rw [hn]
    refine ⟨w2, ?_⟩
    split
    · exact ⟨hg, rfl, rfl, rfl, by simp⟩
    · exact ⟨hg, rfl, rfl, rfl, by simp⟩
  | none =>
    have hn : (w.newUnit a) = if a.cls.irreducible && (w2.defaults a.cls).isNone then
        (none, { w2 with defaults := fun c =>
          if c = a.cls then some (unitDim ⟨a.cls, a.name⟩) else w2.defaults c })
        else (none, w2) := by
      unfold World.newUnit; simp only [hr]
    rw [hn]
    have h1 := (gets_construct (ρ := ρ) w a hc).trans (gets_labelling _ _ a _ hr)
    by_cases hi : a.cls.irreducible = true
    · have h2 : Thread.Gets (ρ := ρ) w2 (.creator (.labelling a [])) w2 (.creator (.defaulting a)) := by
        refine .step ?_
        simp only [Thread.step, Creator.step, hi, if_true]
        exact .refl _ _
      by_cases hd : (w2.defaults a.cls).isNone = true
      · simp only [hi, hd, Bool.and_self, if_true]
        refine ⟨{ w2 with defaults := fun c =>
          if c = a.cls then some (unitDim ⟨a.cls, a.name⟩) else w2.defaults c },
          (h1.trans h2).trans (.step (.step ?_)), rfl, rfl, rfl, fun _ => rfl⟩
        simp only [Thread.step, Creator.step, hd, if_true]
        exact .refl _ _
      · simp only [hi, hd, Bool.and_false, Bool.false_eq_true, if_false]
        refine ⟨_, (h1.trans h2).trans (.step ?_), rfl, rfl, rfl, fun _ => rfl⟩
        simp only [Thread.step, Creator.step, hd, Bool.false_eq_true, if_false]
        exact .refl _ _
    · simp only [hi, Bool.false_and, Bool.false_eq_true, if_false]
      refine ⟨_, h1.trans (.step ?_), rfl, rfl, rfl, fun _ => rfl⟩
      simp only [Thread.step, Creator.step, hi, Bool.false_eq_true, if_false]
      exact .refl _ _

end

/-! ## `simplified` while the default units stay the same -/

section
variable {K : Type u} [Field K] [LinearOrder K] [IsStrictOrderedRing K] [RPow K] [LawfulRPow K]

theorem simplifiedLoopP_quiet {w : World K} {fuel : Nat} {G : World K → Prop}
    (ih : ∀ x ∈ w.units.map Prod.fst,
      Holds G (fun _ r => r = unitSimplified w fuel x) (unitSimplifiedP fuel x) w)
    (d : Dim) (hk : ∀ kv ∈ d, kv.1 ∈ w.units.map Prod.fst) (rq : SQ K) :
    Holds G (fun _ r => r = simplifiedLoop w fuel rq d) (simplifiedLoopP fuel rq d) w := by
  induction d generalizing rq with
  | nil => rw [simplifiedLoopP, simplifiedLoop]; exact Holds.ret fun _ _ _ => rfl
  | cons kv d ihd =>
    obtain ⟨x, p⟩ := kv
    rw [simplifiedLoopP, simplifiedLoop]
    refine Holds.bind ((ih x (hk (x, p) List.mem_cons_self)).weaken ?_)
    intro w' r hl _ hr
    subst hr
    cases unitSimplified w fuel x with
    | error e => exact Holds.ret fun _ _ _ => rfl
    | ok s => exact (ihd (fun kv hkv => hk kv (by simp [hkv])) _).later hl

theorem unitSimplifiedP_quiet {w : World K} (hw : WF w) (fuel : Nat) (x : UKey)
    (hk : x ∈ w.units.map Prod.fst) :
    Holds (fun w' => w'.defaults = w.defaults) (fun _ r => r = unitSimplified w fuel x)
      (unitSimplifiedP fuel x) w := by
  induction fuel using Nat.strong_induction_on generalizing x with
  | _ fuel ih =>
    cases fuel with
    | zero => rw [unitSimplifiedP, unitSimplified]; exact Holds.ret fun _ _ _ => rfl
    | succ fuel =>
      rw [unitSimplifiedP, unitSimplified]
      split
      · intro w' hl hg
        simp only
        rw [hg]
        cases hdf : w.defaults x.cls with
        | none => exact Holds.ret fun _ _ _ => rfl
        | some d =>
          simp only
          exact ((rescaleSP_holds (q := ⟨1, unitDim x⟩) (unitDim_ok hk)
            (hw.defaultsOK _ d hdf)).const _).later hl
      · intro w' hl hg
        simp only
        rw [hl.convRef hk]
        cases hc : w.convRef x with
        | none => exact (ih fuel (Nat.lt_succ_self _) x hk).later hl
        | some r =>
          simp only
          cases fuel with
          | zero => rw [scalarSimplifiedP, scalarSimplified]; exact Holds.ret fun _ _ _ => rfl
          | succ fuel =>
            rw [scalarSimplifiedP, scalarSimplified]
            obtain ⟨rpos, rbase⟩ := hw.refBase x r hc
            refine Holds.later (Holds.bind ((simplifiedLoopP_quiet (fun y hy => ih fuel (by omega) y hy)
              r.dim rbase.known ⟨1, []⟩).weaken ?_)) hl
            intro w'' rq hl' _ hrq
            subst hrq
            cases simplifiedLoop w fuel ⟨1, []⟩ r.dim <;> exact Holds.ret fun _ _ _ => rfl

theorem simplifiedP_quiet {w : World K} (hw : WF w) (fuel : Nat) (q : Quantity K) (hq : DimOK w q.dim) :
    Holds (fun w' => w'.defaults = w.defaults) (fun _ r => r = q.simplified w fuel)
      (simplifiedP fuel q) w := by
  unfold Quantity.simplified
  refine Holds.bind ((simplifiedLoopP_quiet (fun y hy => unitSimplifiedP_quiet hw fuel y hy) q.dim
    hq.known ⟨1, []⟩).weaken ?_)
  intro w' rq _ _ hrq
  subst hrq
  cases simplifiedLoop w fuel ⟨1, []⟩ q.dim <;> exact Holds.ret fun _ _ _ => rfl

end
end PQ
