import Verif.Props.History
import Verif.Props.Shipped
import Verif.Lemmas.Systems

/-!
# C22, C95: when `set_default_units` succeeds, and the unit systems of the shipped library
-/

namespace PQ

open Dict LawfulRPow World Shipped

variable {K : Type _} [Field K] [LinearOrder K] [IsStrictOrderedRing K] [RPow K] [LawfulRPow K]
variable {h : Hasher}

attribute [local irreducible] table unitTable constTable dims

/-! ## When a request is accepted -/

omit [IsStrictOrderedRing K] [LawfulRPow K] in
theorem convFactor_returns_deq (w : World K) (a b : Dim) :
    Returns (w.convFactor a b) ↔ w.deq (w.refUnits a).dim (w.refUnits b).dim = true := by
  rw [convFactor_def]
  split
  · rename_i e; exact ⟨fun _ => e, fun _ => returns_ok _⟩
  · rename_i e; exact ⟨fun hc => absurd hc (not_returns_error _), fun hc => absurd hc e⟩

omit [IsStrictOrderedRing K] [LawfulRPow K] in
theorem convFactor_returns_trans (w : World K) {a b : Dim} (hab : Returns (w.convFactor a b)) (c : Dim) :
    Returns (w.convFactor b c) ↔ Returns (w.convFactor a c) := by
  rw [convFactor_returns_deq] at *
  rw [convFactor_returns_deq]
  unfold World.deq Dim.eq at *
  rw [beq_iff_eq] at *
  rw [beq_iff_eq, hab]

/-- A call with one request raises nothing exactly when the request is acceptable; then only the default
of the class changes, to something convertible from what it was. -/
theorem setDefaultSpec_accept (w : World K) (c : UClass) (s : DefSpec K) :
    ((w.setDefaultSpec c s).1 = none ↔ Acceptable w c s) ∧
    ∃ f : UClass → Option Dim, (w.setDefaultSpec c s).2 = { w with defaults := f } ∧
      (∀ c', c' ≠ c → f c' = w.defaults c') ∧
      (∀ cur, w.defaults c = some cur → ∃ d, f c = some d ∧ Returns (w.convFactor cur d)) ∧
      (w.defaults c = none → f c = none) := by
  have self : ∀ d, Returns (w.convFactor d d) := fun d => by
    rw [convFactor_returns_deq]; exact deq_self _ _
  have triv : ∃ f : UClass → Option Dim, w = { w with defaults := f } ∧
      (∀ c', c' ≠ c → f c' = w.defaults c') ∧
      (∀ cur, w.defaults c = some cur → ∃ d, f c = some d ∧ Returns (w.convFactor cur d)) ∧
      (w.defaults c = none → f c = none) :=
    ⟨w.defaults, rfl, fun _ _ => rfl, fun cur hc => ⟨cur, hc, self cur⟩, fun hc => hc⟩
  have one : ∀ a : DefaultArg K, ((w.setDefault c (some a)).1 = none ↔
      a.mag = 1 ∧ ∃ cur, w.defaults c = some cur ∧ Returns (w.convFactor cur a.dim)) ∧
      ∃ f : UClass → Option Dim, (w.setDefault c (some a)).2 = { w with defaults := f } ∧
      (∀ c', c' ≠ c → f c' = w.defaults c') ∧
      (∀ cur, w.defaults c = some cur → ∃ d, f c = some d ∧ Returns (w.convFactor cur d)) ∧
      (w.defaults c = none → f c = none) := by
    intro a
    unfold World.setDefault
    simp only
    rcases hd : w.defaults c with _ | cur
    · rw [hd] at triv
      exact ⟨by simp, triv⟩
    · rw [hd] at triv
      simp only
      split
      · rename_i hm
        rcases hc : w.convFactor cur a.dim with e | cf
        · refine ⟨⟨fun hh => (by simp at hh), ?_⟩, triv⟩
          rintro ⟨-, cur', e', hr⟩
          cases e'
          rw [hc] at hr
          exact absurd hr (not_returns_error _)
        · refine ⟨⟨fun _ => ⟨hm, cur, rfl, ⟨cf, hc⟩⟩, fun _ => rfl⟩, _, rfl, ?_, ?_, by simp⟩
          · intro c' hc'; simp [hc']
          · intro cur' e'; cases e'
            exact ⟨a.dim, by simp, ⟨cf, hc⟩⟩
      · rename_i hm
        exact ⟨⟨fun hh => (by simp at hh), fun hh => absurd hh.1 hm⟩, triv⟩
  cases s with
  | none => exact ⟨⟨fun _ => trivial, fun _ => rfl⟩, triv⟩
  | other => exact ⟨⟨fun hh => absurd hh (by simp [World.setDefaultSpec]), fun hh => hh.elim⟩, triv⟩
  | unit a => exact one a
  | label l =>
    simp only [World.setDefaultSpec, Acceptable]
    rcases hl : get? w.registry l with _ | u
    · exact ⟨by simp, triv⟩
    · obtain ⟨h1, h2⟩ := one ⟨1, unitDim u⟩
      refine ⟨?_, h2⟩
      rw [h1]
      constructor
      · rintro ⟨-, cur, h3, h4⟩; exact ⟨u, cur, rfl, h3, h4⟩
      · rintro ⟨u', cur, e, h3, h4⟩; cases e; exact ⟨rfl, cur, h3, h4⟩

/-- Carrying a request out does not change which others can be. -/
theorem acceptable_step (w : World K) (c : UClass) (s : DefSpec K) (c' : UClass) (s' : DefSpec K) :
    Acceptable (w.setDefaultSpec c s).2 c' s' ↔ Acceptable w c' s' := by
  obtain ⟨-, f, e, f1, f2, f3⟩ := setDefaultSpec_accept w c s
  rw [e]
  have cf : ∀ a b, ({ w with defaults := f } : World K).convFactor a b = w.convFactor a b := fun _ _ => rfl
  have key : ∀ d : Dim, (∃ cur, f c' = some cur ∧ Returns (w.convFactor cur d)) ↔
      ∃ cur, w.defaults c' = some cur ∧ Returns (w.convFactor cur d) := by
    intro d
    by_cases hc : c' = c
    · subst hc
      rcases hd : w.defaults c' with _ | cur
      · rw [f3 hd]
      · obtain ⟨d', g1, g2⟩ := f2 cur hd
        rw [g1]
        simp only [Option.some.injEq, exists_eq_left']
        exact convFactor_returns_trans w g2 d
    · rw [f1 c' hc]
  cases s' with
  | none => exact Iff.rfl
  | other => exact Iff.rfl
  | unit a => exact and_congr_right fun _ => key a.dim
  | label l =>
    simp only [Acceptable, cf]
    constructor
    · rintro ⟨u, cur, h1, h2, h3⟩
      obtain ⟨cur', h4, h5⟩ := (key _).1 ⟨cur, h2, h3⟩
      exact ⟨u, cur', h1, h4, h5⟩
    · rintro ⟨u, cur, h1, h2, h3⟩
      obtain ⟨cur', h4, h5⟩ := (key _).2 ⟨cur, h2, h3⟩
      exact ⟨u, cur', h1, h4, h5⟩

theorem runDefaults_returns (calls : List (UClass × DefSpec K)) (w : World K) :
    (w.runDefaults calls).1 = none ↔ ∀ cs ∈ calls, Acceptable w cs.1 cs.2 := by
  induction calls generalizing w with
  | nil => simp [World.runDefaults]
  | cons cs calls ih =>
    obtain ⟨c, s⟩ := cs
    rw [World.runDefaults]
    have h1 := (setDefaultSpec_accept w c s).1
    have h2 := acceptable_step w c s
    rcases hs : w.setDefaultSpec c s with ⟨e, w₁⟩
    rw [hs] at h1 h2
    simp only at h1 h2
    rcases e with _ | e
    · simp only
      rw [ih]
      simp only [h2, List.mem_cons, forall_eq_or_imp]
      exact ⟨fun hh => ⟨h1.1 rfl, hh⟩, fun hh => hh.2⟩
    · simp only [reduceCtorEq, false_iff] at h1 ⊢
      intro hh
      exact h1 (hh (c, s) (by simp))

/-- C22: `set_default_units` raises nothing exactly when the system named is `si` or `cgs` (in any case)
and each request, of the system and of each keyword, can be carried out by itself: no request gets in the
way of another.  No assumption about hash collisions. -/
theorem C22_returns_iff (w : World K) (system : Option String) (a : DefaultsArgs K) :
    (w.setDefaultUnits system a).1 = none ↔
      (∀ s, system = some s → s.toLower = "si" ∨ s.toLower = "cgs") ∧
      (∀ c, Acceptable w c (systemUnit system c)) ∧ (∀ c, Acceptable w c (a.get c)) := by
  have kw : (∀ cs ∈ keywordCalls a, Acceptable w cs.1 cs.2) ↔ ∀ c, Acceptable w c (a.get c) := by
    simp only [keywordCalls, List.mem_cons, List.not_mem_nil, or_false, forall_eq_or_imp, forall_eq]
    constructor
    · rintro ⟨h1, h2, h3, h4, h5, h6, h7, h8, h9⟩ c
      cases c <;> first | assumption | trivial
    · exact fun hh => ⟨hh .currency, hh .current, hh .information, hh .length, hh .luminousIntensity,
        hh .mass, hh .substance, hh .temperature, hh .time⟩
  cases system with
  | none =>
    simp only [World.setDefaultUnits]
    rw [runDefaults_returns, kw]
    refine ⟨fun hh => ⟨by simp, fun c => trivial, hh⟩, fun hh => hh.2.2⟩
  | some s =>
    simp only [World.setDefaultUnits]
    by_cases e1 : s.toLower = "si"
    · simp only [systemCalls, if_pos e1]
      rw [runDefaults_returns]
      simp only [Option.some.injEq, forall_eq', e1, true_or, true_and, systemUnit, if_true, ← kw,
        List.mem_append, List.mem_cons, List.not_mem_nil, or_false, or_imp, forall_and, forall_eq]
      refine and_congr_left fun _ => ?_
      constructor
      · rintro ⟨⟨h1, h2, h3⟩, h4, h5, h6, h7⟩ c
        cases c <;> first | assumption | trivial
      · exact fun hh => ⟨⟨hh .current, hh .length, hh .mass⟩, hh .luminousIntensity, hh .substance,
          hh .temperature, hh .time⟩
    · by_cases e2 : s.toLower = "cgs"
      · simp only [systemCalls, if_neg e1, if_pos e2]
        rw [runDefaults_returns]
        simp only [Option.some.injEq, forall_eq', e2, or_true, true_and, systemUnit, if_neg e1, ← kw,
          List.mem_append, List.mem_cons, List.not_mem_nil, or_false, or_imp, forall_and, forall_eq]
        refine and_congr_left fun _ => ?_
        constructor
        · rintro ⟨⟨h2, h3⟩, h4, h5, h6, h7⟩ c
          cases c <;> first | assumption | trivial
        · exact fun hh => ⟨⟨hh .length, hh .mass⟩, hh .luminousIntensity, hh .substance,
            hh .temperature, hh .time⟩
      · simp [systemCalls, if_neg e1, if_neg e2, e1, e2]

/-! ## C66: calls that raise -/

theorem runDefaults_world (calls : List (UClass × DefSpec K)) (w : World K) :
    ∃ f, (w.runDefaults calls).2 = { w with defaults := f } := by
  induction calls generalizing w with
  | nil => exact ⟨w.defaults, rfl⟩
  | cons cs calls ih =>
    obtain ⟨c, s⟩ := cs
    rw [World.runDefaults]
    obtain ⟨-, f, e, -⟩ := setDefaultSpec_accept w c s
    rcases hs : w.setDefaultSpec c s with ⟨e', w₁⟩
    rw [hs] at e
    simp only at e
    subst e
    rcases e' with _ | e'
    · obtain ⟨g, hg⟩ := ih { w with defaults := f }
      exact ⟨g, hg⟩
    · exact ⟨f, rfl⟩

theorem setDefault_fault (w : World K) (c : UClass) (a : DefaultArg K) (e : PyErr)
    (he : (w.setDefault c (some a)).1 = some e) :
    (w.defaults c = none ∧ e = .typeError) ∨ (a.mag ≠ 1 ∧ e = .typeError) ∨
    ∃ cur, w.defaults c = some cur ∧ ¬ Returns (w.convFactor cur a.dim) ∧ e = .assertionError := by
  unfold World.setDefault at he
  simp only at he
  rcases hd : w.defaults c with _ | cur
  · rw [hd] at he
    simp only [Option.some.injEq] at he
    exact .inl ⟨rfl, he.symm⟩
  · rw [hd] at he
    simp only at he
    split at he
    · rcases hc : w.convFactor cur a.dim with e' | cf
      · rw [hc] at he
        simp only [Option.some.injEq] at he
        refine .inr (.inr ⟨cur, rfl, by rw [hc]; exact not_returns_error _, ?_⟩)
        rw [convFactor_def] at hc
        split at hc
        · cases hc
        · cases hc; exact he.symm
      · rw [hc] at he; cases he
    · rename_i hm
      simp only [Option.some.injEq] at he
      exact .inr (.inl ⟨hm, he.symm⟩)

/-- A refused request changes nothing, and the exception tells what was wrong with it. -/
theorem setDefaultSpec_fault (w : World K) (c : UClass) (s : DefSpec K) (e : PyErr)
    (he : (w.setDefaultSpec c s).1 = some e) : Fault w c s e ∧ (w.setDefaultSpec c s).2 = w := by
  have hsame : (w.setDefaultSpec c s).2 = w := (setDefaultSpec_spec w c s).2.2.1 (by rw [he]; simp)
  refine ⟨?_, hsame⟩
  cases s with
  | none => cases he
  | other =>
    simp only [World.setDefaultSpec, Option.some.injEq] at he
    subst he; exact .notUnit
  | unit a =>
    rcases setDefault_fault w c a e he with ⟨h1, rfl⟩ | ⟨h1, rfl⟩ | ⟨cur, h1, h2, rfl⟩
    · exact .noDefault h1
    · exact .magnitude h1
    · exact .kind h1 h2
  | label l =>
    simp only [World.setDefaultSpec] at he
    rcases hl : get? w.registry l with _ | u
    · rw [hl] at he
      simp only [Option.some.injEq] at he
      subst he; exact .unknown hl
    · rw [hl] at he
      rcases setDefault_fault w c _ e he with ⟨h1, rfl⟩ | ⟨h1, rfl⟩ | ⟨cur, h1, h2, rfl⟩
      · exact .noDefaultLabel hl h1
      · exact absurd rfl h1
      · exact .labelKind hl h1 h2

theorem Fault.not_acceptable {w : World K} {c : UClass} {s : DefSpec K} {e : PyErr} (hf : Fault w c s e) :
    ¬ Acceptable w c s := by
  cases hf with
  | unknown h1 => rintro ⟨u, cur, h2, -⟩; rw [h1] at h2; cases h2
  | notUnit => exact fun hh => hh
  | noDefaultLabel h1 h2 => rintro ⟨u, cur, -, h3, -⟩; rw [h2] at h3; cases h3
  | noDefault h2 => rintro ⟨-, cur, h3, -⟩; rw [h2] at h3; cases h3
  | magnitude h1 => exact fun hh => h1 hh.1
  | labelKind h1 h2 h3 =>
    rintro ⟨u, cur, h4, h5, h6⟩
    rw [h1] at h4; cases h4; rw [h2] at h5; cases h5
    exact h3 h6
  | kind h2 h3 =>
    rintro ⟨-, cur, h5, h6⟩
    rw [h2] at h5; cases h5
    exact h3 h6

/-- What is wrong with a request does not depend on the requests carried out before. -/
theorem fault_step (w : World K) (c : UClass) (s : DefSpec K) {c' : UClass} {s' : DefSpec K} {e : PyErr}
    (hf : Fault (w.setDefaultSpec c s).2 c' s' e) : Fault w c' s' e := by
  obtain ⟨-, f, he, f1, f2, f3⟩ := setDefaultSpec_accept w c s
  rw [he] at hf
  have none_ : f c' = none → w.defaults c' = none := by
    intro hn
    by_cases hc : c' = c
    · subst hc
      rcases hd : w.defaults c' with _ | cur
      · rfl
      · obtain ⟨d, g1, -⟩ := f2 cur hd
        rw [hn] at g1; cases g1
    · rw [← f1 c' hc]; exact hn
  have some_ : ∀ cur d, f c' = some cur → ¬ Returns (w.convFactor cur d) →
      ∃ cur', w.defaults c' = some cur' ∧ ¬ Returns (w.convFactor cur' d) := by
    intro cur d hc hn
    by_cases hcc : c' = c
    · subst hcc
      rcases hd : w.defaults c' with _ | cur'
      · rw [f3 hd] at hc; cases hc
      · obtain ⟨d', g1, g2⟩ := f2 cur' hd
        rw [hc] at g1; cases g1
        exact ⟨cur', rfl, fun hh => hn ((convFactor_returns_trans w g2 d).2 hh)⟩
    · exact ⟨cur, by rw [← f1 c' hcc]; exact hc, hn⟩
  cases hf with
  | unknown h1 => exact .unknown h1
  | notUnit => exact .notUnit
  | noDefaultLabel h1 h2 => exact .noDefaultLabel h1 (none_ h2)
  | noDefault h2 => exact .noDefault (none_ h2)
  | magnitude h1 => exact .magnitude h1
  | labelKind h1 h2 h3 =>
    obtain ⟨cur, g1, g2⟩ := some_ _ _ h2 h3
    exact .labelKind h1 g1 g2
  | kind h2 h3 =>
    obtain ⟨cur, g1, g2⟩ := some_ _ _ h2 h3
    exact .kind g1 g2

/-- A sequence of requests that fails: those before the first unacceptable one have been carried out. -/
theorem runDefaults_fault (calls : List (UClass × DefSpec K)) (w : World K) (e : PyErr)
    (he : (w.runDefaults calls).1 = some e) :
    ∃ pre c s post, calls = pre ++ (c, s) :: post ∧ (∀ cs ∈ pre, Acceptable w cs.1 cs.2) ∧ Fault w c s e ∧
      w.runDefaults pre = (none, (w.runDefaults calls).2) := by
  induction calls generalizing w with
  | nil => cases he
  | cons cs calls ih =>
    obtain ⟨c, s⟩ := cs
    rw [World.runDefaults] at he ⊢
    have h1 := setDefaultSpec_accept w c s |>.1
    have h2 := fun c' s' => acceptable_step w c s c' s'
    have h3 := fun e => setDefaultSpec_fault w c s e
    have h4 := fun c' s' e => fault_step w c s (c' := c') (s' := s') (e := e)
    rcases hs : w.setDefaultSpec c s with ⟨e', w₁⟩
    rw [hs] at he h1 h2 h3 h4
    simp only at h1 h2 h3 h4
    rcases e' with _ | e'
    · simp only at he ⊢
      obtain ⟨pre, c', s', post, e1, e2, e3, e4⟩ := ih w₁ he
      refine ⟨(c, s) :: pre, c', s', post, by rw [e1]; rfl, ?_, h4 _ _ _ e3, ?_⟩
      · intro cs hcs
        rcases List.mem_cons.1 hcs with rfl | hm
        · exact h1.1 rfl
        · exact (h2 _ _).1 (e2 cs hm)
      · rw [World.runDefaults, hs]; exact e4
    · simp only [Option.some.injEq] at he
      subst he
      obtain ⟨g1, g2⟩ := h3 e' rfl
      exact ⟨[], c, s, calls, rfl, by simp, g1, by simp [World.runDefaults, g2]⟩

/-- C66 (partial: not atomic, `C66_false`): a call that raises
* for an unknown system raises `ValueError` and changes nothing;
* otherwise raises for one of the requests that by itself cannot be carried out, with the exception that
  belongs to it (`TypeError` only for what is not a unit, `AssertionError` for a unit of the wrong kind);
  units and labels are unchanged, and each default is the old one or one that was asked for. -/
theorem C66_failure_partial (w w' : World K) (system : Option String) (a : DefaultsArgs K) (e : PyErr)
    (hr : w.setDefaultUnits system a = (some e, w')) :
    (∃ s, system = some s ∧ s.toLower ≠ "si" ∧ s.toLower ≠ "cgs" ∧ e = .valueError ∧ w' = w) ∨
    ((∃ c, Fault w c (systemUnit system c) e ∨ Fault w c (a.get c) e) ∧
      w'.units = w.units ∧ w'.registry = w.registry ∧
      ∀ c, w'.defaults c = w.defaults c ∨ Requested w c (systemUnit system c) (w'.defaults c) ∨
        Requested w c (a.get c) (w'.defaults c)) := by
  have general : ∀ calls : List (UClass × DefSpec K), w.runDefaults calls = (some e, w') →
      (∀ cs ∈ calls, cs.2 = systemUnit system cs.1 ∨ cs.2 = a.get cs.1) →
      ((∃ c, Fault w c (systemUnit system c) e ∨ Fault w c (a.get c) e) ∧
        w'.units = w.units ∧ w'.registry = w.registry ∧
        ∀ c, w'.defaults c = w.defaults c ∨ Requested w c (systemUnit system c) (w'.defaults c) ∨
          Requested w c (a.get c) (w'.defaults c)) := by
    intro calls hc hm
    obtain ⟨pre, c, s, post, e1, e2, e3, e4⟩ := runDefaults_fault calls w e (by rw [hc])
    obtain ⟨f, hf⟩ := runDefaults_world calls w
    rw [hc] at e4 hf
    simp only at e4 hf
    refine ⟨⟨c, ?_⟩, by rw [hf], by rw [hf], ?_⟩
    · rcases hm (c, s) (by rw [e1]; simp) with h1 | h1
      · simp only at h1; rw [h1] at e3; exact .inl e3
      · simp only at h1; rw [h1] at e3; exact .inr e3
    · have hm' : ∀ cs ∈ pre, cs.2 = systemUnit system cs.1 ∨ cs.2 = a.get cs.1 :=
        fun cs hcs => hm cs (by rw [e1]; simp [hcs])
      clear e1 e2 e3 hm hf
      -- after a successful prefix each default is the old one or one asked for
      have key : ∀ (pre : List (UClass × DefSpec K)) (w₁ : World K), w₁.registry = w.registry →
          (∀ c, w₁.defaults c = w.defaults c ∨ Requested w c (systemUnit system c) (w₁.defaults c) ∨
            Requested w c (a.get c) (w₁.defaults c)) →
          w₁.runDefaults pre = (none, w') → (∀ cs ∈ pre, cs.2 = systemUnit system cs.1 ∨ cs.2 = a.get cs.1) →
          ∀ c, w'.defaults c = w.defaults c ∨ Requested w c (systemUnit system c) (w'.defaults c) ∨
            Requested w c (a.get c) (w'.defaults c) := by
        intro pre
        induction pre with
        | nil =>
          intro w₁ _ hd h1 _
          simp only [World.runDefaults, Prod.mk.injEq, true_and] at h1
          subst h1; exact hd
        | cons cs pre ih =>
          obtain ⟨c, s⟩ := cs
          intro w₁ hreg hd h1 hin
          rw [World.runDefaults] at h1
          obtain ⟨p1, p2, -, p4⟩ := setDefaultSpec_spec w₁ c s
          rcases hs : w₁.setDefaultSpec c s with ⟨e', w₂⟩
          rw [hs] at h1 p1 p2 p4
          simp only at h1 p1 p2 p4
          rcases e' with _ | e'
          · refine ih w₂ (p1.trans hreg) (fun c' => ?_) h1 fun cs hcs => hin cs (by simp [hcs])
            by_cases hc' : c' = c
            · subst hc'
              have hq := p4 rfl
              cases s with
              | none =>
                change w₂.defaults c' = w₁.defaults c' at hq
                rw [hq]; exact hd c'
              | other => exact hq.elim
              | label l =>
                obtain ⟨u, q1, q2⟩ := hq
                rcases hin _ (List.mem_cons_self ..) with h2 | h2 <;> simp only at h2 <;> rw [← h2]
                · exact .inr (.inl ⟨u, hreg ▸ q1, q2⟩)
                · exact .inr (.inr ⟨u, hreg ▸ q1, q2⟩)
              | unit b =>
                rcases hin _ (List.mem_cons_self ..) with h2 | h2 <;> simp only at h2 <;> rw [← h2]
                · exact .inr (.inl hq)
                · exact .inr (.inr hq)
            · rw [p2 c' hc']; exact hd c'
          · cases h1
      exact key pre w rfl (fun c => .inl rfl) e4 hm'
  have kw : ∀ cs ∈ keywordCalls a, cs.2 = a.get cs.1 := by
    simp only [keywordCalls, List.mem_cons, List.not_mem_nil, or_false, forall_eq_or_imp, forall_eq]
    exact ⟨rfl, rfl, rfl, rfl, rfl, rfl, rfl, rfl, rfl⟩
  cases system with
  | none => exact .inr (general _ hr fun cs hcs => .inr (kw cs hcs))
  | some s =>
    simp only [World.setDefaultUnits] at hr
    by_cases e1 : s.toLower = "si"
    · simp only [systemCalls, if_pos e1] at hr
      refine .inr (general _ hr fun cs hcs => ?_)
      rcases List.mem_append.1 hcs with hm | hm
      · left
        simp only [systemUnit, if_pos e1]
        simp only [List.cons_append, List.nil_append, List.mem_cons, List.not_mem_nil, or_false] at hm
        rcases hm with rfl | rfl | rfl | rfl | rfl | rfl | rfl <;> rfl
      · exact .inr (kw cs hm)
    · by_cases e2 : s.toLower = "cgs"
      · simp only [systemCalls, if_neg e1, if_pos e2] at hr
        refine .inr (general _ hr fun cs hcs => ?_)
        rcases List.mem_append.1 hcs with hm | hm
        · left
          simp only [systemUnit, if_neg e1]
          simp only [List.cons_append, List.nil_append, List.mem_cons, List.not_mem_nil, or_false] at hm
          rcases hm with rfl | rfl | rfl | rfl | rfl | rfl <;> rfl
        · exact .inr (kw cs hm)
      · simp only [systemCalls, if_neg e1, if_neg e2] at hr
        simp only [Prod.mk.injEq, Option.some.injEq] at hr
        exact .inl ⟨s, rfl, e1, e2, hr.1.symm, hr.2.symm⟩

/-- C66 (partial): a call with keywords for one class only, and no system, is atomic. -/
theorem C66_one_class_partial (w w' : World K) (a : DefaultsArgs K) (e : PyErr) (c₀ : UClass)
    (h1 : ∀ c, c ≠ c₀ → a.get c = .none) (hr : w.setDefaultUnits none a = (some e, w')) : w' = w := by
  obtain ⟨pre, c, s, post, e1, e2, e3, e4⟩ := runDefaults_fault (keywordCalls a) w e (by
    change (w.setDefaultUnits none a).1 = _; rw [hr])
  have hw' : w.runDefaults pre = (none, w') := by
    rw [e4]; change (none, (w.setDefaultUnits none a).2) = _; rw [hr]
  have kw : ∀ cs ∈ keywordCalls a, cs.2 = a.get cs.1 := by
    simp only [keywordCalls, List.mem_cons, List.not_mem_nil, or_false, forall_eq_or_imp, forall_eq]
    exact ⟨rfl, rfl, rfl, rfl, rfl, rfl, rfl, rfl, rfl⟩
  have hn : ((keywordCalls a).map Prod.fst).Nodup := by simp [keywordCalls]
  -- the failing request is the one of `c₀`, so those before it ask for nothing
  have hs : s ≠ .none := fun h0 => by rw [h0] at e3; exact e3.not_acceptable trivial
  have hc : c = c₀ := by
    by_contra hne
    exact hs ((kw (c, s) (by rw [e1]; simp)).trans (h1 c hne))
  have hpre : ∀ cs ∈ pre, cs.2 = .none := by
    intro cs hcs
    refine (kw cs (by rw [e1]; simp [hcs])).trans (h1 _ fun h0 => ?_)
    rw [e1, List.map_append, List.map_cons, List.nodup_append] at hn
    exact hn.2.2 cs.1 (List.mem_map.2 ⟨cs, hcs, rfl⟩) c (by simp) (h0.trans hc.symm)
  have run : ∀ (pre : List (UClass × DefSpec K)), (∀ cs ∈ pre, cs.2 = .none) → w.runDefaults pre = (none, w) := by
    intro pre
    induction pre with
    | nil => intro _; rfl
    | cons cs pre ih =>
      obtain ⟨c, s⟩ := cs
      intro hh
      have : s = .none := hh (c, s) (by simp)
      subst this
      rw [World.runDefaults]
      exact ih fun cs hcs => hh cs (by simp [hcs])
  rw [run pre hpre] at hw'
  simp only [Prod.mk.injEq, true_and] at hw'
  exact hw'.symm

/-- The failing call of `C66_false`, `length='km', time='m'`, meets the hypothesis of `C66_failure_partial`, and
`time='m'` alone that of `C66_one_class_partial`. -/
example : (∃ e w', exWorld.setDefaultUnits none { length := .label "km", time := .label "m" } = (some e, w')) ∧
    ∃ e w', exWorld.setDefaultUnits none { time := .label "m" } = (some e, w') := by
  obtain ⟨w', h1, -⟩ := C66_false
  refine ⟨⟨_, w', h1⟩, ?_⟩
  have hn : ¬ (exWorld.setDefaultUnits none { time := .label "m" }).1 = none := by
    rw [C22_returns_iff]
    rintro ⟨-, -, h3⟩
    have h4 : (exWorld.setDefaultUnits none { length := .label "km", time := .label "m" }).1 = none := by
      rw [C22_returns_iff]
      refine ⟨by simp, fun c => trivial, fun c => ?_⟩
      cases c with
      | length =>
        obtain ⟨cf, hcf⟩ := (convFactor_returns exWorld_wf (ex_dimOK dM (by simp)) (ex_dimOK dKm (by simp))
          ex_safe_m_km.refs).2 (compatible_symm exWorld_wf ex_compat)
        exact ⟨uKm, dM, rfl, rfl, ⟨cf, hcf⟩⟩
      | time => exact h3 .time
      | _ => trivial
    rw [h1] at h4
    cases h4
  rcases hh : exWorld.setDefaultUnits none { time := .label "m" } with ⟨e, w'⟩
  rw [hh] at hn
  rcases e with _ | e
  · exact absurd rfl hn
  · exact ⟨e, w', rfl⟩

/-! ## The unit systems of the shipped library -/

theorem setDefaultUnits_world (w : World K) (system : Option String) (a : DefaultsArgs K) :
    ∃ f, (w.setDefaultUnits system a).2 = { w with defaults := f } := by
  unfold World.setDefaultUnits
  split
  · exact runDefaults_world _ _
  · split
    · exact ⟨w.defaults, rfl⟩
    · exact runDefaults_world _ _

/-- After any history of the process, the units of the two systems are found under their symbols and are
acceptable defaults. -/
theorem system_acceptable {π : K} (hπ : 0 < π) {w : World K} (he : Evolves (loaded saneTable π h) w)
    {l : String} {i : Nat} {u : UKey} (hm : (l, i, u) ∈ systemRows) :
    get? w.registry l = some u ∧ Acceptable w u.cls (.label l) := by
  have hw := sane_reachable h hπ
  obtain ⟨r, r1, r2, r3⟩ := systemRows_get hm
  have hl : get? w.registry l = some u :=
    (evolves_keeps he).2.2 l u ((loaded_labels saneTable_sub h π l u).2 ⟨r, r1, r3, r2.symm⟩)
  have hi : r.cls.irreducible = true ∧ r.key ≠ ⟨.current, "statampere"⟩ := by
    have hc : u.cls.irreducible = true ∧ u ≠ ⟨.current, "statampere"⟩ := by
      simp only [systemRows, List.mem_cons, Prod.mk.injEq, List.not_mem_nil, or_false] at hm
      rcases hm with ⟨-, -, rfl⟩ | ⟨-, -, rfl⟩ | ⟨-, -, rfl⟩ | ⟨-, -, rfl⟩ | ⟨-, -, rfl⟩ | ⟨-, -, rfl⟩ | ⟨-, -, rfl⟩ |
        ⟨-, -, rfl⟩ | ⟨-, -, rfl⟩ <;> decide
    rw [← r2] at hc; exact hc
  obtain ⟨d₀, d1, d2⟩ := (meets_default h hπ r1 hi.1 hi.2).2
  have hu : r.key ∈ (loaded saneTable π h).units.map Prod.fst := sane_known h π r1
  obtain ⟨d, e1, e2, e3⟩ := C21_default_convertible hw he r.key.cls d₀ d1
  have hc : Returns (w.convFactor d₀ (unitDim r.key)) := by
    have hdo := hw.wf.defaultsOK _ _ d1
    rw [convFactor_evolves he hdo (unitDim_ok hu)]
    have hcomp := compatible_symm hw.wf d2
    exact (convFactor_returns hw.wf hdo (unitDim_ok hu) fun _ =>
      (compatible_iff hw.wf hdo (unitDim_ok hu)).1 hcomp).2 hcomp
  rw [← r2]
  refine ⟨by rw [hl, r2], r.key, d, by rw [hl, r2], e1, (convFactor_returns_trans w e3 _).2 hc⟩

/-- C95: after importing the library and any further history of definitions and changes of defaults,
successful or not, `set_default_units('SI')` and `set_default_units('cgs')` (in any case) raise nothing.
Afterwards the default of each class of the system is the base unit of the system; other classes keep
their default; units and labels are unchanged.  No assumption about hash collisions. -/
theorem C95_systems {π : K} (hπ : 0 < π) {w : World K} (he : Evolves (loaded saneTable π h) w) (s : String) :
    (s.toLower = "si" → ∃ w', w.setDefaultUnits (some s) {} = (none, w') ∧ w'.units = w.units ∧
      w'.registry = w.registry ∧ ∀ c, w'.defaults c = match siDefault c with
        | some u => some [(u, 1)]
        | none => w.defaults c) ∧
    (s.toLower = "cgs" → ∃ w', w.setDefaultUnits (some s) {} = (none, w') ∧ w'.units = w.units ∧
      w'.registry = w.registry ∧ ∀ c, w'.defaults c = match cgsDefault c with
        | some u => some [(u, 1)]
        | none => w.defaults c) := by
  have acc : ∀ l i u, (l, i, u) ∈ systemRows → get? w.registry l = some u ∧ Acceptable w u.cls (.label l) :=
    fun l i u hm => system_acceptable hπ he hm
  have hA := acc "A" 186 ⟨.current, "ampere"⟩ (by simp [systemRows])
  have hm := acc "m" 34 ⟨.length, "meter"⟩ (by simp [systemRows])
  have hkg := acc "kg" 130 ⟨.mass, "kilogram"⟩ (by simp [systemRows])
  have hcd := acc "cd" 242 ⟨.luminousIntensity, "candela"⟩ (by simp [systemRows])
  have hmol := acc "mol" 88 ⟨.substance, "mole"⟩ (by simp [systemRows])
  have hK := acc "degK" 249 ⟨.temperature, "Kelvin"⟩ (by simp [systemRows])
  have hs := acc "s" 1 ⟨.time, "second"⟩ (by simp [systemRows])
  have hcm := acc "cm" 37 ⟨.length, "centimeter"⟩ (by simp [systemRows])
  have hg := acc "g" 131 ⟨.mass, "gram"⟩ (by simp [systemRows])
  have kw : ∀ c, Acceptable w c (({} : DefaultsArgs K).get c) := by intro c; cases c <;> trivial
  have fin : (w.setDefaultUnits (some s) {}).1 = none → ∃ w', w.setDefaultUnits (some s) {} = (none, w') ∧
      w'.units = w.units ∧ w'.registry = w.registry ∧
      ∀ c, Requested w c (systemUnit (some s) c) (w'.defaults c) := by
    intro h1
    obtain ⟨f, hf⟩ := setDefaultUnits_world w (some s) {}
    have hr : w.setDefaultUnits (some s) {} = (none, { w with defaults := f }) := Prod.ext h1 hf
    obtain ⟨-, -, q⟩ := C22_success w _ _ _ hr
    refine ⟨_, hr, rfl, rfl, fun c => ?_⟩
    have := q c
    unfold asked at this
    cases c <;> exact this
  have lab : ∀ {c l u r}, get? w.registry l = some u → Requested w c (.label l) r → u.cls ≠ .dimensionless →
      r = some [(u, (1 : ℚ))] := by
    intro c l u r h1 h2 h3
    obtain ⟨u', h4, h5⟩ := h2
    rw [h1] at h4; cases h4
    rw [h5, unitDim, if_neg h3]
  constructor
  · intro hsi
    have hall : ∀ c, Acceptable w c (systemUnit (some s) c) := by
      intro c
      simp only [systemUnit, if_pos hsi]
      cases c <;> first
        | trivial
        | exact hA.2 | exact hm.2 | exact hkg.2 | exact hcd.2 | exact hmol.2 | exact hK.2 | exact hs.2
    obtain ⟨w', h1, h2, h3, h4⟩ := fin ((C22_returns_iff w (some s) {}).2
      ⟨fun s' e => by cases e; exact .inl hsi, hall, kw⟩)
    refine ⟨w', h1, h2, h3, fun c => ?_⟩
    have := h4 c
    simp only [systemUnit, if_pos hsi] at this
    cases c <;> first
      | exact this
      | exact lab hA.1 this (by decide) | exact lab hm.1 this (by decide) | exact lab hkg.1 this (by decide)
      | exact lab hcd.1 this (by decide) | exact lab hmol.1 this (by decide) | exact lab hK.1 this (by decide)
      | exact lab hs.1 this (by decide)
  · intro hcgs
    have hsi : ¬ s.toLower = "si" := by rw [hcgs]; decide
    have hall : ∀ c, Acceptable w c (systemUnit (some s) c) := by
      intro c
      simp only [systemUnit, if_neg hsi]
      cases c <;> first
        | trivial
        | exact hcm.2 | exact hg.2 | exact hcd.2 | exact hmol.2 | exact hK.2 | exact hs.2
    obtain ⟨w', h1, h2, h3, h4⟩ := fin ((C22_returns_iff w (some s) {}).2
      ⟨fun s' e => by cases e; exact .inr hcgs, hall, kw⟩)
    refine ⟨w', h1, h2, h3, fun c => ?_⟩
    have := h4 c
    simp only [systemUnit, if_neg hsi] at this
    cases c <;> first
      | exact this
      | exact lab hcm.1 this (by decide) | exact lab hg.1 this (by decide)
      | exact lab hcd.1 this (by decide) | exact lab hmol.1 this (by decide) | exact lab hK.1 this (by decide)
      | exact lab hs.1 this (by decide)

/-- C95: however the defaults were changed before, `set_default_units('SI')` restores those of the import
(of the classes the SI covers). -/
theorem C95_si_restores {π : K} (hπ : 0 < π) {w w' : World K} (he : Evolves (loaded saneTable π h) w)
    (s : String) (hs : s.toLower = "si") (hr : w.setDefaultUnits (some s) {} = (none, w')) (c : UClass)
    (hc : siDefault c ≠ none) : w'.defaults c = (loaded saneTable π h).defaults c := by
  obtain ⟨w₁, h1, -, -, h4⟩ := (C95_systems hπ he s).1 hs
  rw [hr] at h1
  cases h1
  rw [h4 c, loaded_defaults h π saneTable _ saneTable_sub saneTable_eq]
  cases c <;> first | rfl | exact absurd rfl hc

/-! ## `simplified` on shipped units after any history -/

theorem setDefaultSpec_evolves {w₀ w : World K} (he : Evolves w₀ w) (hw : WF w) (c : UClass) (s : DefSpec K)
    (hs : ∀ a, s = .unit a → DimOK w a.dim) : Evolves w₀ (w.setDefaultSpec c s).2 := by
  cases s with
  | none => exact he
  | other => exact he
  | unit a => exact Evolves.step (.setDefault c (some a)) he fun x hx => by cases hx; exact hs a rfl
  | label l =>
    simp only [World.setDefaultSpec]
    rcases hl : get? w.registry l with _ | u
    · exact he
    · exact Evolves.step (.setDefault c (some ⟨1, unitDim u⟩)) he fun x hx => by
        cases hx; exact unitDim_ok (hw.registered l u hl)

theorem runDefaults_evolves {w₀ : World K} (h₀ : Reachable h w₀) (calls : List (UClass × DefSpec K)) :
    ∀ {w : World K}, Evolves w₀ w → (∀ cs ∈ calls, ∀ a, cs.2 = .unit a → DimOK w a.dim) →
    Evolves w₀ (w.runDefaults calls).2 := by
  induction calls with
  | nil => intro w he _; exact he
  | cons cs calls ih =>
    obtain ⟨c, s⟩ := cs
    intro w he hs
    rw [World.runDefaults]
    have h1 := setDefaultSpec_evolves he (h₀.evolves he).wf c s (hs (c, s) (by simp))
    obtain ⟨-, f, e, -⟩ := setDefaultSpec_accept w c s
    rcases hr : w.setDefaultSpec c s with ⟨e', w₁⟩
    rw [hr] at h1 e
    simp only at h1 e
    rcases e' with _ | e'
    · refine ih h1 fun cs hcs a ha => ?_
      have := hs cs (by simp [hcs]) a ha
      rw [e]
      exact ⟨this.canon, this.known, this.notDimless⟩
    · exact h1

/-- C95: `set_default_units` is a history of single changes. -/
theorem setDefaultUnits_evolves {w₀ w : World K} (h₀ : Reachable h w₀) (he : Evolves w₀ w)
    (system : Option String) (a : DefaultsArgs K) (ha : ∀ c x, a.get c = .unit x → DimOK w x.dim) :
    Evolves w₀ (w.setDefaultUnits system a).2 := by
  have kw : ∀ cs ∈ keywordCalls a, ∀ x, cs.2 = .unit x → DimOK w x.dim := by
    simp only [keywordCalls, List.mem_cons, List.not_mem_nil, or_false, forall_eq_or_imp, forall_eq]
    exact ⟨ha .currency, ha .current, ha .information, ha .length, ha .luminousIntensity,
        ha .mass, ha .substance, ha .temperature, ha .time⟩
  unfold World.setDefaultUnits
  split
  · exact runDefaults_evolves h₀ _ he kw
  · split
    · exact he
    · rename_i s calls hs
      refine runDefaults_evolves h₀ _ he fun cs hcs => ?_
      rcases List.mem_append.1 hcs with hm | hm
      · intro x hx
        exfalso
        unfold systemCalls at hs
        split at hs
        · cases hs
          simp only [List.cons_append, List.nil_append, List.mem_cons, List.not_mem_nil, or_false] at hm
          rcases hm with rfl | rfl | rfl | rfl | rfl | rfl | rfl <;> cases hx
        · split at hs
          · cases hs
            simp only [List.cons_append, List.nil_append, List.mem_cons, List.not_mem_nil, or_false] at hm
            rcases hm with rfl | rfl | rfl | rfl | rfl | rfl <;> cases hx
          · cases hs
      · exact kw cs hm

/-- The default changes made since the import hit no hash collision. -/
def ChangesSafe (w₀ w : World K) : Prop :=
  ∀ c d₀ d, w₀.defaults c = some d₀ → w.defaults c = some d → NoColl w (w.refUnits d₀).dim (w.refUnits d).dim

theorem meets_evolves {w₀ w : World K} (h₀ : Reachable h w₀) (he : Evolves w₀ w) (hs : ChangesSafe w₀ w)
    {u : UKey} (hu : u ∈ w₀.units.map Prod.fst) (hm : MeetsDefault w₀ u) : MeetsDefault w u := by
  obtain ⟨hi, d₀, h1, h2⟩ := hm
  obtain ⟨d, e1, e2, -⟩ := C21_default_convertible h₀ he _ d₀ h1
  refine ⟨hi, d, e1, compatible_trans ?_ (C21_default_dimension h₀ he _ d₀ d h1 e1 (hs _ _ _ h1 e1))⟩
  exact ((C21_values_stable h₀ he).2 _ _ (unitDim_ok hu) (h₀.wf.defaultsOK _ _ h1)).2 h2

theorem simplifies_evolves {w₀ w : World K} (h₀ : Reachable h w₀) (he : Evolves w₀ w) (hs : ChangesSafe w₀ w)
    {u : UKey} (hu : u ∈ w₀.units.map Prod.fst) (hm : Simplifies w₀ u) : Simplifies w u := by
  rcases hm with hm | ⟨hi, r, hr, hall⟩
  · exact .inl (meets_evolves h₀ he hs hu hm)
  · refine .inr ⟨hi, r, ?_, fun kv hkv => meets_evolves h₀ he hs ?_ (hall kv hkv)⟩
    · obtain ⟨i, hi'⟩ := info_known hu
      rw [convRef_of_info ((evolves_keeps he).2.1 u i hi'), ← convRef_of_info hi', hr]
    · exact (h₀.wf.refBase _ _ hr).2.known kv hkv

/-- C95 (partial: `statampere` excepted, see C79): after any history, `simplified` succeeds on every
quantity in shipped units, whatever its exponents; the result denotes the same physical value and consists
of units of the current defaults. -/
theorem C95_simplified_partial {π : K} (hπ : 0 < π) {w : World K} (he : Evolves (loaded saneTable π h) w)
    (hds : DefaultsSafe w) (hcs : ChangesSafe (loaded saneTable π h) w)
    (q : Quantity K) (hq : DimOK (loaded saneTable π h) q.dim)
    (hn : ∀ kv ∈ q.dim, kv.1 ≠ ⟨.current, "statampere"⟩) (fuel : Nat) (hf : 3 ≤ fuel) :
    ∃ r, q.simplified w fuel = .ok r ∧ r.mag.shape = q.mag.shape ∧ (∀ v : Valuation w, v.phys r = v.phys q) ∧
      ∀ u ∈ r.dim.map Prod.fst, ∃ c d, w.defaults c = some d ∧ u ∈ d.map Prod.fst := by
  have hw₀ := sane_reachable h hπ
  have hw := hw₀.evolves he
  have hq' : DimOK w q.dim := dimOK_evolves he hq
  have : Returns (q.simplified w fuel) := by
    rw [C19_returns hw hds q fuel hf hq']
    intro kv hkv
    obtain ⟨r, hr, e⟩ := sane_row h π (hq.known kv hkv)
    refine simplifies_evolves hw₀ he hcs (hq.known kv hkv) ?_
    rw [e]
    exact row_simplifies h hπ hr (by have := hq.notDimless kv hkv; rw [e] at this; exact this) (e ▸ hn kv hkv)
  obtain ⟨r, hr⟩ := this
  obtain ⟨h1, -, h3, h4⟩ := C19_value hw hds q r fuel hq' hr
  exact ⟨r, hr, h1, h4, h3⟩

/-- C95: in cgs, right after the import, the units of the result are among centimetre, gram, second,
kelvin, candela, mole and - cgs leaves them alone - ampere and bit. -/
theorem C95_cgs_partial {π : K} (hπ : 0 < π) (s : String) (hs : s.toLower = "cgs") {w : World K}
    (hr : (loaded saneTable π h).setDefaultUnits (some s) {} = (none, w)) (hds : DefaultsSafe w)
    (hcs : ChangesSafe (loaded saneTable π h) w)
    (q : Quantity K) (hq : DimOK (loaded saneTable π h) q.dim)
    (hn : ∀ kv ∈ q.dim, kv.1 ≠ ⟨.current, "statampere"⟩) :
    ∃ r, q.simplified w 3 = .ok r ∧ (∀ v : Valuation w, v.phys r = v.phys q) ∧
      ∀ u ∈ r.dim.map Prod.fst, u ∈ ([⟨.length, "centimeter"⟩, ⟨.mass, "gram"⟩, ⟨.time, "second"⟩,
        ⟨.temperature, "Kelvin"⟩, ⟨.luminousIntensity, "candela"⟩, ⟨.substance, "mole"⟩,
        ⟨.current, "ampere"⟩, ⟨.information, "bit"⟩] : List UKey) := by
  have hw₀ := sane_reachable h hπ
  have he : Evolves (loaded saneTable π h) w := by
    have := setDefaultUnits_evolves hw₀ Evolves.refl (some s) {} (fun c x hx => by cases c <;> cases hx)
    rw [hr] at this; exact this
  obtain ⟨r, h1, -, h3, h4⟩ := C95_simplified_partial hπ he hds hcs q hq hn 3 le_rfl
  refine ⟨r, h1, h3, fun u hu => ?_⟩
  obtain ⟨c, d, hd, hm⟩ := h4 u hu
  obtain ⟨w₁, k1, -, -, k4⟩ := (C95_systems hπ Evolves.refl s).2 hs
  rw [hr] at k1
  cases k1
  rw [k4 c, loaded_defaults h π saneTable _ saneTable_sub saneTable_eq] at hd
  cases c <;> simp only [cgsDefault, defaultOf, Option.map_some, Option.map_none, Option.some.injEq, reduceCtorEq] at hd <;>
    subst hd <;> simp [unitDim] at hm <;> subst hm <;> simp

/-! ## The hypotheses hold of the library with a hash function that tells its units apart -/

omit [IsStrictOrderedRing K] [LawfulRPow K] in
theorem HashSafe.defaults {w : World K} {a b : Dim} (hs : HashSafe w a b) (f : UClass → Option Dim) :
    HashSafe { w with defaults := f } a b := ⟨hs.1, hs.2⟩

omit [IsStrictOrderedRing K] [LawfulRPow K] in
theorem defaultsSafe_with {w : World K} (f : UClass → Option Dim)
    (hf : ∀ u d, u ∈ w.units.map Prod.fst → f u.cls = some d → HashSafe w (unitDim u) d) :
    DefaultsSafe { w with defaults := f } := fun u d hu hd => (hf u d hu hd).defaults f

omit [IsStrictOrderedRing K] [LawfulRPow K] in
theorem noColl_defaults {w : World K} {a b : Dim} (f : UClass → Option Dim)
    (hs : NoColl w (w.refUnits a).dim (w.refUnits b).dim) :
    NoColl { w with defaults := f } (({ w with defaults := f } : World K).refUnits a).dim
      (({ w with defaults := f } : World K).refUnits b).dim := hs

/-- No collision between a unit of the library and a unit of its class in one of the systems. -/
theorem lib_system_safe {π : K} (hπ : 0 < π) {l : String} {i : Nat} {u : UKey} (hm : (l, i, u) ∈ systemRows)
    {r : Row} (hr : r ∈ saneTable) (hc : r.cls = u.cls) (hn : r.key ≠ ⟨.current, "statampere"⟩)
    (hu : u.cls.irreducible = true) :
    HashSafe (loaded saneTable π libH) (unitDim r.key) (unitDim u) ∧
    Compatible (loaded saneTable π libH) (unitDim r.key) (unitDim u) := by
  have hw := sane_reachable libH hπ
  obtain ⟨s, s1, s2, -⟩ := systemRows_get hm
  have hsn : s.key ≠ ⟨.current, "statampere"⟩ := by
    rw [s2]
    simp only [systemRows, List.mem_cons, Prod.mk.injEq, List.not_mem_nil, or_false] at hm
    rcases hm with ⟨-, -, rfl⟩ | ⟨-, -, rfl⟩ | ⟨-, -, rfl⟩ | ⟨-, -, rfl⟩ | ⟨-, -, rfl⟩ | ⟨-, -, rfl⟩ | ⟨-, -, rfl⟩ |
      ⟨-, -, rfl⟩ | ⟨-, -, rfl⟩ <;> decide
  subst s2
  have hcs : r.cls = s.cls := hc
  obtain ⟨d, d1, d2⟩ := (meets_default libH hπ hr (by rw [hcs]; exact hu) hn).2
  obtain ⟨d', e1, e2⟩ := (meets_default libH hπ s1 hu hsn).2
  have : d' = d := by
    have : r.key.cls = s.key.cls := hcs
    rw [this] at d1; rw [d1] at e1; exact (Option.some.inj e1).symm
  subst this
  have hcomp := compatible_trans d2 (compatible_symm hw.wf e2)
  have hnd : ∀ c : UClass, c.irreducible = true → c ≠ .dimensionless := by intro c; cases c <;> decide
  refine ⟨safe_of_compat hr s1 (hnd _ (by rw [hcs]; exact hu)) (hnd _ hu) fun _ => ?_, hcomp⟩
  exact (compatible_iff hw.wf (unitDim_ok (sane_known libH π hr)) (unitDim_ok (sane_known libH π s1))).1 hcomp

/-- Unfold what a system says about one class. -/
theorem system_cases {o b : Option Dim} {u : Option UKey} (hh : o = match u with
    | some u => some [(u, (1 : ℚ))]
    | none => b) : (u = none ∧ o = b) ∨ ∃ t, u = some t ∧ o = some [(t, 1)] := by
  cases u with
  | none => exact .inl ⟨rfl, hh⟩
  | some t => exact .inr ⟨t, rfl, hh⟩

/-- The library in cgs, with a hash function that tells its units apart. -/
theorem lib_cgs_safe {π : K} (hπ : 0 < π) : ∃ w : World K,
    (loaded saneTable π libH).setDefaultUnits (some "CGS") {} = (none, w) ∧ DefaultsSafe w ∧
    ChangesSafe (loaded saneTable π libH) w ∧
    DimOK (loaded saneTable π libH) [(footRow.key, 2)] := by
  have hw := sane_reachable libH hπ
  obtain ⟨w, k1, -, -, k4⟩ := (C95_systems (h := libH) hπ Evolves.refl "CGS").2 (by decide +kernel)
  obtain ⟨f, hf⟩ := setDefaultUnits_world (loaded saneTable π libH) (some "CGS") {}
  rw [k1] at hf
  simp only at hf
  subst hf
  have hcases : ∀ c u, cgsDefault c = some u → c = u.cls ∧ u.cls.irreducible = true ∧ u.cls ≠ .current ∧
      (∃ l i, (l, i, u) ∈ systemRows) ∧ ∃ l₀ i₀ u₀, defaultOf c = some u₀ ∧ u₀.cls = c ∧
        (l₀, i₀, u₀) ∈ systemRows := by
    intro c u hu
    cases c <;> simp only [cgsDefault, Option.some.injEq, reduceCtorEq] at hu <;> subst hu
    · exact ⟨rfl, rfl, by decide, ⟨"g", 131, by simp [systemRows]⟩, "kg", 130, _, rfl, rfl, by simp [systemRows]⟩
    · exact ⟨rfl, rfl, by decide, ⟨"cm", 37, by simp [systemRows]⟩, "m", 34, _, rfl, rfl, by simp [systemRows]⟩
    · exact ⟨rfl, rfl, by decide, ⟨"s", 1, by simp [systemRows]⟩, "s", 1, _, rfl, rfl, by simp [systemRows]⟩
    · exact ⟨rfl, rfl, by decide, ⟨"cd", 242, by simp [systemRows]⟩, "cd", 242, _, rfl, rfl, by simp [systemRows]⟩
    · exact ⟨rfl, rfl, by decide, ⟨"mol", 88, by simp [systemRows]⟩, "mol", 88, _, rfl, rfl, by simp [systemRows]⟩
    · exact ⟨rfl, rfl, by decide, ⟨"degK", 249, by simp [systemRows]⟩, "degK", 249, _, rfl, rfl, by simp [systemRows]⟩
  refine ⟨_, k1, ?_, ?_, ?_⟩
  · refine defaultsSafe_with f fun u d hu hd => ?_
    obtain ⟨r, hr, rfl⟩ := sane_row libH π hu
    rcases system_cases (k4 r.key.cls) with ⟨hc, this⟩ | ⟨t, hc, this⟩
    · have this := hd.symm.trans this
      exact lib_defaultsSafe hπ r.key d hu this.symm
    · have this := hd.symm.trans this
      obtain ⟨e1, e2, e3, ⟨l, i, hm⟩, -⟩ := hcases _ _ hc
      have hnd : ∀ c : UClass, c.irreducible = true → c ≠ .dimensionless := by intro c; cases c <;> decide
      have ht : d = unitDim t := by
        rw [Option.some.inj this, unitDim, if_neg (hnd _ e2)]
      rw [ht]
      have hnst : r.key ≠ ⟨.current, "statampere"⟩ := by
        intro he; rw [he] at e1; exact e3 e1.symm
      exact (lib_system_safe hπ hm hr e1 hnst e2).1
  · intro c d₀ d h0 hd
    rcases system_cases (k4 c) with ⟨hc, this⟩ | ⟨t, hc, this⟩
    · rw [hd, h0] at this
      rw [Option.some.inj this]
      exact fun _ => SameContent.refl _
    · rw [hd] at this
      obtain ⟨e1, e2, e3, ⟨l, i, hm⟩, l₀, i₀, u₀, f1, f2, f3⟩ := hcases _ _ hc
      have hnd : ∀ c : UClass, c.irreducible = true → c ≠ .dimensionless := by intro c; cases c <;> decide
      have ht : d = unitDim t := by
        rw [Option.some.inj this, unitDim, if_neg (hnd _ e2)]
      rw [loaded_defaults libH π saneTable _ saneTable_sub saneTable_eq, f1] at h0
      have h0' : d₀ = unitDim u₀ := (Option.some.inj h0).symm
      obtain ⟨s, s1, s2, -⟩ := systemRows_get f3
      subst s2
      rw [ht, h0']
      exact noColl_defaults f (lib_system_safe hπ hm s1 (by rw [← e1]; exact f2)
        (by intro he; rw [he] at f2; exact e3 (e1.symm.trans f2.symm)) e2).1.refs
  · refine ⟨⟨by simp [Dict.Nodup], by simp⟩, ?_, ?_⟩
    · intro kv hkv
      rw [List.mem_singleton.1 hkv]
      exact sane_known libH π (List.mem_filter.2 ⟨foot_mem, by decide⟩)
    · intro kv hkv
      rw [List.mem_singleton.1 hkv]; decide



/-- Simplifying 3 square feet in cgs. -/
example : ∃ (w : World ℝ) (r : Quantity ℝ),
    (loaded saneTable Real.pi libH).setDefaultUnits (some "CGS") {} = (none, w) ∧
    (⟨NDArr.scalar 3, [(footRow.key, 2)]⟩ : Quantity ℝ).simplified w 3 = .ok r := by
  obtain ⟨w, h1, h2, h3, h4⟩ := lib_cgs_safe Real.pi_pos
  obtain ⟨r, hr, -⟩ := C95_cgs_partial Real.pi_pos "CGS" (by decide +kernel) h1 h2 h3
    ⟨NDArr.scalar 3, [(footRow.key, 2)]⟩ h4 (fun kv hkv => by rw [List.mem_singleton.1 hkv]; decide)
  exact ⟨w, r, h1, hr⟩

/-! ## C21: the default that comes with the first unit of a class -/

omit [LinearOrder K] [IsStrictOrderedRing K] [LawfulRPow K] in
/-- C21: a constructor call that returns makes the new unit the default of its class when it is a class of base
units that has none yet; in every other case, also when it raises, no default changes. -/
theorem C21_created_default [DecidableEq K] (w : World K) (a : NewUnit K) :
    ((w.newUnit a).1 = none → a.cls ∈ baseClasses → w.defaults a.cls = none →
      (w.newUnit a).2.defaults a.cls = some (unitDim ⟨a.cls, a.name⟩)) ∧
    (∀ c, ((w.newUnit a).1 ≠ none ∨ a.cls ∉ baseClasses ∨ c ≠ a.cls ∨ w.defaults c ≠ none) →
      (w.newUnit a).2.defaults c = w.defaults c) := by
  have hirr : a.cls.irreducible = true ↔ a.cls ∈ baseClasses := by
    cases a.cls <;> simp [UClass.irreducible, baseClasses]
  obtain ⟨reg, e1, -, -⟩ := registryAll_spec (w.construct a) ⟨a.cls, a.name⟩
    (labelsOf a.cls a.name a.symbol a.aliases)
  unfold World.newUnit
  rcases hr : (w.construct a).registryAll ⟨a.cls, a.name⟩
    (labelsOf a.cls a.name a.symbol a.aliases) with ⟨_ | e, w2⟩
  · rw [hr] at e1
    simp only at e1
    have hd : w2.defaults = w.defaults := by rw [e1]; rfl
    simp only [hr]
    by_cases hc : (a.cls.irreducible && (w2.defaults a.cls).isNone) = true
    · rw [if_pos hc]
      simp only [Bool.and_eq_true, Option.isNone_iff_eq_none, hd] at hc
      refine ⟨fun _ _ _ => by simp, fun c h => ?_⟩
      simp only [ne_eq, not_true, false_or] at h
      rcases h with h | h | h
      · exact absurd (hirr.mp hc.1) h
      · simp only [if_neg h, hd]
      · by_cases e : c = a.cls
        · subst e; exact absurd hc.2 h
        · simp only [if_neg e, hd]
    · rw [if_neg hc]
      refine ⟨fun _ h1 h2 => ?_, fun c _ => by simp only [hd]⟩
      exact absurd (by simp [hirr.mpr h1, hd, h2]) hc
  · rw [hr] at e1
    simp only at e1
    have hd : w2.defaults = w.defaults := by rw [e1]; rfl
    simp only [hr]
    by_cases hc : (w2.registry.any fun kv => decide (kv.2 = (⟨a.cls, a.name⟩ : UKey))) = true
    · rw [if_pos hc]; exact ⟨fun h => (by cases h), fun c _ => by simp only [hd]⟩
    · rw [if_neg hc]; exact ⟨fun h => (by cases h), fun c _ => by simp only [hd]⟩

/-- The first currency becomes the default of its class in a world without one. -/
example : (exWorld.newUnit { cls := .currency, name := "euro", definition := .none }).2.defaults .currency =
    some (unitDim ⟨.currency, "euro"⟩) :=
  (C21_created_default exWorld { cls := .currency, name := "euro", definition := .none }).1 (by rfl) (by decide) (by rfl)

private theorem not_simplified {w : World K} (hw : Reachable h w) (hds : DefaultsSafe w) (u : UKey) (d : Dim)
    (hd : Dim) (c : UClass) (hcl : u.cls = c) (hu : unitDim u = d) (hi : u.cls.irreducible = true) (h1 : u ∈ w.units.map Prod.fst)
    (h2 : w.defaults c = some hd) (h3 : ¬ Compatible w d hd) (m : NDArr K) (fuel : Nat) (hf : 3 ≤ fuel)
    (hn : d = [(u, 1)]) : DimOK w d ∧ ¬ Returns ((⟨m, d⟩ : Quantity K).simplified w fuel) := by
  have hok : DimOK w d := hu ▸ unitDim_ok h1
  refine ⟨hok, fun hr => ?_⟩
  have := (C19_returns hw hds _ fuel hf hok).1 hr (u, 1) (by rw [hn]; exact List.mem_singleton.2 rfl)
  rcases this with hm | ⟨hm, -⟩
  · obtain ⟨d', hd', hc⟩ := hm.2
    rw [hcl, h2] at hd'
    cases hd'
    rw [hu] at hc
    exact h3 hc
  · rw [hi] at hm; cases hm

/-- C95 fails for `statampere`: it is a shipped unit of current, but dimensionally not one, so that no quantity in it can
be simplified after the import. -/
theorem C95_false_statampere {π : K} (hπ : 0 < π) (hds : DefaultsSafe (loaded saneTable π h)) (m : NDArr K)
    (fuel : Nat) (hf : 3 ≤ fuel) :
    DimOK (loaded saneTable π h) [(⟨.current, "statampere"⟩, 1)] ∧
    ¬ Returns ((⟨m, [(⟨.current, "statampere"⟩, 1)]⟩ : Quantity K).simplified (loaded saneTable π h) fuel) := by
  obtain ⟨h1, h2, h3⟩ := C79_false_statampere h hπ
  exact not_simplified (sane_reachable h hπ) hds ⟨.current, "statampere"⟩ [(⟨.current, "statampere"⟩, 1)]
    [(⟨.current, "ampere"⟩, 1)] .current rfl (if_neg (by decide)) rfl h1 h2 h3 m fuel hf rfl

/-- ... and for the whole library there is a hash function without collisions of this kind. -/
example : ∃ h : Hasher, ¬ Returns ((⟨NDArr.scalar 1, [(⟨.current, "statampere"⟩, 1)]⟩ : Quantity ℝ).simplified
    (loaded saneTable Real.pi h) 3) :=
  ⟨libH, (C95_false_statampere Real.pi_pos (lib_defaultsSafe Real.pi_pos) _ 3 le_rfl).2⟩

end PQ
