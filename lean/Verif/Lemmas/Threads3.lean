import Verif.Lemmas.Threads2

/-! # Threads that create units or change defaults -/

namespace PQ

set_option linter.unusedSectionVars false

open Dict LawfulRPow World Prog

universe u v v'

variable {K : Type u} {ρ : Type v} [Field K] [LinearOrder K] [IsStrictOrderedRing K] [RPow K]
  [LawfulRPow K]

/-- An invariant of all threads and of the shared state. -/
theorem run_inv {I : World K → Prop} {J : Thread K ρ → Prop}
    (hstep : ∀ w t, I w → J t → I (t.step w).1 ∧ J (t.step w).2) {s : Sys K ρ} (hI : I s.world)
    (hJ : ∀ (i : Nat) (t : Thread K ρ), s.threads[i]? = some t → J t) (σ : List Nat) :
    I (s.run σ).world ∧ ∀ (i : Nat) (t : Thread K ρ), (s.run σ).threads[i]? = some t → J t := by
  induction σ generalizing s with
  | nil => exact ⟨hI, hJ⟩
  | cons j σ ih =>
    rw [run_cons]
    cases hj : s.threads[j]? with
    | none =>
      have : s.step j = s := by unfold Sys.step; rw [hj]
      rw [this]; exact ih hI hJ
    | some t =>
      obtain ⟨h1, h2⟩ := step_self hj
      obtain ⟨k1, k2⟩ := hstep s.world t hI (hJ j t hj)
      refine ih (by rw [h2]; exact k1) fun i x hx => ?_
      by_cases e : j = i
      · subst e
        rw [h1] at hx
        simp only [Option.some.injEq] at hx
        subst hx; exact k2
      · rw [step_other e] at hx; exact hJ i x hx

/-! ## Labels -/

/-- The label `l` is in nobody's hands: no thread has found it free and is about to bind it. -/
def Creator.Hands (P : String → Prop) : Creator K → Prop
  | .binding _ l _ => P l
  | _ => True

def Thread.Hands (P : String → Prop) : Thread K ρ → Prop
  | .creator c => c.Hands P
  | _ => True

theorem bound_step (l : String) (k : UKey) (w : World K) (t : Thread K ρ)
    (hI : get? w.registry l = some k) (hJ : t.Hands (· ≠ l)) :
    get? (t.step w).1.registry l = some k ∧ (t.step w).2.Hands (· ≠ l) := by
  cases t with
  | reader p => cases p <;> exact ⟨hI, trivial⟩
  | setter s =>
    refine ⟨?_, trivial⟩
    simp only [Thread.step]
    cases s with
    | reading c a => simp only [Setter.step]; split <;> exact hI
    | checking c d p => cases p with
      | ret r => cases r <;> exact hI
      | read f => exact hI
    | storing c d => exact hI
    | done e => exact hI
  | creator c =>
    cases c with
    | defining a p => cases p <;> exact ⟨hI, trivial⟩
    | numbering a r => exact ⟨hI, trivial⟩
    | counting a => exact ⟨hI, trivial⟩
    | counted a n => exact ⟨hI, trivial⟩
    | labelling a ls =>
      cases ls with
      | nil =>
        refine ⟨hI, ?_⟩
        simp only [Thread.step, Creator.step]
        split <;> trivial
      | cons x ls =>
        simp only [Thread.step, Creator.step]
        cases hx : get? w.registry x with
        | some y =>
          simp only
          split <;> exact ⟨hI, trivial⟩
        | none =>
          refine ⟨hI, ?_⟩
          intro e; subst e; rw [hI] at hx; exact absurd hx (by simp)
    | binding a x ls =>
      refine ⟨?_, trivial⟩
      simp only [Thread.step, Creator.step]
      rw [get?_set, if_neg hJ]; exact hI
    | defaulting a =>
      refine ⟨hI, ?_⟩
      simp only [Thread.step, Creator.step]
      split <;> trivial
    | setting a => exact ⟨hI, trivial⟩
    | done a e => exact ⟨hI, trivial⟩

theorem Thread.Starts.hands {w : World K} {t : Thread K ρ} (h : t.Starts w) (P : String → Prop) :
    t.Hands P := by cases h <;> trivial

/-! ## Threads that avoid the labels and the name of `a` -/

/-- The labels of a unit. -/
def NewUnit.labels (a : NewUnit K) : List String := labelsOf a.cls a.name a.symbol a.aliases

/-- The labels a constructor call has still to register are labels of its unit. -/
def Creator.Own : Creator K → Prop
  | .labelling a ls => ∀ l ∈ ls, l ∈ NewUnit.labels a
  | .binding a l ls => l ∈ NewUnit.labels a ∧ ∀ x ∈ ls, x ∈ NewUnit.labels a
  | _ => True

theorem creator_own {w : World K} {c : Creator K} (h : c.Own) :
    (c.step w).2.Own ∧ (c.step w).2.arg = c.arg := by
  cases c with
  | defining a p => cases p <;> exact ⟨trivial, rfl⟩
  | numbering a r => exact ⟨trivial, rfl⟩
  | counting a => exact ⟨trivial, rfl⟩
  | counted a n => exact ⟨fun l hl => hl, rfl⟩
  | labelling a ls =>
    cases ls with
    | nil => simp only [Creator.step]; split <;> exact ⟨trivial, rfl⟩
    | cons x ls =>
      simp only [Creator.step]
      cases hx : get? w.registry x with
      | some y =>
        simp only
        split
        · exact ⟨fun l hl => h l (List.mem_cons_of_mem _ hl), rfl⟩
        · exact ⟨trivial, rfl⟩
      | none => exact ⟨⟨h x List.mem_cons_self, fun l hl => h l (List.mem_cons_of_mem _ hl)⟩, rfl⟩
  | binding a x ls => exact ⟨h.2, rfl⟩
  | defaulting a => simp only [Creator.step]; split <;> exact ⟨trivial, rfl⟩
  | setting a => exact ⟨trivial, rfl⟩
  | done a e => exact ⟨trivial, rfl⟩

/-- A thread that avoids `a`, at any point. -/
def Thread.Clear (a : NewUnit K) : Thread K ρ → Prop
  | .creator c => c.Own ∧ Thread.Avoids (ρ := ρ) a (.creator c)
  | _ => True

theorem Thread.Clear.step {a : NewUnit K} {w : World K} {t : Thread K ρ} (h : t.Clear a) :
    (t.step w).2.Clear a := by
  cases t with
  | reader p => cases p <;> trivial
  | setter s => trivial
  | creator c =>
    obtain ⟨h1, h2⟩ := h
    obtain ⟨k1, k2⟩ := creator_own (w := w) h1
    refine ⟨k1, ?_⟩
    simp only [Thread.Avoids] at h2 ⊢
    rw [k2]; exact h2

/-- The registry and the units at the labels and the key of `a` are untouched by a step of a thread
that avoids them. -/
theorem clear_step {a : NewUnit K} {w : World K} {t : Thread K ρ} (h : t.Clear a) :
    (∀ l ∈ NewUnit.labels a, get? (t.step w).1.registry l = get? w.registry l) ∧
      (t.step w).1.info ⟨a.cls, a.name⟩ = w.info ⟨a.cls, a.name⟩ := by
  cases t with
  | reader p => cases p <;> exact ⟨fun _ _ => rfl, rfl⟩
  | setter s =>
    simp only [Thread.step]
    cases s with
    | reading c a => simp only [Setter.step]; split <;> exact ⟨fun _ _ => rfl, rfl⟩
    | checking c d p => cases p with
      | ret r => cases r <;> exact ⟨fun _ _ => rfl, rfl⟩
      | read f => exact ⟨fun _ _ => rfl, rfl⟩
    | storing c d => exact ⟨fun _ _ => rfl, rfl⟩
    | done e => exact ⟨fun _ _ => rfl, rfl⟩
  | creator c =>
    obtain ⟨h1, h2, h3⟩ := h
    simp only [Thread.step]
    cases c with
    | defining b p => cases p <;> exact ⟨fun _ _ => rfl, rfl⟩
    | numbering b r =>
      refine ⟨fun _ _ => rfl, ?_⟩
      simp only [Creator.step]
      cases hb : w.info ⟨b.cls, b.name⟩ with
      | some i => rfl
      | none =>
        unfold World.info
        simp only
        rw [get?_set, if_neg]
        intro e
        simp only [UKey.mk.injEq] at e
        exact h2 (by simp only [Creator.arg]; rw [e.1, e.2])
    | counting b => exact ⟨fun _ _ => rfl, rfl⟩
    | counted b n => exact ⟨fun _ _ => rfl, rfl⟩
    | labelling b ls =>
      cases ls with
      | nil => exact ⟨fun _ _ => rfl, rfl⟩
      | cons x ls =>
        simp only [Creator.step]
        cases hx : get? w.registry x with
        | some y => simp only; split <;> exact ⟨fun _ _ => rfl, rfl⟩
        | none => exact ⟨fun _ _ => rfl, rfl⟩
    | binding b x ls =>
      refine ⟨fun l hl => ?_, rfl⟩
      simp only [Creator.step]
      rw [get?_set, if_neg]
      intro e; subst e
      exact h3 x h1.1 hl
    | defaulting b => exact ⟨fun _ _ => rfl, rfl⟩
    | setting b => exact ⟨fun _ _ => rfl, rfl⟩
    | done b e => exact ⟨fun _ _ => rfl, rfl⟩

/-! ## The creation of `a` itself -/

/-- The unit `a` exists with its definition and the reference computed from it in `w0`. -/
def Exists (w0 : World K) (a : NewUnit K) (w : World K) : Prop :=
  ∃ i, w.info ⟨a.cls, a.name⟩ = some i ∧ i.definition = a.definition.toDef ∧
    i.convRef = a.definition.toDef.map w0.reference ∧ i.symbol = a.symbol ∧ i.uSymbol = a.uSymbol ∧
    i.aliases = a.aliases

/-- The labels `ls` denote `a`. -/
def Bound (a : NewUnit K) (w : World K) (ls : List String) : Prop :=
  ∀ l ∈ ls, get? w.registry l = some ⟨a.cls, a.name⟩

/-- The labels of `a` are free or denote `a`. -/
def FreeOrMine (a : NewUnit K) (w : World K) : Prop :=
  ∀ l ∈ NewUnit.labels a, get? w.registry l = none ∨ get? w.registry l = some ⟨a.cls, a.name⟩

/-- The creation of `a` at each point, with nobody interfering. -/
def Making (w0 : World K) (a : NewUnit K) (w : World K) : Creator K → Prop
  | .defining b p => b = a ∧ w.info ⟨a.cls, a.name⟩ = none ∧ FreeOrMine a w ∧
      p.Holds (fun _ => True) (fun _ r => r = a.definition.toDef.map w0.reference) w
  | .numbering b r => b = a ∧ w.info ⟨a.cls, a.name⟩ = none ∧ FreeOrMine a w ∧
      r = a.definition.toDef.map w0.reference
  | .counting b | .counted b _ => b = a ∧ Exists w0 a w ∧ FreeOrMine a w
  | .labelling b ls => b = a ∧ Exists w0 a w ∧ FreeOrMine a w ∧
      ∃ pre, NewUnit.labels a = pre ++ ls ∧ Bound a w pre
  | .binding b l ls => b = a ∧ Exists w0 a w ∧ FreeOrMine a w ∧
      ∃ pre, NewUnit.labels a = pre ++ l :: ls ∧ Bound a w pre
  | .defaulting b | .setting b => b = a ∧ Exists w0 a w ∧ Bound a w (NewUnit.labels a)
  | .done b e => b = a ∧ e = none ∧ Exists w0 a w ∧ Bound a w (NewUnit.labels a)

theorem Exists.congr {w0 : World K} {a : NewUnit K} {w w' : World K} (h : Exists w0 a w)
    (e : w'.info ⟨a.cls, a.name⟩ = w.info ⟨a.cls, a.name⟩) : Exists w0 a w' := by
  obtain ⟨i, hi⟩ := h; exact ⟨i, by rw [e]; exact hi.1, hi.2⟩

theorem Bound.congr {a : NewUnit K} {w w' : World K} {ls : List String} (h : Bound a w ls)
    (e : ∀ l ∈ ls, get? w'.registry l = get? w.registry l) : Bound a w' ls :=
  fun l hl => by rw [e l hl]; exact h l hl

theorem FreeOrMine.congr {a : NewUnit K} {w w' : World K} (h : FreeOrMine a w)
    (e : ∀ l ∈ NewUnit.labels a, get? w'.registry l = get? w.registry l) : FreeOrMine a w' :=
  fun l hl => by rw [e l hl]; exact h l hl

theorem Making.other {w0 : World K} {a : NewUnit K} {w w' : World K} {c : Creator K}
    (h : Making w0 a w c) (hl : Later w w')
    (hr : ∀ l ∈ NewUnit.labels a, get? w'.registry l = get? w.registry l)
    (hi : w'.info ⟨a.cls, a.name⟩ = w.info ⟨a.cls, a.name⟩) : Making w0 a w' c := by
  cases c with
  | defining b p =>
    obtain ⟨h1, h2, h3, h4⟩ := h; exact ⟨h1, by rw [hi]; exact h2, h3.congr hr, h4.later hl⟩
  | numbering b r =>
    obtain ⟨h1, h2, h3, h4⟩ := h; exact ⟨h1, by rw [hi]; exact h2, h3.congr hr, h4⟩
  | counting b => obtain ⟨h1, h2, h3⟩ := h; exact ⟨h1, h2.congr hi, h3.congr hr⟩
  | counted b n => obtain ⟨h1, h2, h3⟩ := h; exact ⟨h1, h2.congr hi, h3.congr hr⟩
  | labelling b ls =>
    obtain ⟨h1, h2, h3, pre, h4, h5⟩ := h
    exact ⟨h1, h2.congr hi, h3.congr hr, pre, h4, h5.congr fun l hl => hr l (by rw [h4]; simp [hl])⟩
  | binding b x ls =>
    obtain ⟨h1, h2, h3, pre, h4, h5⟩ := h
    exact ⟨h1, h2.congr hi, h3.congr hr, pre, h4, h5.congr fun l hl => hr l (by rw [h4]; simp [hl])⟩
  | defaulting b => obtain ⟨h1, h2, h3⟩ := h; exact ⟨h1, h2.congr hi, h3.congr hr⟩
  | setting b => obtain ⟨h1, h2, h3⟩ := h; exact ⟨h1, h2.congr hi, h3.congr hr⟩
  | done b e => obtain ⟨h1, h2, h3, h4⟩ := h; exact ⟨h1, h2, h3.congr hi, h4.congr hr⟩

theorem Making.step {w0 : World K} {a : NewUnit K} {w : World K} {c : Creator K}
    (h : Making w0 a w c) : Making w0 a (c.step w).1 (c.step w).2 := by
  cases c with
  | defining b p =>
    obtain ⟨h1, h2, h3, h4⟩ := h
    subst h1
    cases p with
    | ret r => exact ⟨rfl, h2, h3, h4 w (Later.refl _) trivial⟩
    | read f => exact ⟨rfl, h2, h3, h4 w (Later.refl _) trivial⟩
  | numbering b r =>
    obtain ⟨h1, h2, h3, h4⟩ := h
    subst h1
    simp only [Creator.step, h2]
    refine ⟨rfl, ⟨⟨b.definition.toDef, r, b.symbol, b.uSymbol, b.aliases,
      (b.cls.primaryOrder, w.counter b.cls)⟩, ?_, rfl, h4, rfl, rfl, rfl⟩, h3⟩
    change get? _ _ = _
    exact (get?_set _ _ _ _).trans (if_pos rfl)
  | counting b => exact h
  | counted b n =>
    obtain ⟨h1, h2, h3⟩ := h
    subst h1
    exact ⟨rfl, h2, h3, [], rfl, fun l hl => absurd hl (by simp)⟩
  | labelling b ls =>
    obtain ⟨h1, h2, h3, pre, h4, h5⟩ := h
    subst h1
    cases ls with
    | nil =>
      simp only [List.append_nil] at h4
      simp only [Creator.step]
      split
      · exact ⟨rfl, h2, by rw [h4]; exact h5⟩
      · exact ⟨rfl, rfl, h2, by rw [h4]; exact h5⟩
    | cons x ls =>
      have hx : x ∈ NewUnit.labels b := by rw [h4]; simp
      simp only [Creator.step]
      rcases h3 x hx with e | e
      · simp only [e]; exact ⟨rfl, h2, h3, pre, h4, h5⟩
      · simp only [e, unitEq_self, if_true]
        refine ⟨rfl, h2, h3, pre ++ [x], by rw [h4]; simp, ?_⟩
        intro l hl
        rcases List.mem_append.1 hl with hl | hl
        · exact h5 l hl
        · simp only [List.mem_singleton] at hl; subst hl; exact e
  | binding b x ls =>
    obtain ⟨h1, h2, h3, pre, h4, h5⟩ := h
    subst h1
    have hg : ∀ l, get? (Dict.set w.registry x (⟨b.cls, b.name⟩ : UKey)) l =
        if x = l then some ⟨b.cls, b.name⟩ else get? w.registry l := fun l => get?_set _ _ _ _
    refine ⟨rfl, h2, ?_, pre ++ [x], by rw [h4]; simp, ?_⟩
    · intro l hl
      change get? (Dict.set w.registry x _) l = none ∨ get? (Dict.set w.registry x _) l = _
      rw [hg]
      by_cases e : x = l
      · right; rw [if_pos e]
      · rw [if_neg e]; exact h3 l hl
    · intro l hl
      change get? (Dict.set w.registry x _) l = _
      rw [hg]
      by_cases e : x = l
      · rw [if_pos e]
      · rw [if_neg e]
        rcases List.mem_append.1 hl with hl | hl
        · exact h5 l hl
        · simp only [List.mem_singleton] at hl; exact absurd hl.symm e
  | defaulting b =>
    obtain ⟨h1, h2, h3⟩ := h
    subst h1
    simp only [Creator.step]
    split
    · exact ⟨rfl, h2, h3⟩
    · exact ⟨rfl, rfl, h2, h3⟩
  | setting b => obtain ⟨h1, h2, h3⟩ := h; exact ⟨h1, rfl, h2, h3⟩
  | done b e => exact h

/-- The creation of `a` by thread `i` while the other threads keep clear of it. -/
theorem making_run {w0 : World K} {a : NewUnit K} {s : Sys K ρ} {i : Nat} {c : Creator K}
    (hi : s.threads[i]? = some (.creator c)) (hm : Making w0 a s.world c)
    (hc : ∀ j t, j ≠ i → s.threads[j]? = some t → t.Clear a) (σ : List Nat) :
    ∃ c', (s.run σ).threads[i]? = some (.creator c') ∧ Making w0 a (s.run σ).world c' := by
  induction σ generalizing s c with
  | nil => exact ⟨c, hi, hm⟩
  | cons j σ ih =>
    rw [run_cons]
    by_cases e : j = i
    · subst e
      obtain ⟨h1, h2⟩ := step_self hi
      refine ih (c := (c.step s.world).2) h1 (by rw [h2]; exact hm.step) fun k t hk ht => ?_
      rw [step_other (Ne.symm hk)] at ht
      exact hc k t hk ht
    · cases hj : s.threads[j]? with
      | none =>
        have : s.step j = s := by unfold Sys.step; rw [hj]
        rw [this]; exact ih hi hm hc
      | some t =>
        obtain ⟨h1, h2⟩ := step_self hj
        have hcl := hc j t e hj
        obtain ⟨k1, k2⟩ := clear_step (w := s.world) hcl
        refine ih (c := c) (by rw [step_other e]; exact hi)
          (by rw [h2]; exact hm.other (by rw [← h2]; exact step_later s j) k1 k2) fun k x hk hx => ?_
        by_cases e2 : j = k
        · subst e2
          rw [h1] at hx
          simp only [Option.some.injEq] at hx
          subst hx; exact hcl.step
        · rw [step_other e2] at hx; exact hc k x hk hx

/-! ## Constructor calls finish -/

/-- The constructor call finishes in `n` steps, whatever it sees. -/
def Creator.Within : Nat → Creator K → Prop
  | 0, c => ∃ a e, c = .done a e
  | n + 1, c => ∀ w, (c.step w).2.Within n

theorem Creator.Within.done (n : Nat) (a : NewUnit K) (e : Option PyErr) :
    Creator.Within n (.done a e) := by
  induction n with
  | zero => exact ⟨a, e, rfl⟩
  | succ n ih => exact fun w => ih

theorem Creator.Within.mono {n m : Nat} {c : Creator K} (h : c.Within n) (hm : n ≤ m) : c.Within m := by
  induction n generalizing m c with
  | zero => obtain ⟨a, e, rfl⟩ := h; exact Creator.Within.done m a e
  | succ n ih =>
    obtain ⟨m, rfl⟩ := Nat.exists_eq_add_of_le' (Nat.lt_of_lt_of_le (Nat.succ_pos n) hm)
    exact fun w => ih (h w) (by omega)

theorem setting_within (a : NewUnit K) : Creator.Within 1 (.setting a) :=
  fun _ => Creator.Within.done 0 a none

theorem defaulting_within (a : NewUnit K) : Creator.Within 2 (.defaulting a) := by
  intro w
  simp only [Creator.step]
  split
  · exact setting_within a
  · exact Creator.Within.done 1 a none

theorem labelling_within (a : NewUnit K) (ls : List String) :
    Creator.Within (2 * ls.length + 3) (.labelling a ls) := by
  induction ls with
  | nil =>
    intro w
    simp only [Creator.step]
    split
    · exact defaulting_within a
    · exact Creator.Within.done 2 a none
  | cons l ls ih =>
    intro w
    simp only [Creator.step]
    cases hx : get? w.registry l with
    | some y =>
      simp only
      split
      · exact ih.mono (by simp only [List.length_cons]; omega)
      · exact Creator.Within.done _ _ _
    | none =>
      have : 2 * (l :: ls).length + 2 = (2 * ls.length + 3) + 1 := by simp only [List.length_cons]; omega
      rw [this]
      exact fun w' => ih

theorem defining_within (a : NewUnit K) {n : Nat} {p : Prog K (Option (SQ K))} (hp : p.Within n) :
    Creator.Within (n + (2 * (NewUnit.labels a).length + 7)) (.defining a p) := by
  induction p generalizing n with
  | ret r =>
    have : Creator.Within (2 * (NewUnit.labels a).length + 7) (.defining a (.ret r)) :=
      fun _ _ _ _ => labelling_within a _
    exact this.mono (by omega)
  | read f ih =>
    cases n with
    | zero => exact hp.elim
    | succ n =>
      have : n + 1 + (2 * (NewUnit.labels a).length + 7) =
        (n + (2 * (NewUnit.labels a).length + 7)) + 1 := by omega
      rw [this]
      exact fun w => ih w (hp w)

/-- Every constructor call finishes once its thread has been scheduled often enough. -/
theorem creator_finishes {s : Sys K ρ} {i n : Nat} {c : Creator K}
    (hi : s.threads[i]? = some (.creator c)) (hc : c.Within n) (σ : List Nat) (hσ : n ≤ σ.count i) :
    ∃ e, (s.run σ).Created i e := by
  induction σ generalizing s c n with
  | nil =>
    simp only [List.count_nil, Nat.le_zero] at hσ
    subst hσ
    obtain ⟨a, e, rfl⟩ := hc
    exact ⟨e, a, hi⟩
  | cons j σ ih =>
    rw [run_cons]
    by_cases h : j = i
    · subst h
      obtain ⟨h1, -⟩ := step_self hi
      rw [List.count_cons_self] at hσ
      cases n with
      | zero =>
        obtain ⟨a, e, rfl⟩ := hc
        exact ih (n := 0) h1 ⟨a, e, rfl⟩ (Nat.zero_le _)
      | succ n => exact ih (n := n) h1 (hc s.world) (by omega)
    · rw [List.count_cons_of_ne h] at hσ
      exact ih (by rw [step_other h]; exact hi) hc hσ

theorem create_within (a : NewUnit K) :
    ∃ c n, (Thread.create a : Thread K ρ) = .creator c ∧ c.Within n := by
  cases hq : a.definition.toDef with
  | none =>
    exact ⟨_, _, rfl, defining_within a (n := 0) (by rw [hq]; exact Prog.Within.ret)⟩
  | some q =>
    exact ⟨_, _, rfl, defining_within a (n := q.dim.length + 0)
      (by rw [hq]; exact (referenceP_within q).bind (m := 0) fun _ => Prog.Within.ret)⟩

/-! ## Defaults -/

/-- What holds of a change of a default while the default of `c0` only moves among units convertible
to `d0`. -/
def Setter.Conv (c0 : UClass) (d0 : Dim) (w : World K) : Setter K → Prop
  | .checking c d p => c = c0 → DimOK w d ∧ p.Holds (fun _ => True) (fun w' r => ∀ cf, r = .ok cf →
      w'.deq (w'.refUnits d0).dim (w'.refUnits d).dim = true) w
  | .storing c d => c = c0 → DimOK w d ∧ w.deq (w.refUnits d0).dim (w.refUnits d).dim = true
  | .reading c a => c = c0 → DimOK w a.dim
  | .done _ => True

def Thread.Conv (c0 : UClass) (d0 : Dim) (w : World K) : Thread K ρ → Prop
  | .setter s => s.Conv c0 d0 w
  | .creator (.setting a) => a.cls ≠ c0
  | _ => True

/-- The default of `c0` is convertible to `d0`. -/
def DConv (c0 : UClass) (d0 : Dim) (w : World K) : Prop :=
  DimOK w d0 ∧ ∃ d, w.defaults c0 = some d ∧ DimOK w d ∧
    w.deq (w.refUnits d0).dim (w.refUnits d).dim = true

theorem Later.deq_refs {w w' : World K} (hl : Later w w') {a b : Dim} (ha : DimOK w a) (hb : DimOK w b) :
    w'.deq (w'.refUnits a).dim (w'.refUnits b).dim = w.deq (w.refUnits a).dim (w.refUnits b).dim := by
  rw [hl.refUnits ha, hl.refUnits hb, deq_hasher hl.hasher]

theorem DConv.keep {c0 : UClass} {d0 : Dim} {w w' : World K} (h : DConv c0 d0 w) (hl : Later w w')
    (hd : w'.defaults c0 = w.defaults c0) : DConv c0 d0 w' := by
  obtain ⟨h0, d, h1, h2, h3⟩ := h
  exact ⟨hl.dimOK h0, d, by rw [hd]; exact h1, hl.dimOK h2, by rw [hl.deq_refs h0 h2]; exact h3⟩

theorem Thread.Conv.later {c0 : UClass} {d0 : Dim} {w w' : World K} {t : Thread K ρ}
    (h0 : DimOK w d0) (h : t.Conv c0 d0 w) (hl : Later w w') : t.Conv c0 d0 w' := by
  cases t with
  | reader p => trivial
  | creator c => cases c <;> trivial
  | setter s =>
    cases s with
    | reading c a => exact fun e => hl.dimOK (h e)
    | checking c d p => exact fun e => ⟨hl.dimOK (h e).1, (h e).2.later hl⟩
    | storing c d =>
      exact fun e => ⟨hl.dimOK (h e).1, by rw [hl.deq_refs h0 (h e).1]; exact (h e).2⟩
    | done e => trivial

theorem convFactor_ok_deq {K : Type u} [One K] [Mul K] [RPow K] [Div K] {w : World K} {a b : Dim} {cf : K}
    (h : w.convFactor a b = .ok cf) : w.deq (w.refUnits a).dim (w.refUnits b).dim = true := by
  rw [convFactor_def] at h
  split at h
  · assumption
  · exact absurd h (by simp)

theorem deq_trans {w : World K} {a b c : Dim} (h1 : w.deq a b = true) (h2 : w.deq b c = true) :
    w.deq a c = true := by
  simp only [World.deq, Dim.eq, beq_iff_eq] at *
  exact h1.trans h2

theorem conv_step {c0 : UClass} {d0 : Dim} {w : World K} {t : Thread K ρ} (hw : WF w)
    (hd : DConv c0 d0 w) (h : t.Conv c0 d0 w) :
    DConv c0 d0 (t.step w).1 ∧ (t.step w).2.Conv c0 d0 (t.step w).1 := by
  have hl : Later w (t.step w).1 := thread_later w t
  cases t with
  | reader p => cases p <;> exact ⟨hd, trivial⟩
  | creator c =>
    cases c with
    | defining b p => cases p <;> exact ⟨hd, trivial⟩
    | numbering b r => exact ⟨hd.keep hl rfl, trivial⟩
    | counting b => exact ⟨hd, trivial⟩
    | counted b n => exact ⟨hd.keep hl rfl, trivial⟩
    | labelling b ls =>
      cases ls with
      | nil => refine ⟨hd, ?_⟩; simp only [Thread.step, Creator.step]; split <;> trivial
      | cons x ls =>
        simp only [Thread.step, Creator.step]
        cases hx : get? w.registry x with
        | some y => simp only; split <;> exact ⟨hd, trivial⟩
        | none => exact ⟨hd, trivial⟩
    | binding b x ls => exact ⟨hd.keep hl rfl, trivial⟩
    | defaulting b =>
      refine ⟨hd, ?_⟩
      simp only [Thread.step, Creator.step]
      split
      · rename_i hn
        intro e
        obtain ⟨-, d, h1, -⟩ := hd
        rw [e, h1] at hn
        simp at hn
      · trivial
    | setting b =>
      refine ⟨hd.keep hl ?_, trivial⟩
      simp only [Thread.step, Creator.step]
      rw [if_neg (Ne.symm h)]
    | done b e => exact ⟨hd, trivial⟩
  | setter s =>
    cases s with
    | reading c a =>
      simp only [Thread.step, Setter.step]
      cases hc : w.defaults c with
      | none => exact ⟨hd, trivial⟩
      | some cur =>
        refine ⟨hd, ?_⟩
        simp only
        split
        · intro e
          subst e
          obtain ⟨h0, d, h1, h2, h3⟩ := hd
          rw [hc] at h1; simp only [Option.some.injEq] at h1; subst h1
          refine ⟨h rfl, (convFactorP_holds h2 (h rfl)).weaken ?_⟩
          intro w' r hl' _ hr cf hcf
          rw [hl'.deq_refs h0 (h rfl)]
          refine deq_trans h3 ?_
          rw [hr] at hcf
          exact convFactor_ok_deq hcf
        · trivial
    | checking c d p =>
      cases p with
      | ret r =>
        cases r with
        | error e => exact ⟨hd, trivial⟩
        | ok x => exact ⟨hd, fun e => ⟨(h e).1, (h e).2 w (Later.refl _) trivial x rfl⟩⟩
      | read f => exact ⟨hd, fun e => ⟨(h e).1, (h e).2 w (Later.refl _) trivial⟩⟩
    | storing c d =>
      refine ⟨?_, trivial⟩
      by_cases e : c0 = c
      · subst e
        obtain ⟨h1, h2⟩ := h rfl
        have hl' : Later w (Setter.step w (.storing c0 d)).1 := hl
        refine ⟨hl.dimOK hd.1, d, ?_, hl.dimOK h1, ?_⟩
        · simp only [Thread.step, Setter.step, if_true]
        · rw [hl.deq_refs hd.1 h1]; exact h2
      · refine hd.keep hl ?_
        simp only [Thread.step, Setter.step]
        rw [if_neg e]
    | done e => exact ⟨hd, trivial⟩

theorem Thread.Starts.conv {w : World K} {t : Thread K ρ} (h : t.Starts w) (c0 : UClass) (d0 : Dim) :
    t.Conv c0 d0 w := by
  cases h with
  | reader p => trivial
  | create a hv hc => trivial
  | setDefault c a hd => exact fun _ => hd

theorem conv_run {c0 : UClass} {d0 : Dim} {s : Sys K ρ} (hok : s.OK) (hd : DConv c0 d0 s.world)
    (ht : ∀ (i : Nat) (t : Thread K ρ), s.threads[i]? = some t → t.Conv c0 d0 s.world) (σ : List Nat) :
    DConv c0 d0 (s.run σ).world := by
  induction σ generalizing s with
  | nil => exact hd
  | cons j σ ih =>
    rw [run_cons]
    cases hj : s.threads[j]? with
    | none =>
      have : s.step j = s := by unfold Sys.step; rw [hj]
      rw [this]; exact ih hok hd ht
    | some t =>
      obtain ⟨h1, h2⟩ := step_self hj
      obtain ⟨k1, k2⟩ := conv_step hok.wf hd (ht j t hj)
      refine ih (hok.step j) (by rw [h2]; exact k1) fun i x hx => ?_
      by_cases e : j = i
      · subst e
        rw [h1] at hx
        simp only [Option.some.injEq] at hx
        subst hx; rw [h2]; exact k2
      · rw [step_other e] at hx
        exact (ht i x hx).later hd.1 (step_later s j)

end PQ
