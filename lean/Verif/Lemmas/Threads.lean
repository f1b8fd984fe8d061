import Verif.Spec.Threads
import Verif.Lemmas.Simplified
import Verif.Props.History

/-! # Lemmas about threads -/

namespace PQ

set_option linter.unusedSectionVars false

open Dict LawfulRPow World

universe u v v'

variable {K : Type u} {α : Type v} {β : Type v'} {ρ : Type v}

/-- The shared state may have grown: same hash function, all units still there. -/
structure Later (w w' : World K) : Prop where
  hasher : w'.hasher = w.hasher
  info : ∀ u i, w.info u = some i → w'.info u = some i

theorem Later.refl (w : World K) : Later w w := ⟨rfl, fun _ _ h => h⟩

theorem Later.trans {a b c : World K} (h : Later a b) (k : Later b c) : Later a c :=
  ⟨k.hasher.trans h.hasher, fun u i hi => k.info u i (h.info u i hi)⟩

theorem Later.known {w w' : World K} (h : Later w w') {x : UKey} (hx : x ∈ w.units.map Prod.fst) :
    x ∈ w'.units.map Prod.fst := by
  obtain ⟨i, hi⟩ := info_known hx
  exact known_of_info (h.info x i hi)

theorem Later.dimOK {w w' : World K} (h : Later w w') {d : Dim} (hd : DimOK w d) : DimOK w' d :=
  hd.mono fun _ => h.known

theorem Later.convRef {w w' : World K} (h : Later w w') {x : UKey} (hx : x ∈ w.units.map Prod.fst) :
    w'.convRef x = w.convRef x := by
  obtain ⟨i, hi⟩ := info_known hx
  rw [convRef_of_info hi, convRef_of_info (h.info x i hi)]

theorem Later.unitRef [One K] {w w' : World K} (h : Later w w') {x : UKey}
    (hx : x ∈ w.units.map Prod.fst) : w'.unitRef x = w.unitRef x := by
  unfold World.unitRef; rw [h.convRef hx]

theorem Later.refUnits [One K] [Mul K] [RPow K] {w w' : World K} (h : Later w w') {d : Dim}
    (hd : DimOK w d) : w'.refUnits d = w.refUnits d :=
  refUnits_congr fun kv hkv => h.convRef (hd.known kv hkv)

theorem Later.hash {w w' : World K} (h : Later w w') (d : Dim) :
    Dim.hash w'.hasher w'.order d = Dim.hash w.hasher w.order d := by
  rw [h.hasher]; exact hash_perm _ _ _ (List.Perm.refl d)

namespace Prog

/-- Whenever `p`, started in `w`, is executed in states that only grow and all satisfy `G`, its result
satisfies `Q` from then on. -/
def Holds (G : World K → Prop) (Q : World K → α → Prop) : Prog K α → World K → Prop
  | ret a, w => ∀ w', Later w w' → G w' → Q w' a
  | read f, w => ∀ w', Later w w' → G w' → Holds G Q (f w') w'

variable {G : World K → Prop} {Q Q' : World K → α → Prop}

theorem Holds.later {p : Prog K α} {w w' : World K} (h : Holds G Q p w) (hl : Later w w') :
    Holds G Q p w' := by
  cases p with
  | ret a => exact fun w'' h' hg => h w'' (hl.trans h') hg
  | read f => exact fun w'' h' hg => h w'' (hl.trans h') hg

theorem Holds.of_forall {p : Prog K α} {w : World K}
    (h : ∀ w', Later w w' → G w' → Holds G Q p w') : Holds G Q p w := by
  cases p with
  | ret a => exact fun w' h' hg => h w' h' hg w' (Later.refl _) hg
  | read f => exact fun w' h' hg => h w' h' hg w' (Later.refl _) hg

theorem Holds.weaken {p : Prog K α} {w : World K} (h : Holds G Q p w)
    (hq : ∀ w' a, Later w w' → G w' → Q w' a → Q' w' a) : Holds G Q' p w := by
  induction p generalizing w with
  | ret a => exact fun w' h' hg => hq w' a h' hg (h w' h' hg)
  | read f ih =>
    exact fun w' h' hg => ih w' (h w' h' hg) (fun w'' a hl => hq w'' a (h'.trans hl))

theorem Holds.bind {p : Prog K α} {g : α → Prog K β} {R : World K → β → Prop} {w : World K}
    (h : Holds G (fun w' a => Holds G R (g a) w') p w) : Holds G R (p.bind g) w := by
  induction p generalizing w with
  | ret a => exact Holds.of_forall h
  | read f ih => exact fun w' h' hg => ih w' (h w' h' hg)

theorem Holds.ret {a : α} {w : World K} (h : ∀ w', Later w w' → G w' → Q w' a) :
    Holds G Q (.ret a) w := h

/-- A computation with a fixed result, then another one. -/
theorem Holds.seq {p : Prog K α} {g : α → Prog K β} {R : World K → β → Prop} {w : World K} {a : α}
    (h : Holds G (fun _ x => x = a) p w) (hg : Holds G R (g a) w) : Holds G R (p.bind g) w :=
  Holds.bind (h.weaken fun w' x hl _ e => by subst e; exact hg.later hl)

theorem Holds.const {p : Prog K α} {w : World K} {a : α} (h : Holds (fun _ => True) (fun _ x => x = a) p w)
    (G : World K → Prop) : Holds G (fun _ x => x = a) p w := by
  induction p generalizing w with
  | ret b => exact fun w' h' _ => h w' h' trivial
  | read f ih => exact fun w' h' _ => ih w' (h w' h' trivial)

/-- `p` looks at the state at most `n` times. -/
def Within : Nat → Prog K α → Prop
  | _, ret _ => True
  | 0, read _ => False
  | n + 1, read f => ∀ w, Within n (f w)

theorem Within.mono {n m : Nat} {p : Prog K α} (h : p.Within n) (hm : n ≤ m) : p.Within m := by
  induction p generalizing n m with
  | ret a => simp [Within]
  | read f ih =>
    cases n with
    | zero => exact h.elim
    | succ n =>
      obtain ⟨m, rfl⟩ := Nat.exists_eq_add_of_le' (Nat.lt_of_lt_of_le (Nat.succ_pos n) hm)
      exact fun w => ih w (h w) (by omega)

theorem Within.bind {n m : Nat} {p : Prog K α} {g : α → Prog K β} (h : p.Within n)
    (hg : ∀ a, (g a).Within m) : (p.bind g).Within (n + m) := by
  induction p generalizing n with
  | ret a => exact (hg a).mono (by omega)
  | read f ih =>
    cases n with
    | zero => exact h.elim
    | succ n =>
      have : n + 1 + m = (n + m) + 1 := by omega
      rw [this]
      exact fun w => ih w (h w)

theorem Within.ret {n : Nat} {a : α} : (Prog.ret a : Prog K α).Within n := by simp [Within]

/-- Executed in states that only grow, `p` looks at most `n` times. -/
def Settles : Nat → Prog K α → World K → Prop
  | _, ret _, _ => True
  | 0, read _, _ => False
  | n + 1, read f, w => ∀ w', Later w w' → Settles n (f w') w'

theorem Settles.ret {n : Nat} {a : α} {w : World K} : (Prog.ret a : Prog K α).Settles n w := by
  simp [Settles]

theorem Settles.later {n : Nat} {p : Prog K α} {w w' : World K} (h : p.Settles n w) (hl : Later w w') :
    p.Settles n w' := by
  cases p with
  | ret a => exact Settles.ret
  | read f =>
    cases n with
    | zero => exact h.elim
    | succ n => exact fun w'' h'' => h w'' (hl.trans h'')

theorem Settles.mono {n m : Nat} {p : Prog K α} {w : World K} (h : p.Settles n w) (hm : n ≤ m) :
    p.Settles m w := by
  induction p generalizing n m w with
  | ret a => exact Settles.ret
  | read f ih =>
    cases n with
    | zero => exact h.elim
    | succ n =>
      obtain ⟨m, rfl⟩ := Nat.exists_eq_add_of_le' (Nat.lt_of_lt_of_le (Nat.succ_pos n) hm)
      exact fun w' hl => ih w' (h w' hl) (by omega)

theorem Within.settles {n : Nat} {p : Prog K α} (h : p.Within n) (w : World K) : p.Settles n w := by
  induction p generalizing n w with
  | ret a => exact Settles.ret
  | read f ih =>
    cases n with
    | zero => exact h.elim
    | succ n => exact fun w' _ => ih w' (h w') w'

theorem Settles.of_forall {n : Nat} {p : Prog K α} {w : World K}
    (h : ∀ w', Later w w' → p.Settles n w') : p.Settles n w := h w (Later.refl w)

theorem Settles.bind {n m : Nat} {p : Prog K α} {g : α → Prog K β} {w : World K} (h : p.Settles n w)
    (hg : Holds (fun _ => True) (fun w' a => (g a).Settles m w') p w) : (p.bind g).Settles (n + m) w := by
  induction p generalizing n w with
  | ret a => exact (hg w (Later.refl _) trivial).mono (by omega)
  | read f ih =>
    cases n with
    | zero => exact h.elim
    | succ n =>
      have : n + 1 + m = (n + m) + 1 := by omega
      rw [this]
      exact fun w' hl => ih w' (h w' hl) (hg w' hl trivial)

theorem Settles.seq {n m : Nat} {p : Prog K α} {g : α → Prog K β} {w : World K} {a : α}
    (h : p.Settles n w) (hp : Holds (fun _ => True) (fun _ x => x = a) p w) (hg : (g a).Settles m w) :
    (p.bind g).Settles (n + m) w :=
  Settles.bind h (hp.weaken fun w' x hl _ e => by subst e; exact hg.later hl)

/-- A fixed result is the result of executing `p` alone. -/
theorem Holds.alone {p : Prog K α} {w : World K} {a : α}
    (h : Holds (fun _ => True) (fun _ x => x = a) p w) : p.alone w = a := by
  induction p with
  | ret b => exact h w (Later.refl _) trivial
  | read f ih => exact ih w (h w (Later.refl _) trivial)

theorem alone_bind (w : World K) (p : Prog K α) (g : α → Prog K β) :
    (p.bind g).alone w = (g (p.alone w)).alone w := by
  induction p with
  | ret a => rfl
  | read f ih => exact ih w

end Prog

open Prog

/-! ## Reading attributes of units -/

section
variable [One K] [Mul K] [Div K] [RPow K]

theorem unitRefP_holds {w : World K} {x : UKey} (hx : x ∈ w.units.map Prod.fst) :
    Holds (fun _ => True) (fun _ r => r = w.unitRef x) (unitRefP x) w :=
  fun _ h _ _ _ _ => h.unitRef hx

theorem refLoopP_holds {w : World K} {d : List (UKey × ℚ)} (hd : ∀ kv ∈ d, kv.1 ∈ w.units.map Prod.fst)
    (rq : SQ K) :
    Holds (fun _ => True) (fun _ r => r = d.foldl (refStep w) rq) (refLoopP rq d) w := by
  induction d generalizing rq with
  | nil => exact Holds.ret fun _ _ _ => rfl
  | cons kv d ih =>
    exact Holds.seq (unitRefP_holds (hd kv (by simp)))
      (ih (fun x hx => hd x (by simp [hx])) (refStep w rq kv))

theorem referenceP_holds {w : World K} {q : SQ K} (hd : DimOK w q.dim) :
    Holds (fun _ => True) (fun _ r => r = w.reference q) (referenceP q) w :=
  Holds.seq (refLoopP_holds hd.known _) (Holds.ret fun _ _ _ => rfl)

theorem deqP_holds (w : World K) (a b : Dim) :
    Holds (fun _ => True) (fun _ r => r = w.deq a b) (deqP a b) w := by
  refine Holds.seq (a := Dim.hash w.hasher w.order a) (fun w' h _ w'' _ _ => h.hash a) ?_
  refine Holds.seq (a := Dim.hash w.hasher w.order b) (fun w' h _ w'' _ _ => h.hash b) ?_
  exact Holds.ret fun _ _ _ => rfl

theorem convFactorP_holds {w : World K} {a b : Dim} (ha : DimOK w a) (hb : DimOK w b) :
    Holds (fun _ => True) (fun _ r => r = w.convFactor a b) (convFactorP a b) w := by
  refine Holds.seq (referenceP_holds (q := ⟨1, a⟩) ha) ?_
  refine Holds.seq (referenceP_holds (q := ⟨1, b⟩) hb) ?_
  refine Holds.seq (deqP_holds w _ _) ?_
  exact Holds.ret fun _ _ _ => rfl

theorem rescaleP_holds {w : World K} {q : Quantity K} {d : Dim} (hq : DimOK w q.dim) (hd : DimOK w d) :
    Holds (fun _ => True) (fun _ r => r = q.rescale w d) (rescaleP q d) w := by
  refine Holds.seq (deqP_holds w _ _) ?_
  unfold Quantity.rescale
  by_cases h : w.deq q.dim d = true
  · simp only [h, if_true]; exact Holds.ret fun _ _ _ => rfl
  · simp only [h]
    refine Holds.seq (convFactorP_holds hq hd) ?_
    rcases hc : w.convFactor q.dim d with e | cf
    · cases e <;> exact Holds.ret fun _ _ _ => rfl
    · exact Holds.ret fun _ _ _ => rfl

theorem rescaleSP_holds {w : World K} {q : SQ K} {d : Dim} (hq : DimOK w q.dim) (hd : DimOK w d) :
    Holds (fun _ => True) (fun _ r => r = w.rescaleS q d) (rescaleSP q d) w := by
  refine Holds.seq (deqP_holds w _ _) ?_
  unfold World.rescaleS
  by_cases h : w.deq q.dim d = true
  · simp only [h, if_true]; exact Holds.ret fun _ _ _ => rfl
  · simp only [h]
    refine Holds.seq (convFactorP_holds hq hd) ?_
    rcases hc : w.convFactor q.dim d with e | cf
    · cases e <;> exact Holds.ret fun _ _ _ => rfl
    · exact Holds.ret fun _ _ _ => rfl

theorem toQuantity_dim (o : Operand K) : o.toQuantity.dim = o.dim := by cases o <;> rfl

theorem dne_not (w : World K) (a b : Dim) : w.dne a b = !w.deq a b := rfl

theorem scaleOtherP_holds {w : World K} {q : Quantity K} {o : Operand K} (hq : DimOK w q.dim)
    (ho : DimOK w o.dim) :
    Holds (fun _ => True) (fun _ r => r = q.scaleOther w o) (scaleOtherP q o) w := by
  refine Holds.seq (deqP_holds w _ _) ?_
  unfold Quantity.scaleOther
  simp only [dne_not]
  by_cases h : w.deq o.toQuantity.dim q.dim = true
  · simp only [h]; exact Holds.ret fun _ _ _ => rfl
  · simp only [h]; exact rescaleP_holds (by rw [toQuantity_dim]; exact ho) hq

theorem andThen_seq {p : Prog K (Py α)} {g : α → Prog K (Py β)} {w : World K} {a : Py α} {b : Py β}
    (h : Holds (fun _ => True) (fun _ x => x = a) p w)
    (he : ∀ e, a = .error e → b = .error e)
    (hg : ∀ x, a = .ok x → Holds (fun _ => True) (fun _ y => y = b) (g x) w) :
    Holds (fun _ => True) (fun _ y => y = b) (p.andThen g) w := by
  refine Holds.seq h ?_
  cases a with
  | error e => exact Holds.ret fun _ _ _ => (he e rfl).symm
  | ok x => exact hg x rfl

theorem addLikeP_holds [Zero K] [DecidableEq K] {w : World K} {q : Quantity K} {o : Operand K}
    (f : UF2) (hf : ∀ x y : Operand K, ufunc2Dim w f x y = dCheckUniform w x y) (g : K → K → K)
    (hq : DimOK w q.dim) (ho : DimOK w o.dim) :
    Holds (fun _ => True) (fun _ r => r = match q.scaleOther w o with
      | .error e => .error e
      | .ok o' => applyUF2 w f g (.quantity q) (.quantity o')) (addLikeP g q o) w := by
  refine andThen_seq (scaleOtherP_holds hq ho) (fun e h => by rw [h]) (fun x h => ?_)
  rw [h]
  refine Holds.seq (deqP_holds w _ _) (Holds.ret fun _ _ _ => ?_)
  simp only [applyUF2, hf, dCheckUniform]
  cases w.deq q.dim x.dim <;> rfl

theorem compareP_holds [DecidableEq K] {w : World K} (r : K → K → Bool) {q : Quantity K}
    {o : Operand K} (hq : DimOK w q.dim) (ho : DimOK w o.dim) :
    Holds (fun _ => True) (fun _ x => x = q.compare r w o) (compareP r q o) w := by
  cases o with
  | array a => exact Holds.ret fun _ _ _ => rfl
  | quantity o =>
    refine Holds.seq (deqP_holds w _ _) ?_
    unfold Quantity.compare Quantity.wrapComparison
    simp only [dne_not]
    by_cases h : w.deq o.dim q.dim = true
    · simp only [h]; exact Holds.ret fun _ _ _ => rfl
    · simp only [h]
      refine Holds.seq (rescaleP_holds ho hq) ?_
      simp only [Bool.not_false, if_true]
      rcases hc : o.rescale w q.dim with e | cf
      · exact Holds.ret fun _ _ _ => rfl
      · exact Holds.ret fun _ _ _ => rfl

/-! ### How often they look -/

theorem refLoopP_within (rq : SQ K) (d : List (UKey × ℚ)) : (refLoopP rq d).Within d.length := by
  induction d generalizing rq with
  | nil => exact Within.ret
  | cons kv d ih =>
    have : (kv :: d).length = 1 + d.length := by simp [Nat.add_comm]
    rw [this]
    exact Within.bind (n := 1) (fun w => Within.ret) (fun r => ih _)

theorem referenceP_within (q : SQ K) : (referenceP q).Within q.dim.length :=
  (Within.bind (refLoopP_within _ _) (m := 0) (fun _ => Within.ret)).mono (by omega)

theorem deqP_within (a b : Dim) : (deqP a b : Prog K Bool).Within 2 :=
  Within.bind (n := 1) (m := 1) (fun _ => Within.ret)
    (fun _ => Within.bind (n := 1) (m := 0) (fun _ => Within.ret) (fun _ => Within.ret))

theorem convFactorP_within (a b : Dim) : (convFactorP a b : Prog K (Py K)).Within (a.length + b.length + 2) :=
  (Within.bind (referenceP_within ⟨1, a⟩) (m := b.length + 2) fun _ =>
    (Within.bind (referenceP_within ⟨1, b⟩) (m := 2) fun _ =>
      (Within.bind (deqP_within _ _) (m := 0) fun _ => Within.ret))).mono (by simp only; omega)

theorem rescaleP_within (q : Quantity K) (d : Dim) :
    (rescaleP q d).Within (q.dim.length + d.length + 4) := by
  refine (Within.bind (deqP_within _ _) (m := q.dim.length + d.length + 2) fun b => ?_).mono (by omega)
  split
  · exact Within.ret
  · refine (Within.bind (convFactorP_within _ _) (m := 0) fun r => ?_).mono (by omega)
    split <;> exact Within.ret

theorem scaleOtherP_within (q : Quantity K) (o : Operand K) :
    (scaleOtherP q o).Within (q.dim.length + o.dim.length + 6) := by
  refine (Within.bind (deqP_within _ _) (m := q.dim.length + o.dim.length + 4) fun b => ?_).mono (by omega)
  split
  · exact Within.ret
  · exact (rescaleP_within _ _).mono (by rw [toQuantity_dim]; omega)

theorem addLikeP_within (g : K → K → K) (q : Quantity K) (o : Operand K) :
    (addLikeP g q o).Within (q.dim.length + o.dim.length + 8) := by
  refine (Within.bind (scaleOtherP_within _ _) (m := 2) fun r => ?_).mono (by omega)
  cases r with
  | error e => exact Within.ret
  | ok x => exact Within.bind (deqP_within _ _) (m := 0) fun _ => Within.ret

theorem compareP_within (r : K → K → Bool) (q : Quantity K) (o : Operand K) :
    (compareP r q o).Within (q.dim.length + o.dim.length + 6) := by
  cases o with
  | array a => exact Within.ret
  | quantity o =>
    refine (Within.bind (deqP_within _ _) (m := q.dim.length + o.dim.length + 4) fun b => ?_).mono
      (by simp only [Operand.dim]; omega)
    split
    · exact Within.ret
    · refine (Within.bind (rescaleP_within _ _) (m := 0) fun r => ?_).mono (by omega)
      split <;> exact Within.ret

end

/-! ## Steps of threads -/

section
variable [One K] [Mul K] [Div K] [RPow K] [DecidableEq K]

theorem info_with_units {w : World K} {key : UKey} {i0 : UnitInfo K} {us : Dict UKey (UnitInfo K)}
    (hus : us = match w.info key with
      | some _ => w.units
      | none => Dict.set w.units key i0) (x : UKey) (i : UnitInfo K) (hi : w.info x = some i) :
    get? us x = some i := by
  subst hus
  cases h : w.info key with
  | some _ => exact hi
  | none =>
    simp only
    rw [get?_set]
    split
    · rename_i e; subst e; rw [h] at hi; exact absurd hi (by simp)
    · exact hi

theorem creator_later (w : World K) (c : Creator K) : Later w (c.step w).1 := by
  cases c with
  | defining a p => cases p <;> exact Later.refl _
  | numbering a r => exact ⟨rfl, fun x i hi => info_with_units rfl x i hi⟩
  | counting a => exact Later.refl _
  | counted a n => exact ⟨rfl, fun _ _ h => h⟩
  | labelling a ls =>
    cases ls with
    | nil => exact Later.refl _
    | cons l ls =>
      simp only [Creator.step]
      split
      · split <;> exact Later.refl _
      · exact Later.refl _
  | binding a l ls => exact ⟨rfl, fun _ _ h => h⟩
  | defaulting a => exact Later.refl _
  | setting a => exact ⟨rfl, fun _ _ h => h⟩
  | done a e => exact Later.refl _

theorem setter_later (w : World K) (c : Setter K) : Later w (c.step w).1 := by
  cases c with
  | reading c a => simp only [Setter.step]; split <;> exact Later.refl _
  | checking c d p =>
    cases p with
    | ret r => cases r <;> exact Later.refl _
    | read f => exact Later.refl _
  | storing c d => exact ⟨rfl, fun _ _ h => h⟩
  | done e => exact Later.refl _

theorem thread_later (w : World K) (t : Thread K ρ) : Later w (t.step w).1 := by
  cases t with
  | reader p => cases p <;> exact Later.refl _
  | creator c => exact creator_later w c
  | setter s => exact setter_later w s

theorem step_later (s : Sys K ρ) (i : Nat) : Later s.world (s.step i).world := by
  unfold Sys.step
  split
  · exact Later.refl _
  · exact thread_later _ _

theorem run_nil (s : Sys K ρ) : s.run [] = s := rfl

theorem run_cons (s : Sys K ρ) (i : Nat) (σ : List Nat) : s.run (i :: σ) = (s.step i).run σ := rfl

theorem run_later (s : Sys K ρ) (σ : List Nat) : Later s.world (s.run σ).world := by
  induction σ generalizing s with
  | nil => exact Later.refl _
  | cons i σ ih => exact (step_later s i).trans (ih _)

theorem step_other {s : Sys K ρ} {i j : Nat} (h : j ≠ i) : (s.step j).threads[i]? = s.threads[i]? := by
  unfold Sys.step
  split
  · rfl
  · simp only; rw [List.getElem?_set_ne h]

theorem step_self {s : Sys K ρ} {i : Nat} {t : Thread K ρ} (h : s.threads[i]? = some t) :
    (s.step i).threads[i]? = some (t.step s.world).2 ∧ (s.step i).world = (t.step s.world).1 := by
  unfold Sys.step
  rw [h]
  refine ⟨?_, rfl⟩
  have : i < s.threads.length := (List.getElem?_eq_some_iff.1 h).1
  simp [this]

/-- A computing thread under any schedule. -/
theorem reader_run {G : World K → Prop} {Q : World K → ρ → Prop} {s : Sys K ρ} {i : Nat}
    {p : Prog K ρ} (hi : s.threads[i]? = some (.reader p)) (hp : p.Holds G Q s.world) (σ : List Nat)
    (hG : ∀ k, G (s.run (σ.take k)).world) :
    ∃ p', (s.run σ).threads[i]? = some (.reader p') ∧ p'.Holds G Q (s.run σ).world := by
  induction σ generalizing s p with
  | nil => exact ⟨p, hi, hp⟩
  | cons j σ ih =>
    rw [run_cons]
    have hG' : ∀ k, G ((s.step j).run (σ.take k)).world := fun k => by
      have := hG (k + 1); rwa [List.take_succ_cons, run_cons] at this
    by_cases h : j = i
    · subst h
      obtain ⟨h1, h2⟩ := step_self hi
      cases p with
      | ret r => exact ih (p := .ret r) h1 (by rw [h2]; exact hp) hG'
      | read f =>
        refine ih (p := f s.world) h1 ?_ hG'
        rw [h2]
        exact hp _ (Later.refl _) (hG 0)
    · exact ih (by rw [step_other h]; exact hi) (hp.later (step_later s j)) hG'

theorem reader_result {G : World K → Prop} {Q : World K → ρ → Prop} {s : Sys K ρ} {i : Nat}
    {p : Prog K ρ} (hi : s.threads[i]? = some (.reader p)) (hp : p.Holds G Q s.world) (σ : List Nat)
    (hG : ∀ k, G (s.run (σ.take k)).world) {r : ρ} (hr : (s.run σ).Result i r) :
    Q (s.run σ).world r := by
  obtain ⟨p', h1, h2⟩ := reader_run hi hp σ hG
  unfold Sys.Result at hr
  rw [hr] at h1
  simp only [Option.some.injEq, Thread.reader.injEq] at h1
  subst h1
  have := hG σ.length
  rw [List.take_length] at this
  exact h2 _ (Later.refl _) this

/-- A computing thread that is scheduled often enough finishes. -/
theorem reader_finishes {s : Sys K ρ} {i n : Nat} {p : Prog K ρ}
    (hi : s.threads[i]? = some (.reader p)) (hp : p.Settles n s.world) (σ : List Nat)
    (hσ : n ≤ σ.count i) : ∃ r, (s.run σ).Result i r := by
  induction σ generalizing s p n with
  | nil =>
    cases p with
    | ret r => exact ⟨r, hi⟩
    | read f =>
      simp only [List.count_nil, Nat.le_zero] at hσ
      subst hσ; exact hp.elim
  | cons j σ ih =>
    rw [run_cons]
    by_cases h : j = i
    · subst h
      obtain ⟨h1, h2⟩ := step_self hi
      rw [List.count_cons_self] at hσ
      cases p with
      | ret r => exact ih (n := 0) (p := .ret r) h1 Settles.ret (Nat.zero_le _)
      | read f =>
        cases n with
        | zero => exact hp.elim
        | succ n => exact ih (p := f s.world) h1 (by rw [h2]; exact hp _ (Later.refl _)) (by omega)
    · rw [List.count_cons_of_ne h] at hσ
      exact ih (by rw [step_other h]; exact hi) (hp.later (step_later s j)) hσ

end

/-! ## Calculations -/

section
variable [Field K] [LinearOrder K] [RPow K]

theorem calculates_seq {w : World K} {γ : Type v'} {p : Prog K γ} {a : γ} {n : Nat} {k : γ → Prog K ρ}
    (hp : p.Holds (fun _ => True) (fun _ x => x = a) w) (hn : p.Within n)
    (hk : (k a).Holds (fun _ => True) (fun _ r => r = (k a).alone w) w ∧ ∃ n, (k a).Settles n w) :
    (p.bind k).Holds (fun _ => True) (fun _ r => r = (p.bind k).alone w) w ∧
      ∃ n, (p.bind k).Settles n w := by
  refine ⟨?_, ?_⟩
  · rw [alone_bind, hp.alone]; exact Holds.seq hp hk.1
  · obtain ⟨m, hm⟩ := hk.2
    exact ⟨_, Settles.seq (hn.settles w) hp hm⟩

theorem Calculates.holds {w : World K} {p : Prog K ρ} (h : Calculates w p) :
    p.Holds (fun _ => True) (fun _ r => r = p.alone w) w ∧ ∃ n, p.Settles n w := by
  induction h with
  | ret r => exact ⟨Holds.ret fun _ _ _ => rfl, 0, Settles.ret⟩
  | rescale hq hd _ ih => exact calculates_seq (rescaleP_holds hq hd) (rescaleP_within _ _) ih
  | add hq ho _ ih =>
    exact calculates_seq (addLikeP_holds .add (fun _ _ => rfl) _ hq ho) (addLikeP_within _ _ _) ih
  | sub hq ho _ ih =>
    exact calculates_seq (addLikeP_holds .subtract (fun _ _ => rfl) _ hq ho) (addLikeP_within _ _ _) ih
  | compare hq ho _ ih => exact calculates_seq (compareP_holds _ hq ho) (compareP_within _ _ _) ih

end
end PQ
