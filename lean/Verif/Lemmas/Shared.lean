import Verif.Spec.Shared
import Verif.Lemmas.Heap5
import Verif.Lemmas.Arith
import Verif.Lemmas.Uncertain

/-! Lemmas about threads that share quantities. -/

namespace PQ.Shared

open _root_.PQ.Shared.Task

universe u v v'
variable {K : Type u} {α : Type v} {β : Type v'} {ρ : Type v}

/-- Every result of a computation satisfies `P`, whatever it loads. -/
inductive Task.Ends (P : α → Prop) : Task K α → Prop
  | ret (a : α) (ha : P a) : Ends P (.ret a)
  | getDim {i : Nat} {f : Dim → Task K α} (hf : ∀ d, Ends P (f d)) : Ends P (.getDim i f)
  | getShape {i : Nat} {f : List Nat → Task K α} (hf : ∀ s, Ends P (f s)) : Ends P (.getShape i f)
  | getElem {i : Nat} {x : List Nat} {f : K → Task K α} (hf : ∀ v, Ends P (f v)) :
      Ends P (.getElem i x f)
  | setElem {i : Nat} {x : List Nat} {v : K} {t : Task K α} (ht : Ends P t) : Ends P (.setElem i x v t)
  | setDim {i : Nat} {d : Dim} {t : Task K α} (ht : Ends P t) : Ends P (.setDim i d t)

theorem Task.Ends.bind {P : α → Prop} {Q : β → Prop} {p : Task K α} {g : α → Task K β} (hp : p.Ends P)
    (hg : ∀ a, P a → (g a).Ends Q) : (p.bind g).Ends Q := by
  induction hp with
  | ret a ha => exact hg a ha
  | getDim _ ih => exact .getDim ih
  | getShape _ ih => exact .getShape ih
  | getElem _ ih => exact .getElem ih
  | setElem _ ih => exact .setElem ih
  | setDim _ ih => exact .setDim ih

theorem Task.Ends.trivial (p : Task K α) : p.Ends (fun _ => True) := by
  induction p with
  | ret a => exact .ret a True.intro
  | getDim i f ih => exact .getDim ih
  | getShape i f ih => exact .getShape ih
  | getElem i x f ih => exact .getElem ih
  | setElem i x v t ih => exact .setElem ih
  | setDim i d t ih => exact .setDim ih

/-! ### Noninterference -/

theorem SameAt.refl (σ : Store K) (i : Nat) : SameAt σ σ i := ⟨rfl, rfl, rfl⟩
theorem SameAt.trans {σ τ υ : Store K} {i : Nat} (h : SameAt σ τ i) (k : SameAt τ υ i) : SameAt σ υ i :=
  ⟨h.1.trans k.1, h.2.1.trans k.2.1, h.2.2.trans k.2.2⟩
theorem SameAt.symm {σ τ : Store K} {i : Nat} (h : SameAt σ τ i) : SameAt τ σ i :=
  ⟨h.1.symm, h.2.1.symm, h.2.2.symm⟩

theorem Task.Uses.step {R W : Nat → Prop} {p : Task K ρ} (h : p.Uses R W) (σ : Store K) :
    (p.step σ).2.Uses R W ∧ ∀ i, ¬ W i → SameAt (p.step σ).1 σ i := by
  cases h with
  | ret a => exact ⟨.ret a, fun i _ => .refl _ _⟩
  | getDim hi hf => exact ⟨hf _, fun i _ => .refl _ _⟩
  | getShape hi hf => exact ⟨hf _, fun i _ => .refl _ _⟩
  | getElem hi hf => exact ⟨hf _, fun i _ => .refl _ _⟩
  | @setElem j x v t hi ht =>
    refine ⟨ht, fun i hn => ⟨rfl, ?_, rfl⟩⟩
    have : i ≠ j := fun e => hn (e ▸ hi)
    simp [Task.step, Store.setElem, Function.update_of_ne this]
  | @setDim j d t hi ht =>
    refine ⟨ht, fun i hn => ⟨rfl, rfl, ?_⟩⟩
    have : i ≠ j := fun e => hn (e ▸ hi)
    simp [Task.step, Store.setDim, Function.update_of_ne this]

/-- A step depends only on what the computation may look at. -/
theorem Task.Uses.step_congr {R W : Nat → Prop} {p : Task K ρ} (h : p.Uses R W) {σ τ : Store K}
    (ha : ∀ i, R i ∨ W i → SameAt σ τ i) :
    (p.step σ).2 = (p.step τ).2 ∧ ∀ i, R i ∨ W i → SameAt (p.step σ).1 (p.step τ).1 i := by
  cases h with
  | ret a => exact ⟨rfl, ha⟩
  | getDim hi hf => exact ⟨by simp [Task.step, (ha _ hi).2.2], ha⟩
  | getShape hi hf => exact ⟨by simp [Task.step, (ha _ hi).1], ha⟩
  | getElem hi hf => exact ⟨by simp [Task.step, (ha _ hi).2.1], ha⟩
  | @setElem j x v t hi ht =>
    refine ⟨rfl, fun i hr => ⟨(ha i hr).1, ?_, (ha i hr).2.2⟩⟩
    simp only [Task.step, Store.setElem]
    by_cases e : i = j
    · subst e; simp [(ha i hr).2.1]
    · simp [Function.update_of_ne e, (ha i hr).2.1]
  | @setDim j d t hi ht =>
    refine ⟨rfl, fun i hr => ⟨(ha i hr).1, (ha i hr).2.1, ?_⟩⟩
    simp only [Task.step, Store.setDim]
    by_cases e : i = j
    · subst e; simp
    · simp [Function.update_of_ne e, (ha i hr).2.2]

theorem after_succ (n : Nat) (σ : Store K) (p : Task K ρ) :
    after (n + 1) σ p = (after n σ p).2.step (after n σ p).1 := by
  induction n generalizing σ p with
  | zero => rfl
  | succ n ih => exact ih _ _

theorem after_ret (n : Nat) (σ : Store K) (a : ρ) : after n σ (.ret a) = (σ, .ret a) := by
  induction n with
  | zero => rfl
  | succ n ih => exact ih

theorem alone_step (σ : Store K) (p : Task K ρ) : (p.step σ).2.alone (p.step σ).1 = p.alone σ := by
  cases p <;> rfl

theorem alone_after (n : Nat) (σ : Store K) (p : Task K ρ) :
    (after n σ p).2.alone (after n σ p).1 = p.alone σ := by
  induction n generalizing σ p with
  | zero => rfl
  | succ n ih => exact (ih _ _).trans (alone_step σ p)

theorem after_ends_step {σ τ : Store K} {p q : Task K ρ} (h : p.step σ = (τ, q))
    (hq : ∃ N, ∀ n, N ≤ n → (after n τ q).2 = .ret (q.alone τ).2) :
    ∃ N, ∀ n, N ≤ n → (after n σ p).2 = .ret (p.alone σ).2 := by
  obtain ⟨N, hN⟩ := hq
  refine ⟨N + 1, fun n hn => ?_⟩
  obtain ⟨m, rfl⟩ : ∃ m, n = m + 1 := ⟨n - 1, by omega⟩
  rw [← alone_step σ p]
  show (after m (p.step σ).1 (p.step σ).2).2 = _
  rw [h]
  exact hN m (by omega)

theorem after_ends (σ : Store K) (p : Task K ρ) :
    ∃ N, ∀ n, N ≤ n → (after n σ p).2 = .ret (p.alone σ).2 := by
  induction p generalizing σ with
  | ret a => exact ⟨0, fun n _ => by rw [after_ret]; rfl⟩
  | getDim i f ih => exact after_ends_step rfl (ih _ _)
  | getShape i f ih => exact after_ends_step rfl (ih _ _)
  | getElem i x f ih => exact after_ends_step rfl (ih _ _)
  | setElem i x v t ih => exact after_ends_step rfl (ih _)
  | setDim i d t ih => exact after_ends_step rfl (ih _)

/-- What every thread knows of the current state. -/
theorem run_inv {R W : Nat → Nat → Prop} {σ : Store K} {ts : List (Task K ρ)}
    (hU : ∀ (t : Nat) (p : Task K ρ), ts[t]? = some p → p.Uses (R t) (W t))
    (hD : ∀ t t' i, t ≠ t' → t < ts.length → t' < ts.length → W t i → ¬ R t' i ∧ ¬ W t' i)
    (sched : List Nat) :
    ((Sys.mk σ ts).run sched).threads.length = ts.length ∧
    (∀ (t : Nat) (p : Task K ρ), ts[t]? = some p →
      ((Sys.mk σ ts).run sched).threads[t]? = some (after (sched.count t) σ p).2 ∧
      (after (sched.count t) σ p).2.Uses (R t) (W t) ∧
      ∀ i, R t i ∨ W t i → SameAt ((Sys.mk σ ts).run sched).store (after (sched.count t) σ p).1 i) ∧
    (∀ i, (∀ t, t < ts.length → ¬ W t i) → SameAt ((Sys.mk σ ts).run sched).store σ i) := by
  induction sched using List.reverseRecOn with
  | nil =>
    exact ⟨rfl, fun t p hp => ⟨hp, hU t p hp, fun i _ => .refl _ _⟩, fun i _ => .refl _ _⟩
  | append_singleton l t' ih =>
    obtain ⟨hl, h1, h2⟩ := ih
    have hrun : (Sys.mk σ ts).run (l ++ [t']) = ((Sys.mk σ ts).run l).step t' := by
      simp [Sys.run, List.foldl_append]
    rw [hrun]
    set s := (Sys.mk σ ts).run l with hs
    unfold Sys.step
    rcases ht : s.threads[t']? with _ | q
    · refine ⟨hl, fun t p hp => ?_, h2⟩
      have hne : t ≠ t' := by
        rintro rfl
        have := (h1 t p hp).1
        rw [ht] at this; exact absurd this (by simp)
      rw [List.count_append, List.count_singleton, if_neg (by simpa using fun e => hne e.symm)]
      exact h1 t p hp
    · have hlt : t' < ts.length := by
        rw [← hl]; exact (List.getElem?_eq_some_iff.1 ht).1
      obtain ⟨a1, a2, a3⟩ := h1 t' ts[t'] (List.getElem?_eq_getElem hlt)
      have hq : q = (after (l.count t') σ ts[t']).2 := by
        have := ht.symm.trans a1
        exact Option.some.inj this
      subst hq
      obtain ⟨c1, c2⟩ := a2.step_congr a3
      obtain ⟨b1, b2⟩ := a2.step s.store
      refine ⟨by simpa using hl, fun t p hp => ?_, fun i hi => ?_⟩
      · by_cases e : t = t'
        · subst e
          have hpe : p = ts[t] := by
            rw [List.getElem?_eq_getElem hlt] at hp; exact (Option.some.inj hp).symm
          subst hpe
          rw [List.count_append, List.count_singleton_self]
          refine ⟨?_, ?_, ?_⟩
          · rw [after_succ]
            simp only
            rw [List.getElem?_set_self (by rw [hl]; exact hlt), c1]
          · rw [after_succ, ← c1]; exact b1
          · rw [after_succ]; exact c2
        · obtain ⟨d1, d2, d3⟩ := h1 t p hp
          rw [List.count_append, List.count_singleton, if_neg (by simpa using fun h => e h.symm)]
          refine ⟨?_, d2, fun i hi => ?_⟩
          · simp only
            rw [List.getElem?_set_ne (fun h => e h.symm)]; exact d1
          · have ht' : t < ts.length := (List.getElem?_eq_some_iff.1 hp).1
            refine (b2 i fun hw => ?_).trans (d3 i hi)
            have := hD t' t i (fun h => e h.symm) hlt ht' hw
            exact hi.elim this.1 this.2
      · exact (b2 i (hi t' hlt)).trans (h2 i hi)

/-! ### Uninterrupted execution -/

theorem alone_bind (σ : Store K) (p : Task K α) (g : α → Task K β) :
    (p.bind g).alone σ = (g (p.alone σ).2).alone (p.alone σ).1 := by
  induction p generalizing σ with
  | ret a => rfl
  | getDim i f ih => exact ih _ _
  | getShape i f ih => exact ih _ _
  | getElem i x f ih => exact ih _ _
  | setElem i x v t ih => exact ih _
  | setDim i d t ih => exact ih _

theorem alone_andThen (σ : Store K) (p : Task K (Py α)) (g : α → Task K (Py β)) :
    (p.andThen g).alone σ = match (p.alone σ).2 with
      | .error e => ((p.alone σ).1, .error e)
      | .ok a => (g a).alone (p.alone σ).1 := by
  unfold Task.andThen
  rw [alone_bind]
  rcases (p.alone σ).2 with e | a <;> rfl

theorem alone_readElems (σ : Store K) (i : Nat) (xs : List (List Nat)) (f : List Nat → K) :
    (readElems i xs f).alone σ = (σ, fun x => if x ∈ xs then σ.elem i x else f x) := by
  induction xs generalizing f with
  | nil => simp [readElems, Task.alone]
  | cons x xs ih =>
    simp only [readElems, Task.alone]
    rw [ih]
    congr 1
    funext y
    by_cases h1 : y ∈ xs
    · simp [h1]
    · by_cases h2 : y = x
      · subst h2; simp [h1]
      · simp [h1, h2, Function.update_of_ne h2]

variable [Zero K]

theorem alone_readMag (σ : Store K) (i : Nat) : (readMag i).alone σ = (σ, σ.mag i) := by
  unfold readMag
  simp only [Task.alone, alone_bind, alone_readElems]
  rfl

theorem alone_refMag (σ : Store K) (r : Ref K) : r.readMag.alone σ = (σ, (r.value σ).mag) := by
  cases r with
  | obj j => exact alone_readMag σ j
  | own q => rfl

theorem alone_withDim (σ : Store K) (r : Ref K) (f : Dim → Task K α) :
    (r.withDim f).alone σ = (f (r.value σ).dim).alone σ := by cases r <;> rfl

theorem alone_withShape (σ : Store K) (r : Ref K) (f : List Nat → Task K α) :
    (r.withShape f).alone σ = (f (r.value σ).mag.shape).alone σ := by cases r <;> rfl

variable [One K] [Mul K] [Div K] [RPow K]

theorem alone_rescale (σ : Store K) (w : World K) (i : Nat) (d : Dim) :
    (rescale w i d).alone σ = (σ, (σ.quantity i).rescale w d) := by
  unfold rescale Quantity.rescale
  simp only [Task.alone]
  by_cases h : w.deq (σ.dim i) d = true
  · rw [if_pos h, if_pos (show w.deq (σ.quantity i).dim d = true from h)]
    simp only [Task.alone, alone_bind, alone_readMag]; rfl
  · rw [if_neg h, if_neg (show ¬ w.deq (σ.quantity i).dim d = true from h)]
    simp only [Task.alone]
    show _ = (σ, match w.convFactor (σ.dim i) d with
      | .ok cf => _
      | .error .assertionError => _
      | .error e => _)
    rcases w.convFactor (σ.dim i) d with e | cf
    · cases e <;> rfl
    · simp only [alone_bind, alone_readMag, Task.alone]; rfl

theorem alone_refRescale (σ : Store K) (w : World K) (r : Ref K) (d : Dim) :
    (r.rescale w d).alone σ = (σ, (r.value σ).rescale w d) := by
  cases r with
  | obj j => exact alone_rescale σ w j d
  | own q => rfl

theorem alone_scaleOther (σ : Store K) (w : World K) (i : Nat) (r : Ref K) :
    ∃ x, (scaleOther w i r).alone σ = (σ, x) ∧
      x.map (Ref.value σ) = (σ.quantity i).scaleOther w (.quantity (r.value σ)) ∧
      ∀ r', x = .ok r' → r' = r ∨ ∃ q, r' = .own q := by
  have e : (σ.quantity i).scaleOther w (.quantity (r.value σ)) =
      if w.dne (r.value σ).dim (σ.dim i) then (r.value σ).rescale w (σ.dim i)
      else .ok (r.value σ) := rfl
  rw [e]
  unfold scaleOther
  rw [alone_withDim]
  simp only [Task.alone]
  by_cases h : w.dne (r.value σ).dim (σ.dim i) = true
  · rw [if_pos h, if_pos h]
    simp only [Task.alone, alone_andThen, alone_refRescale]
    rcases (r.value σ).rescale w (σ.dim i) with e | q
    · exact ⟨.error e, rfl, rfl, fun r' h => absurd h (by simp)⟩
    · exact ⟨.ok (.own q), rfl, rfl, fun r' h => .inr ⟨q, (Except.ok.inj h).symm⟩⟩
  · rw [if_neg h, if_neg h]
    exact ⟨.ok r, rfl, rfl, fun r' h => .inl (Except.ok.inj h).symm⟩

variable [DecidableEq K]

/-- The ufunc of an operator. -/
def uf : IOp → UF2
  | .add => .add
  | .sub => .subtract
  | .mod => .remainder
  | .mul => .multiply
  | .div => .trueDivide
  | .floordiv => .floorDivide

theorem alone_unitsOf (σ : Store K) (w : World K) (op : IOp) (i : Nat) (r : Ref K) :
    (unitsOf w op i r).alone σ = (σ, ufunc2Dim w (uf op) (.quantity (σ.quantity i)) (.quantity (r.value σ))) := by
  unfold unitsOf
  simp only [Task.alone]
  rw [alone_withDim]
  have hd : (σ.quantity i).dim = σ.dim i := rfl
  cases op <;> simp only [uf, ufunc2Dim, dCheckUniform, dMultiply, dDivide, hd, Task.alone]
  all_goals
    by_cases h : w.deq (σ.dim i) (r.value σ).dim = true
    · rw [if_pos h, if_pos h]; rfl
    · rw [if_neg h, if_neg h]; rfl

variable [Add K] [Sub K] [PyFloor K]

omit [DecidableEq K] [Add K] [Sub K] [PyFloor K] [Zero K] in
theorem scaleOther_deq {w : World K} {a b r : Quantity K}
    (h : a.scaleOther w (.quantity b) = .ok r) : w.deq r.dim a.dim = true := by
  have e : a.scaleOther w (.quantity b) =
      if w.dne b.dim a.dim then b.rescale w a.dim else .ok b := rfl
  rw [e] at h
  by_cases hd : w.dne b.dim a.dim = true
  · rw [if_pos hd] at h
    unfold Quantity.rescale at h
    by_cases hd' : w.deq b.dim a.dim = true
    · rw [if_pos hd'] at h; cases h; exact hd'
    · rw [if_neg hd'] at h
      split at h
      · cases h; exact deq_self _ _
      · simp at h
      · simp at h
  · rw [if_neg hd] at h
    cases h
    rw [dne_eq] at hd; simpa using hd

theorem alone_prepared (σ : Store K) (w : World K) (op : IOp) (i : Nat) (r : Ref K) :
    ∃ x, (prepared w op i r).alone σ = (σ, x) ∧
      (∀ e, x = .error e → binary w op (σ.quantity i) (r.value σ) = .error e) ∧
      (∀ r', x = .ok r' → (r' = r ∨ ∃ q, r' = .own q) ∧
        binary w op (σ.quantity i) (r.value σ) =
          applyUF2 w (uf op) (opFn op) (.quantity (σ.quantity i)) (.quantity (r'.value σ)) ∧
        ∃ d, ufunc2Dim w (uf op) (.quantity (σ.quantity i)) (.quantity (r'.value σ)) = .ok d ∧
          (scales op = true → d = σ.dim i)) := by
  unfold prepared
  cases op
  case add | sub | mod =>
    obtain ⟨x, h1, h2, h3⟩ := alone_scaleOther σ w i r
    refine ⟨x, h1, fun e he => ?_, fun r' hr => ⟨h3 r' hr, ?_⟩⟩
    · subst he
      simp only [Except.map] at h2
      simp only [binary, Quantity.add, Quantity.sub, Quantity.mod, ← h2]
    · subst hr
      simp only [Except.map] at h2
      have hd : w.deq (σ.quantity i).dim (r'.value σ).dim = true := by
        rw [deq_comm]; exact scaleOther_deq h2.symm
      refine ⟨?_, σ.dim i, ?_, fun _ => rfl⟩
      · simp only [binary, Quantity.add, Quantity.sub, Quantity.mod, ← h2]
        rfl
      · simp only [uf, ufunc2Dim, dCheckUniform, hd, if_true]
        rfl
  case mul | div | floordiv =>
    refine ⟨.ok r, rfl, fun e he => absurd he (by simp), fun r' hr => ?_⟩
    cases hr
    exact ⟨.inl rfl, rfl, _, rfl, fun h => absurd h (by decide)⟩

theorem ufunc2Dim_error {w : World K} {op : IOp} {a b : Quantity K} {e : PyErr}
    (h : ufunc2Dim w (uf op) (.quantity a) (.quantity b) = .error e) : e = .valueError := by
  cases op <;> simp only [uf, ufunc2Dim, dCheckUniform, dMultiply, dDivide] at h
  all_goals first
    | (split at h <;> simp at h; exact h.symm)
    | simp at h

theorem alone_binop (np2 : Bool) (σ : Store K) (w : World K) (op : IOp) (i : Nat) (r : Ref K) :
    (binop np2 w op i r).alone σ = (σ, binary w op (σ.quantity i) (r.value σ)) := by
  obtain ⟨x, h1, h2, h3⟩ := alone_prepared σ w op i r
  unfold binop
  rw [alone_andThen, h1]
  rcases x with e | r'
  · simp only [h2 e rfl]
  · simp only [(h3 r' rfl).2.1]
    unfold applyUF2
    have hc : ((readMag i).bind fun a => r'.readMag.bind fun b =>
        (Task.ret (NDArr.bin (opFn op) a b) : Task K _)).alone σ =
        (σ, NDArr.bin (opFn op) (σ.mag i) (r'.value σ).mag) := by
      simp only [alone_bind, alone_readMag, alone_refMag, Task.alone]
    have hq : (Operand.quantity (σ.quantity i)).arr = σ.mag i := rfl
    have hq' : (Operand.quantity (r'.value σ)).arr = (r'.value σ).mag := rfl
    rw [hq, hq']
    cases np2
    · simp only [Bool.false_eq_true, if_false, alone_andThen, alone_unitsOf, hc]
      rcases ufunc2Dim w (uf op) (.quantity (σ.quantity i)) (.quantity (r'.value σ)) with e | d
      · rfl
      · simp only
        rcases NDArr.bin (opFn op) (σ.mag i) (r'.value σ).mag with e | m <;> rfl
    · simp only [if_true]
      rw [alone_andThen, hc]
      rcases hb : NDArr.bin (opFn op) (σ.mag i) (r'.value σ).mag with e | m
      · simp only
        rcases hu : ufunc2Dim w (uf op) (.quantity (σ.quantity i)) (.quantity (r'.value σ)) with e' | d
        · simp only [ufunc2Dim_error hu, NDArr.bin_error hb]
        · rfl
      · simp only [alone_andThen, alone_unitsOf]
        rcases ufunc2Dim w (uf op) (.quantity (σ.quantity i)) (.quantity (r'.value σ)) with e' | d <;> rfl

theorem alone_compare (σ : Store K) (r : K → K → Bool) (w : World K) (i : Nat) (y : Ref K) :
    (compare r w i y).alone σ = (σ, (σ.quantity i).compare r w (.quantity (y.value σ))) := by
  unfold compare Quantity.compare Quantity.wrapComparison
  rw [alone_withDim]
  simp only [Task.alone, alone_andThen]
  have hd : (σ.quantity i).dim = σ.dim i := rfl
  by_cases h : w.dne (y.value σ).dim (σ.dim i) = true
  · rw [if_pos h, if_pos (show w.dne _ (σ.quantity i).dim = true from h)]
    simp only [Task.alone, alone_andThen, alone_refRescale]
    rw [show (σ.quantity i).dim = σ.dim i from rfl]
    rcases (y.value σ).rescale w (σ.dim i) with e | q
    · rfl
    · simp only [Task.alone, alone_bind, alone_readMag]
      rfl
  · rw [if_neg h, if_neg (show ¬ w.dne _ (σ.quantity i).dim = true from h)]
    simp only [alone_bind, alone_refMag, alone_readMag, Task.alone]
    rfl

/-! ### Loops -/

omit [Zero K] [One K] [Mul K] [Div K] [RPow K] [DecidableEq K] [Add K] [Sub K] [PyFloor K] in
theorem alone_forEach (σ : Store K) (xs : List (List Nat)) (body : List Nat → Task K PUnit.{v+1}) :
    ((forEach xs body).alone σ).1 = xs.foldl (fun τ x => ((body x).alone τ).1) σ := by
  induction xs generalizing σ with
  | nil => rfl
  | cons x xs ih =>
    simp only [forEach, alone_bind, List.foldl_cons]
    exact ih _

/-- All elements of `i` replaced. -/
def Store.setElems (σ : Store K) (i : Nat) (f : List Nat → K) : Store K :=
  ⟨σ.shape, Function.update σ.elem i f, σ.dim⟩

omit [Zero K] [One K] [Mul K] [Div K] [RPow K] [DecidableEq K] [Add K] [Sub K] [PyFloor K] in
/-- A loop that stores at each index `x` of `i` a number `F τ x` that does not depend on what the loop
has stored before. -/
theorem foldl_setElem (σ : Store K) (i : Nat) (F : Store K → List Nat → K) (v : List Nat → K)
    (xs : List (List Nat)) (hn : xs.Nodup)
    (hF : ∀ (τ : Store K) (x : List Nat), x ∈ xs → τ.shape = σ.shape → τ.dim = σ.dim →
      (∀ j, j ≠ i → τ.elem j = σ.elem j) → τ.elem i x = σ.elem i x → F τ x = v x) :
    xs.foldl (fun τ x => τ.setElem i x (F τ x)) σ =
      σ.setElems i (fun x => if x ∈ xs then v x else σ.elem i x) := by
  have gen : ∀ (ys : List (List Nat)), ys.Nodup → (∀ y ∈ ys, y ∈ xs) → ∀ τ : Store K,
      τ.shape = σ.shape → τ.dim = σ.dim → (∀ j, j ≠ i → τ.elem j = σ.elem j) →
      (∀ y ∈ ys, τ.elem i y = σ.elem i y) →
      ys.foldl (fun τ x => τ.setElem i x (F τ x)) τ =
        τ.setElems i (fun x => if x ∈ ys then v x else τ.elem i x) := by
    intro ys
    induction ys with
    | nil =>
      intro _ _ τ _ _ _ _
      simp [Store.setElems]
    | cons y ys ih =>
      intro hnd hsub τ h1 h2 h3 h4
      have hy := List.nodup_cons.1 hnd
      rw [List.foldl_cons, hF τ y (hsub y List.mem_cons_self) h1 h2 h3 (h4 y List.mem_cons_self)]
      rw [ih hy.2 (fun z hz => hsub z (List.mem_cons_of_mem _ hz)) (τ.setElem i y (v y)) h1 h2
        (fun j hj => by simp [Store.setElem, Function.update_of_ne hj, h3 j hj])
        (fun z hz => by
          have : z ≠ y := fun e => hy.1 (e ▸ hz)
          simp [Store.setElem, Function.update_of_ne this, h4 z (List.mem_cons_of_mem _ hz)])]
      simp only [Store.setElem, Store.setElems]
      congr 1
      rw [Function.update_idem]
      congr 1
      funext x
      by_cases hx : x ∈ ys
      · simp [hx]
      · by_cases he : x = y
        · subst he; simp [hx]
        · simp [hx, he, Function.update_of_ne he]
  exact gen xs hn (fun _ h => h) σ rfl rfl (fun _ _ => rfl) (fun _ _ => rfl)

/-- The outcome of an in-place operator: nothing happened, or `x` holds the result. -/
theorem alone_inplace (np2 : Bool) (σ : Store K) (w : World K) (op : IOp) (i : Nat) (r : Ref K) :
    (∃ e, (inplace np2 w op i r).alone σ = (σ, .error e) ∧
      (binary w op (σ.quantity i) (r.value σ) = .error e ∨
        e = .valueError ∧ ∃ res, binary w op (σ.quantity i) (r.value σ) = .ok res ∧
          res.mag.shape ≠ σ.shape i)) ∨
    ∃ res τ, (inplace np2 w op i r).alone σ = (τ, .ok ⟨⟩) ∧
      binary w op (σ.quantity i) (r.value σ) = .ok res ∧ (τ.mag i).Same res.mag ∧
      τ.dim i = (if np2 then σ.dim i else res.dim) ∧ OnlyAt i σ τ := by
  obtain ⟨x, h1, h2, h3⟩ := alone_prepared σ w op i r
  unfold inplace
  rw [alone_andThen, h1]
  rcases x with e | r'
  · exact .inl ⟨e, rfl, .inl (h2 e rfl)⟩
  obtain ⟨hr, hb, d, hd, -⟩ := h3 r' rfl
  simp only [Task.alone, alone_withShape]
  by_cases hs : NDArr.bshape (σ.shape i) (r'.value σ).mag.shape ≠ some (σ.shape i)
  · rw [if_pos hs]
    refine .inl ⟨_, rfl, ?_⟩
    have hb' : binary w op (σ.quantity i) (r.value σ) =
        match NDArr.bin (opFn op) (σ.mag i) (r'.value σ).mag with
        | .error e => .error e
        | .ok m => .ok ⟨m, d⟩ := by
      rw [hb]
      unfold applyUF2
      rw [hd]
      rfl
    rw [hb']
    rcases hbin : NDArr.bin (opFn op) (σ.mag i) (r'.value σ).mag with e | m
    · exact .inl (by rw [NDArr.bin_error hbin])
    · refine .inr ⟨rfl, _, rfl, fun hsh => hs ?_⟩
      have hb' := (NDArr.bin_elim hbin).1
      rw [show m.shape = σ.shape i from hsh] at hb'
      exact hb'
  rw [if_neg hs]
  have hs' := not_not.1 hs
  set t := (r'.value σ).mag.shape with ht
  -- the loop
  let v : List Nat → K := fun x => opFn op (σ.elem i x) ((r'.value σ).mag.elem (NDArr.bidx t x))
  have hinb : ∀ x, x ∈ NDArr.indices (σ.shape i) → NDArr.bidx t x ∈ NDArr.indices t := fun x hx =>
    NDArr.mem_indices.2 (NDArr.bidx_inb_right hs' (NDArr.mem_indices.1 hx))
  have hloop : ∀ τ : Store K, τ.shape = σ.shape → τ.elem = σ.elem →
      ((forEach (NDArr.indices (σ.shape i)) fun x => Task.getElem i x fun a =>
        r'.withElem (NDArr.bidx t x) fun b => Task.setElem i x (opFn op a b)
          (.ret (⟨⟩ : PUnit.{_+1}))).alone τ).1 =
      τ.setElems i (fun x => if x ∈ NDArr.indices (σ.shape i) then v x else τ.elem i x) := by
    intro τ e1 e2
    rw [alone_forEach]
    have hbody : (fun (υ : Store K) (x : List Nat) => ((Task.getElem i x fun a =>
        r'.withElem (NDArr.bidx t x) fun b => Task.setElem i x (opFn op a b)
          (.ret (⟨⟩ : PUnit.{_+1}))).alone υ).1) = fun υ x => υ.setElem i x (match r' with
            | .obj j => opFn op (υ.elem i x) (υ.elem j (NDArr.bidx t x))
            | .own q => opFn op (υ.elem i x) (q.mag.elem (NDArr.bidx t x))) := by
      funext υ x
      cases r' <;> rfl
    rw [hbody]
    refine foldl_setElem τ i _ v _ (indices_nodup _) ?_
    intro υ x hx f1 f2 f3 f4
    simp only [v]
    cases r' with
    | own q => simp only [f4, e2]; rfl
    | obj j =>
      simp only [f4, e2]
      have hval : (Ref.value σ (.obj j)).mag.elem (NDArr.bidx t x) = σ.elem j (NDArr.bidx t x) :=
        if_pos (hinb x hx)
      rw [hval]
      congr 1
      by_cases hj : j = i
      · subst hj
        have : NDArr.bidx t x = x := NDArr.bidx_self (NDArr.mem_indices.1 hx)
        rw [this, f4, e2]
      · rw [f3 j hj, e2]
  have hbin : NDArr.bin (opFn op) (σ.mag i) (r'.value σ).mag =
      .ok ⟨σ.shape i, fun x => opFn op ((σ.mag i).elem (NDArr.bidx (σ.shape i) x))
        ((r'.value σ).mag.elem (NDArr.bidx t x))⟩ :=
    NDArr.bin_intro _ (a := σ.mag i) (b := (r'.value σ).mag) hs'
  have hmag : ∀ τ : Store K, τ.shape = σ.shape → τ.elem = σ.elem →
      NDArr.Same ((τ.setElems i (fun x => if x ∈ NDArr.indices (σ.shape i) then v x else τ.elem i x)).mag i)
        ⟨σ.shape i, fun x => opFn op ((σ.mag i).elem (NDArr.bidx (σ.shape i) x))
          ((r'.value σ).mag.elem (NDArr.bidx t x))⟩ := by
    intro τ e1 e2
    refine ⟨by simp [Store.mag, Store.setElems, e1], fun x hx => ?_⟩
    have hx' : NDArr.InB (σ.shape i) x := by rw [← e1]; exact hx
    have hm := NDArr.mem_indices.2 hx'
    simp only [Store.mag, Store.setElems, e1, hm, if_true, Function.update_self, NDArr.bidx_self hx', v]
  have happ : ∀ d, ufunc2Dim w (uf op) (.quantity (σ.quantity i)) (.quantity (r'.value σ)) = .ok d →
      binary w op (σ.quantity i) (r.value σ) = .ok ⟨⟨σ.shape i, fun x =>
        opFn op ((σ.mag i).elem (NDArr.bidx (σ.shape i) x))
          ((r'.value σ).mag.elem (NDArr.bidx t x))⟩, d⟩ := by
    intro d hd
    rw [hb]
    unfold applyUF2
    rw [hd]
    show (match NDArr.bin (opFn op) (σ.mag i) (r'.value σ).mag with
      | .error e => _
      | .ok m => _) = _
    rw [hbin]
  cases np2
  · simp only [Bool.false_eq_true, if_false]
    rw [alone_andThen, alone_unitsOf, hd]
    simp only [Task.alone]
    rw [alone_bind]
    refine .inr ⟨_, _, rfl, happ d hd, ?_, ?_, ?_⟩
    all_goals rw [hloop (σ.setDim i d) rfl rfl]
    · exact hmag _ rfl rfl
    · simp [Store.setElems, Store.setDim]
    · refine ⟨rfl, fun j hj => ?_⟩
      refine ⟨rfl, ?_, ?_⟩
      · simp [Store.setElems, Store.setDim, Function.update_of_ne hj]
      · simp [Store.setElems, Store.setDim, Function.update_of_ne hj]
  · simp only [if_true]
    rw [alone_bind]
    refine .inr ⟨_, _, rfl, happ d hd, ?_, ?_, ?_⟩
    all_goals rw [hloop σ rfl rfl]
    · exact hmag _ rfl rfl
    · rfl
    · refine ⟨rfl, fun j hj => ?_⟩
      exact ⟨rfl, by simp [Store.setElems, Function.update_of_ne hj], rfl⟩

omit [DecidableEq K] [Add K] [Sub K] [PyFloor K] in
/-- The outcome of `x.units = d`. -/
theorem alone_setUnits (σ : Store K) (w : World K) (i : Nat) (d : Dim) :
    (match ((σ.quantity i).setUnits w d).1 with
      | some e => (setUnits w i d).alone σ = (σ, .error e)
      | none => ((setUnits w i d).alone σ).2 = .ok ⟨⟩ ∧
        (((setUnits w i d).alone σ).1.mag i).Same ((σ.quantity i).setUnits w d).2.mag ∧
        ((setUnits w i d).alone σ).1.dim i = ((σ.quantity i).setUnits w d).2.dim ∧
        OnlyAt i σ ((setUnits w i d).alone σ).1) := by
  unfold setUnits Quantity.setUnits
  simp only [Task.alone]
  by_cases h : w.deq (σ.dim i) d = true
  · rw [if_pos h, if_pos (show w.deq (σ.quantity i).dim d = true from h)]
    exact ⟨rfl, ⟨rfl, fun _ _ => rfl⟩, rfl, rfl, fun j _ => .refl _ _⟩
  · rw [if_neg h, if_neg (show ¬ w.deq (σ.quantity i).dim d = true from h)]
    simp only [Task.alone]
    rw [show (σ.quantity i).dim = σ.dim i from rfl]
    rcases w.convFactor (σ.dim i) d with e | cf
    · cases e <;> rfl
    · simp only [Task.alone, alone_bind]
      have hl : ((forEach (NDArr.indices (σ.shape i)) fun x => Task.getElem i x fun a =>
          Task.setElem i x (a * cf) (.ret (⟨⟩ : PUnit.{_+1}))).alone σ).1 =
          σ.setElems i (fun x => if x ∈ NDArr.indices (σ.shape i) then σ.elem i x * cf
            else σ.elem i x) := by
        rw [alone_forEach]
        exact foldl_setElem σ i (fun τ x => τ.elem i x * cf) _ _ (indices_nodup _)
          (fun τ x hx _ _ _ he => by rw [he])
      rw [hl]
      refine ⟨trivial, ⟨rfl, fun x hx => ?_⟩, by simp [Store.setDim], rfl, fun j hj => ⟨rfl, ?_, ?_⟩⟩
      · have hx' : x ∈ NDArr.indices (σ.shape i) := NDArr.mem_indices.2 hx
        simp only [Store.mag, Store.setElems, Store.setDim, Store.quantity, NDArr.map, hx', if_true,
          Function.update_self]
      · simp [Store.setElems, Store.setDim, Function.update_of_ne hj]
      · simp [Store.setElems, Store.setDim, Function.update_of_ne hj]

/-! ### Which quantities a method uses -/

section
omit [Zero K] [One K] [Mul K] [Div K] [RPow K] [DecidableEq K] [Add K] [Sub K] [PyFloor K]
variable {R W : Nat → Prop}

theorem Task.Uses.bind {p : Task K α} {g : α → Task K β} (hp : p.Uses R W) (hg : ∀ a, (g a).Uses R W) :
    (p.bind g).Uses R W := by
  induction hp with
  | ret a => exact hg a
  | getDim hi _ ih => exact .getDim hi ih
  | getShape hi _ ih => exact .getShape hi ih
  | getElem hi _ ih => exact .getElem hi ih
  | setElem hi _ ih => exact .setElem hi ih
  | setDim hi _ ih => exact .setDim hi ih

theorem Task.Uses.andThen {p : Task K (Py α)} {g : α → Task K (Py β)} (hp : p.Uses R W)
    (hg : ∀ a, (g a).Uses R W) : (p.andThen g).Uses R W :=
  hp.bind fun x => by
    rcases x with e | a
    · exact .ret _
    · exact hg a

theorem uses_forEach {xs : List (List Nat)} {body : List Nat → Task K PUnit.{v+1}}
    (h : ∀ x, (body x).Uses R W) : (forEach xs body).Uses R W := by
  induction xs with
  | nil => exact .ret _
  | cons x xs ih => exact (h x).bind fun _ => ih

theorem uses_readElems {i : Nat} (hi : R i ∨ W i) (xs : List (List Nat)) (f : List Nat → K) :
    (readElems i xs f).Uses R W := by
  induction xs generalizing f with
  | nil => exact .ret _
  | cons x xs ih => exact .getElem hi fun v => ih _

theorem uses_withDim {r : Ref K} {f : Dim → Task K α} (hr : ∀ j, r.At j → R j ∨ W j)
    (hf : ∀ d, (f d).Uses R W) : (r.withDim f).Uses R W := by
  cases r with
  | obj j => exact .getDim (hr j rfl) hf
  | own q => exact hf _

theorem uses_withShape {r : Ref K} {f : List Nat → Task K α} (hr : ∀ j, r.At j → R j ∨ W j)
    (hf : ∀ d, (f d).Uses R W) : (r.withShape f).Uses R W := by
  cases r with
  | obj j => exact .getShape (hr j rfl) hf
  | own q => exact hf _

theorem uses_withElem {r : Ref K} {x : List Nat} {f : K → Task K α} (hr : ∀ j, r.At j → R j ∨ W j)
    (hf : ∀ d, (f d).Uses R W) : (r.withElem x f).Uses R W := by
  cases r with
  | obj j => exact .getElem (hr j rfl) hf
  | own q => exact hf _

/-- Every operand a computation passes on is `r` or its own. -/
theorem Task.Uses.andThen_of {p : Task K (Py α)} {g : α → Task K (Py β)} {P : α → Prop}
    (hp : p.Uses R W) (hP : p.Ends (fun x => ∀ a, x = .ok a → P a))
    (hg : ∀ a, P a → (g a).Uses R W) : (p.andThen g).Uses R W := by
  induction hP with
  | ret a ha =>
    rcases a with e | a
    · exact .ret _
    · exact hg a (ha a rfl)
  | getDim _ ih => cases hp with | getDim hi hf => exact .getDim hi fun d => ih d (hf d)
  | getShape _ ih => cases hp with | getShape hi hf => exact .getShape hi fun d => ih d (hf d)
  | getElem _ ih => cases hp with | getElem hi hf => exact .getElem hi fun d => ih d (hf d)
  | setElem _ ih => cases hp with | setElem hi hf => exact .setElem hi (ih hf)
  | setDim _ ih => cases hp with | setDim hi hf => exact .setDim hi (ih hf)

theorem Task.Ends.andThen {P : α → Prop} {Q : Py β → Prop} {p : Task K (Py α)} {g : α → Task K (Py β)}
    (hp : p.Ends (fun x => ∀ a, x = .ok a → P a)) (he : ∀ e, Q (.error e))
    (hg : ∀ a, P a → (g a).Ends Q) : (p.andThen g).Ends Q :=
  hp.bind fun x hx => by
    rcases x with e | a
    · exact .ret _ (he e)
    · exact hg a (hx a rfl)

theorem ends_withDim {P : α → Prop} {r : Ref K} {f : Dim → Task K α} (hf : ∀ d, (f d).Ends P) :
    (r.withDim f).Ends P := by
  cases r with
  | obj j => exact .getDim hf
  | own q => exact hf _

/-- The operand is `r`, or a quantity of the thread's own. -/
def FromRef (r r' : Ref K) : Prop := r' = r ∨ ∃ q, r' = .own q

theorem FromRef.at {r r' : Ref K} (h : FromRef r r') (hr : ∀ j, r.At j → R j ∨ W j) :
    ∀ j, r'.At j → R j ∨ W j := by
  rcases h with rfl | ⟨q, rfl⟩
  · exact hr
  · exact fun j hj => hj.elim

end

section
variable {R W : Nat → Prop}

omit [One K] [Mul K] [Div K] [RPow K] [DecidableEq K] [Add K] [Sub K] [PyFloor K] in
theorem uses_readMag {i : Nat} (hi : R i ∨ W i) : (readMag (K := K) i).Uses R W :=
  .getShape hi fun _ => (uses_readElems hi _ _).bind fun _ => .ret _

omit [One K] [Mul K] [Div K] [RPow K] [DecidableEq K] [Add K] [Sub K] [PyFloor K] in
theorem uses_refMag {r : Ref K} (hr : ∀ j, r.At j → R j ∨ W j) : (r.readMag).Uses R W := by
  cases r with
  | obj j => exact uses_readMag (hr j rfl)
  | own q => exact .ret _

omit [DecidableEq K] [Add K] [Sub K] [PyFloor K] in
theorem uses_rescale (w : World K) {i : Nat} (hi : R i ∨ W i) (d : Dim) :
    (rescale w i d).Uses R W := by
  refine .getDim hi fun d1 => ?_
  split
  · exact .getDim hi fun d2 => (uses_readMag hi).bind fun _ => .ret _
  · refine .getDim hi fun d2 => ?_
    split
    · exact (uses_readMag hi).bind fun _ => .ret _
    · exact .ret _
    · exact .ret _

omit [DecidableEq K] [Add K] [Sub K] [PyFloor K] in
theorem uses_refRescale (w : World K) {r : Ref K} (hr : ∀ j, r.At j → R j ∨ W j) (d : Dim) :
    (r.rescale w d).Uses R W := by
  cases r with
  | obj j => exact uses_rescale w (hr j rfl) d
  | own q => exact .ret _

omit [DecidableEq K] [Add K] [Sub K] [PyFloor K] in
theorem uses_scaleOther (w : World K) {i : Nat} (hi : R i ∨ W i) {r : Ref K}
    (hr : ∀ j, r.At j → R j ∨ W j) : (scaleOther w i r).Uses R W := by
  refine uses_withDim hr fun dr => .getDim hi fun di => ?_
  split
  · exact .getDim hi fun d => (uses_refRescale w hr d).andThen fun q => .ret _
  · exact .ret _

omit [DecidableEq K] [Add K] [Sub K] [PyFloor K] in
theorem ends_scaleOther (w : World K) (i : Nat) (r : Ref K) :
    (scaleOther w i r).Ends (fun x => ∀ a, x = .ok a → FromRef r a) := by
  refine ends_withDim fun dr => .getDim fun di => ?_
  split
  · refine .getDim fun d => Task.Ends.bind (Task.Ends.trivial _) fun x _ => ?_
    rcases x with e | q
    · exact .ret _ fun a h => absurd h (by simp)
    · exact .ret _ fun a h => .inr ⟨q, (Except.ok.inj h).symm⟩
  · exact .ret _ fun a h => .inl (Except.ok.inj h).symm

omit [DecidableEq K] [Add K] [Sub K] [PyFloor K] in
theorem uses_prepared (w : World K) (op : IOp) {i : Nat} (hi : R i ∨ W i) {r : Ref K}
    (hr : ∀ j, r.At j → R j ∨ W j) : (prepared w op i r).Uses R W := by
  unfold prepared
  split
  · exact uses_scaleOther w hi hr
  · exact .ret _

omit [DecidableEq K] [Add K] [Sub K] [PyFloor K] in
theorem ends_prepared (w : World K) (op : IOp) (i : Nat) (r : Ref K) :
    (prepared w op i r).Ends (fun x => ∀ a, x = .ok a → FromRef r a) := by
  unfold prepared
  split
  · exact ends_scaleOther w i r
  · exact .ret _ fun a h => .inl (Except.ok.inj h).symm

omit [Zero K] [One K] [Mul K] [Div K] [RPow K] [DecidableEq K] [Add K] [Sub K] [PyFloor K] in
theorem uses_unitsOf (w : World K) (op : IOp) {i : Nat} (hi : R i ∨ W i) {r : Ref K}
    (hr : ∀ j, r.At j → R j ∨ W j) : (unitsOf w op i r).Uses R W := by
  refine .getDim hi fun d1 => uses_withDim hr fun d2 => ?_
  cases op <;> simp only
  case add | sub | mod =>
    split
    · exact .getDim hi fun _ => .ret _
    · exact .ret _
  all_goals exact .ret _

omit [DecidableEq K] in
theorem uses_binop (np2 : Bool) (w : World K) (op : IOp) {i : Nat} (hi : R i ∨ W i) {r : Ref K}
    (hr : ∀ j, r.At j → R j ∨ W j) : (binop np2 w op i r).Uses R W := by
  refine (uses_prepared w op hi hr).andThen_of (ends_prepared w op i r) fun r' hr' => ?_
  have ha := hr'.at hr
  simp only
  split
  · exact ((uses_readMag hi).bind fun a => (uses_refMag ha).bind fun b => .ret _).andThen fun m =>
      (uses_unitsOf w op hi ha).andThen fun d => .ret _
  · exact (uses_unitsOf w op hi ha).andThen fun d =>
      ((uses_readMag hi).bind fun a => (uses_refMag ha).bind fun b => .ret _).andThen fun m => .ret _

omit [DecidableEq K] [Add K] [Sub K] [PyFloor K] in
theorem uses_compare (c : K → K → Bool) (w : World K) {i : Nat} (hi : R i ∨ W i) {r : Ref K}
    (hr : ∀ j, r.At j → R j ∨ W j) : (compare c w i r).Uses R W := by
  refine uses_withDim hr fun dr => .getDim hi fun di => Task.Uses.andThen ?_ fun m =>
    (uses_readMag hi).bind fun a => .ret _
  split
  · exact .getDim hi fun d => (uses_refRescale w hr d).andThen fun q => .ret _
  · exact (uses_refMag hr).bind fun m => .ret _

omit [DecidableEq K] in
theorem uses_inplace (np2 : Bool) (w : World K) (op : IOp) {i : Nat} (hi : W i) {r : Ref K}
    (hr : ∀ j, r.At j → R j ∨ W j) : (inplace np2 w op i r).Uses R W := by
  refine (uses_prepared w op (.inr hi) hr).andThen_of (ends_prepared w op i r) fun r' hr' => ?_
  have ha := hr'.at hr
  refine .getShape (.inr hi) fun s => uses_withShape ha fun t => ?_
  split
  · exact .ret _
  · have hl : (forEach (NDArr.indices s) fun x => Task.getElem i x fun a =>
        r'.withElem (NDArr.bidx t x) fun b => Task.setElem i x (opFn op a b)
          (.ret (⟨⟩ : PUnit.{u+1}))).Uses R W :=
      uses_forEach fun x => .getElem (.inr hi) fun a => uses_withElem ha fun b => .setElem hi (.ret _)
    simp only
    split
    · exact hl.bind fun _ => .ret _
    · exact (uses_unitsOf w op (.inr hi) ha).andThen fun d => .setDim hi (hl.bind fun _ => .ret _)

omit [Zero K] [DecidableEq K] [Add K] [Sub K] [PyFloor K] in
theorem uses_setUnits (w : World K) {i : Nat} (hi : W i) (d : Dim) : (setUnits w i d).Uses R W := by
  refine .getDim (.inr hi) fun d1 => ?_
  split
  · exact .ret _
  · refine .getDim (.inr hi) fun d2 => ?_
    split
    · exact .getShape (.inr hi) fun s => (uses_forEach fun x => .getElem (.inr hi) fun a =>
        .setElem hi (.ret _)).bind fun _ => .setDim hi (.ret _)
    · exact .ret _
    · exact .ret _

omit [DecidableEq K] [Add K] [Sub K] [PyFloor K] in
theorem uses_setitem (w : World K) {i : Nat} (hi : W i) (k : Key) {r : Ref K}
    (hr : ∀ j, r.At j → R j ∨ W j) : (setitem w i k r).Uses R W := by
  refine .getDim (.inr hi) fun di => uses_withDim hr fun dr => Task.Uses.andThen ?_ fun m =>
    .getShape (.inr hi) fun s => ?_
  · split
    · exact .getDim (.inr hi) fun d => (uses_refRescale w hr d).andThen fun q => .ret _
    · exact (uses_refMag hr).bind fun m => .ret _
  · split
    · exact .ret _
    · split
      · exact .ret _
      · exact (uses_forEach fun x => .setElem hi (.ret _)).bind fun _ => .ret _

end

/-! ### Interrupted execution -/

section
omit [Zero K] [One K] [Mul K] [Div K] [RPow K] [DecidableEq K] [Add K] [Sub K] [PyFloor K]
variable {R W : Nat → Prop}

theorem Task.Uses.after {p : Task K ρ} (h : p.Uses R W) (n : Nat) (σ : Store K) :
    ∀ i, ¬ W i → SameAt (after n σ p).1 σ i := by
  induction n generalizing σ p with
  | zero => exact fun i _ => .refl _ _
  | succ n ih => exact fun i hi => (ih (h.step σ).1 _ i hi).trans ((h.step σ).2 i hi)

/-- Wherever the computation is stopped, the state satisfies `P`. -/
def Always (P : Store K → Prop) (σ : Store K) (p : Task K α) : Prop := ∀ n, P (after n σ p).1

theorem Always.ret {P : Store K → Prop} {σ : Store K} {a : α} (h : P σ) : Always P σ (.ret a) :=
  fun n => by rw [after_ret]; exact h

theorem Always.step {P : Store K → Prop} {σ : Store K} {p : Task K α} (h : P σ)
    (hs : Always P (p.step σ).1 (p.step σ).2) : Always P σ p := fun n => by
  cases n with
  | zero => exact h
  | succ n => exact hs n

theorem Always.getDim {P : Store K → Prop} {σ : Store K} {i : Nat} {f : Dim → Task K α} (h : P σ)
    (hs : Always P σ (f (σ.dim i))) : Always P σ (.getDim i f) := Always.step h hs

theorem Always.getShape {P : Store K → Prop} {σ : Store K} {i : Nat} {f : List Nat → Task K α} (h : P σ)
    (hs : Always P σ (f (σ.shape i))) : Always P σ (.getShape i f) := Always.step h hs

theorem Always.setDim {P : Store K → Prop} {σ : Store K} {i : Nat} {d : Dim} {t : Task K α} (h : P σ)
    (hs : Always P (σ.setDim i d) t) : Always P σ (.setDim i d t) := Always.step h hs

theorem Always.here {P : Store K → Prop} {σ : Store K} {p : Task K α} (h : Always P σ p) : P σ := h 0

theorem Always.next {P : Store K → Prop} {σ : Store K} {p : Task K α} (h : Always P σ p) :
    Always P (p.step σ).1 (p.step σ).2 := fun n => h (n + 1)

theorem Always.bind {P : Store K → Prop} {σ : Store K} {p : Task K α} {g : α → Task K β}
    (hp : Always P σ p) (hg : Always P (p.alone σ).1 (g (p.alone σ).2)) : Always P σ (p.bind g) := by
  induction p generalizing σ with
  | ret a => exact hg
  | getDim i f ih => exact Always.step hp.here (ih _ hp.next hg)
  | getShape i f ih => exact Always.step hp.here (ih _ hp.next hg)
  | getElem i x f ih => exact Always.step hp.here (ih _ hp.next hg)
  | setElem i x v t ih => exact Always.step hp.here (ih hp.next hg)
  | setDim i d t ih => exact Always.step hp.here (ih hp.next hg)

theorem Always.alone {P : Store K → Prop} {σ : Store K} {p : Task K α} (h : Always P σ p) :
    P (p.alone σ).1 := by
  induction p generalizing σ with
  | ret a => exact h.here
  | getDim i f ih => exact ih _ h.next
  | getShape i f ih => exact ih _ h.next
  | getElem i x f ih => exact ih _ h.next
  | setElem i x v t ih => exact ih h.next
  | setDim i d t ih => exact ih h.next

theorem Store.ext_at {σ τ : Store K} (h : ∀ i, SameAt σ τ i) : σ = τ := by
  obtain ⟨sh, el, di⟩ := σ
  obtain ⟨sh', el', di'⟩ := τ
  have h1 : sh = sh' := funext fun i => (h i).1
  have h2 : el = el' := funext fun i => (h i).2.1
  have h3 : di = di' := funext fun i => (h i).2.2
  rw [h1, h2, h3]

/-- A computation that changes nothing. -/
theorem Always.pure {P : Store K → Prop} {σ : Store K} {p : Task K α}
    (h : p.Uses (fun _ => True) (fun _ => False)) (hP : P σ) : Always P σ p := fun n => by
  have e : (after n σ p).1 = σ := by
    have := h.after n σ
    exact Store.ext_at fun i => this i id
  rw [e]; exact hP

theorem Always.forEach {P : Store K → Prop} {σ : Store K} {xs : List (List Nat)}
    {body : List Nat → Task K PUnit.{v+1}} (Q : Store K → Prop) (hQ : Q σ) (hQP : ∀ τ, Q τ → P τ)
    (hb : ∀ τ x, x ∈ xs → Q τ → Always Q τ (body x)) : Always P σ (forEach xs body) := by
  induction xs generalizing σ with
  | nil => exact Always.ret (hQP _ hQ)
  | cons x xs ih =>
    refine Always.bind (fun n => hQP _ (hb σ x List.mem_cons_self hQ n)) ?_
    exact ih (hb σ x List.mem_cons_self hQ).alone fun τ y hy => hb τ y (List.mem_cons_of_mem _ hy)

end

/-! ### Calls and programs -/

omit [Zero K] [One K] [Mul K] [Div K] [RPow K] [DecidableEq K] [Add K] [Sub K] [PyFloor K] in
theorem foldl_setSel (i : Nat) (sel : List Nat → List Nat) (v : List Nat → K) (xs : List (List Nat))
    (σ : Store K) :
    ((xs.foldl (fun τ x => τ.setElem i (sel x) (v x)) σ).shape = σ.shape ∧
      (xs.foldl (fun τ x => τ.setElem i (sel x) (v x)) σ).dim = σ.dim ∧
      ∀ j, j ≠ i → (xs.foldl (fun τ x => τ.setElem i (sel x) (v x)) σ).elem j = σ.elem j) ∧
    ∀ p, ((∀ x ∈ xs, sel x ≠ p) ∧
        (xs.foldl (fun τ x => τ.setElem i (sel x) (v x)) σ).elem i p = σ.elem i p) ∨
      ∃ pre x post, xs = pre ++ x :: post ∧ sel x = p ∧ (∀ y ∈ post, sel y ≠ p) ∧
        (xs.foldl (fun τ x => τ.setElem i (sel x) (v x)) σ).elem i p = v x := by
  induction xs using List.reverseRecOn with
  | nil => exact ⟨⟨rfl, rfl, fun _ _ => rfl⟩, fun p => .inl ⟨fun x hx => absurd hx (by simp), rfl⟩⟩
  | append_singleton xs x ih =>
    obtain ⟨⟨h1, h2, h3⟩, h4⟩ := ih
    simp only [List.foldl_append, List.foldl_cons, List.foldl_nil]
    refine ⟨⟨h1, h2, fun j hj => ?_⟩, fun p => ?_⟩
    · simp only [Store.setElem, Function.update_of_ne hj]; exact h3 j hj
    · by_cases hp : sel x = p
      · refine .inr ⟨xs, x, [], rfl, hp, fun y hy => absurd hy (by simp), ?_⟩
        simp [Store.setElem, hp]
      · have hne : p ≠ sel x := fun e => hp e.symm
        simp only [Store.setElem, Function.update_self, Function.update_of_ne hne]
        rcases h4 p with ⟨a, b⟩ | ⟨pre, y, post, a, b, c, d⟩
        · refine .inl ⟨fun y hy => ?_, b⟩
          rcases List.mem_append.1 hy with hy | hy
          · exact a y hy
          · rw [List.mem_singleton.1 hy]; exact hp
        · refine .inr ⟨pre, y, post ++ [x], by rw [a]; simp, b, fun z hz => ?_, d⟩
          rcases List.mem_append.1 hz with hz | hz
          · exact c z hz
          · rw [List.mem_singleton.1 hz]; exact hp

omit [Zero K] [One K] [Mul K] [Div K] [RPow K] [DecidableEq K] [Add K] [Sub K] [PyFloor K] in
theorem alone_assign (σ : Store K) (i : Nat) (k : Key) (m : NDArr K) :
    (assign i k m).alone σ = match k (σ.shape i) with
      | .error e => (σ, .error e)
      | .ok (t, sel) => match Heap.castTo t m with
        | .error e => (σ, .error e)
        | .ok v =>
          ((NDArr.indices t).foldl (fun τ x => τ.setElem i (sel x) (v.elem x)) σ, .ok ⟨⟩) := by
  unfold assign
  simp only [Task.alone]
  rcases k (σ.shape i) with e | ⟨t, sel⟩
  · rfl
  · simp only
    rcases Heap.castTo t m with e | v
    · rfl
    · simp only [alone_bind, alone_forEach, Task.alone]

omit [DecidableEq K] [Add K] [Sub K] [PyFloor K] in
theorem alone_setitem (σ : Store K) (w : World K) (i : Nat) (k : Key) (y : Ref K) :
    (setitem w i k y).alone σ = match assignedMag w (σ.dim i) (y.value σ) with
      | .error e => (σ, .error e)
      | .ok m => (assign i k m).alone σ := by
  unfold setitem assignedMag
  simp only [Task.alone]
  rw [alone_withDim, alone_andThen]
  by_cases h : w.dne (σ.dim i) (y.value σ).dim = true
  · rw [if_pos h, if_pos h]
    simp only [Task.alone, alone_andThen, alone_refRescale]
    rcases (y.value σ).rescale w (σ.dim i) with e | q <;> rfl
  · rw [if_neg h, if_neg h]
    simp only [alone_bind, alone_refMag, Task.alone]

theorem call_does (np2 : Bool) (w : World K) (σ : Store K) (c : Call K) :
    c.Does np2 w σ ((c.task np2 w).alone σ).1 ((c.task np2 w).alone σ).2 := by
  cases c with
  | rescale i d =>
    simp only [Call.task, alone_bind, alone_rescale, Task.alone]
    exact .rescale i d
  | binop op i y =>
    simp only [Call.task, alone_bind, alone_binop, Task.alone]
    exact .binop op i y
  | compare c i y =>
    simp only [Call.task, alone_bind, alone_compare, Task.alone]
    exact .compare c i y
  | inplace op i y =>
    simp only [Call.task, alone_bind, Task.alone]
    rcases alone_inplace np2 σ w op i y with ⟨e, h1, h2⟩ | ⟨res, τ, h1, h2, h3, h4, h5⟩
    · rw [h1]; exact .inplaceRefused op i y e h2
    · rw [h1]; exact .inplace op i y res τ h2 h3 h4 h5
  | setUnits i d =>
    simp only [Call.task, alone_bind, Task.alone]
    have h := alone_setUnits σ w i d
    rcases he : ((σ.quantity i).setUnits w d).1 with _ | e
    · rw [he] at h
      obtain ⟨h1, h2, h3, h4⟩ := h
      rw [h1]
      exact .setUnits i d _ he h2 h3 h4
    · rw [he] at h
      simp only at h
      rw [h]
      exact .setUnitsRefused i d e he
  | setitem i k y =>
    simp only [Call.task, alone_bind, Task.alone]
    rw [alone_setitem]
    rcases hm : assignedMag w (σ.dim i) (y.value σ) with e | m
    · exact .setitemRefused i k y e (.inl hm)
    simp only
    rw [alone_assign]
    rcases hk : k (σ.shape i) with e | ⟨t, sel⟩
    · exact .setitemRefused i k y e (.inr ⟨m, hm, .inl hk⟩)
    simp only
    rcases hc : Heap.castTo t m with e | v
    · exact .setitemRefused i k y e (.inr ⟨m, hm, .inr ⟨t, sel, hk, hc⟩⟩)
    · obtain ⟨⟨a, b, c⟩, d⟩ := foldl_setSel i sel v.elem (NDArr.indices t) σ
      exact .setitem i k y m v t sel _ hm hk hc b
        ⟨a, fun j hj => ⟨by rw [a], c j hj, by rw [b]⟩⟩ d

theorem client_runs (np2 : Bool) (w : World K) (σ : Store K) (p : Client K ρ) :
    p.Runs np2 w σ ((p.task np2 w).alone σ).1 ((p.task np2 w).alone σ).2 := by
  induction p generalizing σ with
  | done r => exact .done σ r
  | call c next ih =>
    simp only [Client.task, alone_bind]
    exact .call σ _ _ c next _ _ (call_does np2 w σ c) (ih _ _)

omit [DecidableEq K] in
theorem uses_call (np2 : Bool) (w : World K) (c : Call K) {R W : Nat → Prop}
    (hr : ∀ j, c.Mentions j → R j) (hw : ∀ j, c.Changes j → W j) : (c.task np2 w).Uses R W := by
  cases c with
  | rescale i d => exact (uses_rescale w (.inl (hr i rfl)) d).bind fun _ => .ret _
  | binop op i y =>
    exact (uses_binop np2 w op (.inl (hr i (.inl rfl))) fun j hj => .inl (hr j (.inr hj))).bind
      fun _ => .ret _
  | compare c i y =>
    exact (uses_compare c w (.inl (hr i (.inl rfl))) fun j hj => .inl (hr j (.inr hj))).bind
      fun _ => .ret _
  | inplace op i y =>
    exact (uses_inplace np2 w op (hw i rfl) fun j hj => .inl (hr j (.inr hj))).bind fun _ => .ret _
  | setUnits i d => exact (uses_setUnits w (hw i rfl) d).bind fun _ => .ret _
  | setitem i k y =>
    exact (uses_setitem w (hw i rfl) k fun j hj => .inl (hr j (.inr hj))).bind fun _ => .ret _

omit [DecidableEq K] in
theorem uses_client (np2 : Bool) (w : World K) {p : Client K ρ} {R W : Nat → Prop}
    (h : p.Within R W) : (p.task np2 w).Uses R W := by
  induction h with
  | done r => exact .ret r
  | call hr hw _ ih => exact (uses_call np2 w _ hr hw).bind ih

/-! ### Interrupted loops -/

section
omit [Zero K] [One K] [Mul K] [Div K] [RPow K] [DecidableEq K] [Add K] [Sub K] [PyFloor K]

/-- Elements of `i` hold their old value or `v`; nothing else has changed. -/
def Partly (σ : Store K) (i : Nat) (xs : List (List Nat)) (v : List Nat → K) (τ : Store K) : Prop :=
  τ.shape = σ.shape ∧ τ.dim = σ.dim ∧ (∀ j, j ≠ i → τ.elem j = σ.elem j) ∧
    ∀ x, τ.elem i x = σ.elem i x ∨ x ∈ xs ∧ τ.elem i x = v x

theorem Partly.setElem {σ τ : Store K} {i : Nat} {xs : List (List Nat)} {v : List Nat → K}
    (h : Partly σ i xs v τ) {x : List Nat} (hx : x ∈ xs) : Partly σ i xs v (τ.setElem i x (v x)) := by
  refine ⟨h.1, h.2.1, fun j hj => ?_, fun y => ?_⟩
  · simp only [Store.setElem, Function.update_of_ne hj]; exact h.2.2.1 j hj
  · by_cases e : y = x
    · subst e; exact .inr ⟨hx, by simp [Store.setElem]⟩
    · simp only [Store.setElem, Function.update_self, Function.update_of_ne e]
      exact h.2.2.2 y

theorem always_loop {σ : Store K} {i : Nat} {xs : List (List Nat)} (hn : xs.Nodup) {v : List Nat → K}
    {body : List Nat → Task K PUnit.{v+1}}
    (hb : ∀ τ x, x ∈ xs → Partly σ i xs v τ → τ.elem i x = σ.elem i x →
      Always (fun υ => υ = τ ∨ υ = τ.setElem i x (v x)) τ (body x) ∧
        ((body x).alone τ).1 = τ.setElem i x (v x)) :
    Always (Partly σ i xs v) σ (forEach xs body) := by
  have gen : ∀ (ys : List (List Nat)), ys.Nodup → (∀ y ∈ ys, y ∈ xs) → ∀ τ : Store K,
      Partly σ i xs v τ → (∀ y ∈ ys, τ.elem i y = σ.elem i y) →
      Always (Partly σ i xs v) τ (forEach ys body) := by
    intro ys
    induction ys with
    | nil => exact fun _ _ τ h _ => Always.ret h
    | cons y ys ih =>
      intro hnd hsub τ h1 h2
      have hy := List.nodup_cons.1 hnd
      have hyx := hsub y List.mem_cons_self
      obtain ⟨a, b⟩ := hb τ y hyx h1 (h2 y List.mem_cons_self)
      refine Always.bind (fun n => ?_) ?_
      · rcases a n with e | e
        · rw [e]; exact h1
        · rw [e]; exact h1.setElem hyx
      · rw [b]
        refine ih hy.2 (fun z hz => hsub z (List.mem_cons_of_mem _ hz)) _ (h1.setElem hyx) fun z hz => ?_
        have : z ≠ y := fun e => hy.1 (e ▸ hz)
        simp [Store.setElem, Function.update_of_ne this, h2 z (List.mem_cons_of_mem _ hz)]
  exact gen xs hn (fun _ h => h) σ ⟨rfl, rfl, fun _ _ => rfl, fun _ => .inl rfl⟩ fun _ _ => rfl

theorem always_store {σ : Store K} {i : Nat} {x : List Nat} {a : K} {r : α} :
    Always (fun υ => υ = σ ∨ υ = σ.setElem i x a) σ (Task.setElem i x a (.ret r)) :=
  Always.step (.inl rfl) (Always.ret (.inr rfl))

theorem Always.mono {P Q : Store K → Prop} {σ : Store K} {p : Task K α} (h : Always P σ p)
    (hPQ : ∀ τ, P τ → Q τ) : Always Q σ p := fun n => hPQ _ (h n)

theorem Always.andThen {P : Store K → Prop} {σ : Store K} {p : Task K (Py α)} {g : α → Task K (Py β)}
    (hp : Always P σ p) (hg : ∀ a, (p.alone σ).2 = .ok a → Always P (p.alone σ).1 (g a)) :
    Always P σ (p.andThen g) :=
  hp.bind (by
    rcases h : (p.alone σ).2 with e | a
    · exact Always.ret hp.alone
    · exact hg a h)

theorem always_withShape {P : Store K → Prop} [Zero K] {σ : Store K} {r : Ref K}
    {f : List Nat → Task K α} (h : P σ) (hf : Always P σ (f (r.value σ).mag.shape)) :
    Always P σ (r.withShape f) := by
  cases r with
  | obj j => exact Always.step h hf
  | own q => exact hf

theorem always_withDim {P : Store K → Prop} [Zero K] {σ : Store K} {r : Ref K}
    {f : Dim → Task K α} (h : P σ) (hf : Always P σ (f (r.value σ).dim)) :
    Always P σ (r.withDim f) := by
  cases r with
  | obj j => exact Always.step h hf
  | own q => exact hf

end

/-- An in-place operator that converts its operand, or any one under numpy 2, stopped anywhere. -/
theorem always_inplace (np2 : Bool) (σ : Store K) (w : World K) (op : IOp) (i : Nat) (r : Ref K)
    (h : np2 = true ∨ scales op = true) :
    Always (fun τ => τ = σ ∨ ∃ res, binary w op (σ.quantity i) (r.value σ) = .ok res ∧
      Partly σ i (NDArr.indices (σ.shape i)) res.mag.elem τ) σ (inplace np2 w op i r) := by
  obtain ⟨x, h1, h2, h3⟩ := alone_prepared σ w op i r
  unfold inplace
  refine Always.andThen (Always.pure (uses_prepared w op (.inl trivial) fun _ _ => .inl trivial)
    (.inl rfl)) fun r' hr' => ?_
  rw [h1] at hr' ⊢
  simp only at hr' ⊢
  obtain ⟨hr, hb, d, hd, hdim⟩ := h3 r' hr'
  refine Always.getShape (.inl rfl) (always_withShape (.inl rfl) ?_)
  by_cases hs : NDArr.bshape (σ.shape i) (r'.value σ).mag.shape ≠ some (σ.shape i)
  · rw [if_pos hs]; exact Always.ret (.inl rfl)
  rw [if_neg hs]
  have hs' := not_not.1 hs
  set t := (r'.value σ).mag.shape with ht
  have hinb : ∀ x, x ∈ NDArr.indices (σ.shape i) → NDArr.bidx t x ∈ NDArr.indices t := fun x hx =>
    NDArr.mem_indices.2 (NDArr.bidx_inb_right hs' (NDArr.mem_indices.1 hx))
  have hbin : NDArr.bin (opFn op) (σ.mag i) (r'.value σ).mag =
      .ok ⟨σ.shape i, fun x => opFn op ((σ.mag i).elem (NDArr.bidx (σ.shape i) x))
        ((r'.value σ).mag.elem (NDArr.bidx t x))⟩ :=
    NDArr.bin_intro _ (a := σ.mag i) (b := (r'.value σ).mag) hs'
  have happ : binary w op (σ.quantity i) (r.value σ) = .ok ⟨⟨σ.shape i, fun x =>
        opFn op ((σ.mag i).elem (NDArr.bidx (σ.shape i) x))
          ((r'.value σ).mag.elem (NDArr.bidx t x))⟩, d⟩ := by
    rw [hb]
    unfold applyUF2
    rw [hd]
    show (match NDArr.bin (opFn op) (σ.mag i) (r'.value σ).mag with
      | .error e => _
      | .ok m => _) = _
    rw [hbin]
  have hloop : Always (Partly σ i (NDArr.indices (σ.shape i)) fun x =>
        opFn op ((σ.mag i).elem (NDArr.bidx (σ.shape i) x)) ((r'.value σ).mag.elem (NDArr.bidx t x))) σ
      (forEach (NDArr.indices (σ.shape i)) fun x => Task.getElem i x fun a =>
        r'.withElem (NDArr.bidx t x) fun b => Task.setElem i x (opFn op a b)
          (.ret (⟨⟩ : PUnit.{u+1}))) := by
    refine always_loop (indices_nodup _) fun τ x hx hp he => ?_
    have ha : (σ.mag i).elem (NDArr.bidx (σ.shape i) x) = τ.elem i x := by
      rw [NDArr.bidx_self (NDArr.mem_indices.1 hx), he]
      exact if_pos hx
    rw [ha]
    cases r' with
    | own q =>
      exact ⟨Always.step (.inl rfl) always_store, rfl⟩
    | obj j =>
      have hval : (Ref.value σ (.obj j)).mag.elem (NDArr.bidx t x) = τ.elem j (NDArr.bidx t x) := by
        rw [show (Ref.value σ (.obj j)).mag.elem (NDArr.bidx t x) = σ.elem j (NDArr.bidx t x) from
          if_pos (hinb x hx)]
        by_cases hj : j = i
        · subst hj
          rw [show NDArr.bidx t x = x from NDArr.bidx_self (NDArr.mem_indices.1 hx), he]
        · rw [hp.2.2.1 j hj]
      rw [hval]
      exact ⟨Always.step (.inl rfl) (Always.step (.inl rfl) always_store), rfl⟩
  have hmono : ∀ τ, Partly σ i (NDArr.indices (σ.shape i)) (fun x =>
      opFn op ((σ.mag i).elem (NDArr.bidx (σ.shape i) x)) ((r'.value σ).mag.elem (NDArr.bidx t x))) τ →
      τ = σ ∨ ∃ res, binary w op (σ.quantity i) (r.value σ) = .ok res ∧
        Partly σ i (NDArr.indices (σ.shape i)) res.mag.elem τ := fun τ hp => .inr ⟨_, happ, hp⟩
  have hall := (hloop.mono hmono).bind (g := fun _ => (.ret (.ok ⟨⟩) : Task K (Py PUnit.{u+1})))
    (Always.ret (hloop.mono hmono).alone)
  cases np2
  · simp only [Bool.false_eq_true, if_false]
    have hds : d = σ.dim i := hdim (h.resolve_left (by simp))
    refine Always.andThen (Always.pure (uses_unitsOf w op (.inl trivial) fun _ _ => .inl trivial)
      (.inl rfl)) fun d' hd' => ?_
    rw [alone_unitsOf] at hd' ⊢
    simp only at hd' ⊢
    rw [hd] at hd'
    cases hd'
    have hset : σ.setDim i d = σ := by
      subst hds
      simp [Store.setDim]
    refine Always.setDim (.inl rfl) ?_
    rw [hset]
    exact hall
  · simp only [if_true]
    exact hall

omit [DecidableEq K] [Add K] [Sub K] [PyFloor K] in
/-- The `units` setter, stopped anywhere. -/
theorem always_setUnits (σ : Store K) (w : World K) (i : Nat) (d : Dim) :
    Always (fun τ => τ = σ ∨ ∃ cf, w.convFactor (σ.dim i) d = .ok cf ∧
      (Partly σ i (NDArr.indices (σ.shape i)) (fun x => σ.elem i x * cf) τ ∨
        τ = (σ.setElems i (fun x => if x ∈ NDArr.indices (σ.shape i) then σ.elem i x * cf
            else σ.elem i x)).setDim i d)) σ (setUnits w i d) := by
  unfold setUnits
  refine Always.getDim (.inl rfl) ?_
  by_cases h : w.deq (σ.dim i) d = true
  · rw [if_pos h]; exact Always.ret (.inl rfl)
  rw [if_neg h]
  refine Always.getDim (.inl rfl) ?_
  rcases hc : w.convFactor (σ.dim i) d with e | cf
  · cases e <;> exact Always.ret (.inl rfl)
  · simp only
    refine Always.getShape (.inl rfl) ?_
    have hl : ((forEach (NDArr.indices (σ.shape i)) fun x => Task.getElem i x fun a =>
        Task.setElem i x (a * cf) (.ret (⟨⟩ : PUnit.{u+1}))).alone σ).1 =
        σ.setElems i (fun x => if x ∈ NDArr.indices (σ.shape i) then σ.elem i x * cf
          else σ.elem i x) := by
      rw [alone_forEach]
      exact foldl_setElem σ i (fun τ x => τ.elem i x * cf) _ _ (indices_nodup _)
        (fun τ x hx _ _ _ he => by rw [he])
    have hloop : Always (Partly σ i (NDArr.indices (σ.shape i)) fun x => σ.elem i x * cf) σ
        (forEach (NDArr.indices (σ.shape i)) fun x => Task.getElem i x fun a =>
          Task.setElem i x (a * cf) (.ret (⟨⟩ : PUnit.{u+1}))) := by
      refine always_loop (indices_nodup _) fun τ x hx hp he => ?_
      rw [← he]
      exact ⟨Always.step (.inl rfl) always_store, rfl⟩
    have hm := hloop.mono (Q := fun τ => τ = σ ∨ ∃ cf', w.convFactor (σ.dim i) d = .ok cf' ∧
      (Partly σ i (NDArr.indices (σ.shape i)) (fun x => σ.elem i x * cf') τ ∨
        τ = (σ.setElems i (fun x => if x ∈ NDArr.indices (σ.shape i) then σ.elem i x * cf'
            else σ.elem i x)).setDim i d)) fun τ hp => .inr ⟨cf, hc, .inl hp⟩
    simp only [hc] at hm
    refine hm.bind ?_
    refine Always.setDim hm.alone (Always.ret (.inr ⟨cf, rfl, .inr ?_⟩))
    rw [hl]

/-- An element assignment, stopped anywhere. -/
theorem always_setitem (σ : Store K) (w : World K) (i : Nat) (k : Key) (y : Ref K) :
    Always (fun τ => τ = σ ∨ ∃ m t sel a, assignedMag w (σ.dim i) (y.value σ) = .ok m ∧
      k (σ.shape i) = .ok (t, sel) ∧ Heap.castTo t m = .ok a ∧
      τ.shape = σ.shape ∧ τ.dim = σ.dim ∧ (∀ j, j ≠ i → τ.elem j = σ.elem j) ∧
      ∀ p, τ.elem i p = σ.elem i p ∨ ∃ x ∈ NDArr.indices t, sel x = p ∧ τ.elem i p = a.elem x)
      σ (setitem w i k y) := by
  unfold setitem
  refine Always.getDim (.inl rfl) (always_withDim (.inl rfl) ?_)
  refine Always.andThen (Always.pure ?_ (.inl rfl)) fun m hm => ?_
  · split
    · exact .getDim (.inl trivial) fun d => (uses_refRescale w (fun _ _ => .inl trivial) d).andThen
        fun q => .ret _
    · exact (uses_refMag fun _ _ => .inl trivial).bind fun m => .ret _
  · have hσ : ((if w.dne (σ.dim i) (y.value σ).dim = true then
          Task.getDim i fun d => (y.rescale w d).andThen fun q => .ret (.ok q.mag)
        else y.readMag.bind fun m => .ret (.ok m) : Task K (Py (NDArr K))).alone σ) =
        (σ, assignedMag w (σ.dim i) (y.value σ)) := by
      unfold assignedMag
      by_cases h : w.dne (σ.dim i) (y.value σ).dim = true
      · rw [if_pos h, if_pos h]
        simp only [Task.alone, alone_andThen, alone_refRescale]
        rcases (y.value σ).rescale w (σ.dim i) with e | q <;> rfl
      · rw [if_neg h, if_neg h]
        simp only [alone_bind, alone_refMag, Task.alone]
    rw [hσ] at hm ⊢
    simp only at hm ⊢
    unfold assign
    refine Always.getShape (.inl rfl) ?_
    rcases hk : k (σ.shape i) with e | ⟨t, sel⟩
    · exact Always.ret (.inl rfl)
    simp only
    rcases hc : Heap.castTo t m with e | a
    · exact Always.ret (.inl rfl)
    simp only
    have hall := Always.forEach (σ := σ) (xs := NDArr.indices t)
      (body := fun x => Task.setElem i (sel x) (a.elem x) (.ret (⟨⟩ : PUnit.{u+1})))
      (P := fun τ => τ.shape = σ.shape ∧ τ.dim = σ.dim ∧ (∀ j, j ≠ i → τ.elem j = σ.elem j) ∧
      ∀ p, τ.elem i p = σ.elem i p ∨ ∃ x ∈ NDArr.indices t, sel x = p ∧ τ.elem i p = a.elem x)
      (fun τ => τ.shape = σ.shape ∧ τ.dim = σ.dim ∧ (∀ j, j ≠ i → τ.elem j = σ.elem j) ∧
      ∀ p, τ.elem i p = σ.elem i p ∨ ∃ x ∈ NDArr.indices t, sel x = p ∧ τ.elem i p = a.elem x)
      ⟨rfl, rfl, fun _ _ => rfl, fun _ => .inl rfl⟩ (fun _ h => h) (fun τ x hx hτ =>
        Always.step hτ (Always.ret ⟨hτ.1, hτ.2.1, fun j hj => by
            simp only [Task.step, Store.setElem, Function.update_of_ne hj]; exact hτ.2.2.1 j hj,
          fun p => by
            by_cases e : p = sel x
            · subst e; exact .inr ⟨x, hx, rfl, by simp [Task.step, Store.setElem]⟩
            · simp only [Task.step, Store.setElem, Function.update_self, Function.update_of_ne e]
              exact hτ.2.2.2 p⟩))
    have hall' := hall.mono (Q := fun τ => τ = σ ∨ ∃ m' t' sel' a',
      assignedMag w (σ.dim i) (y.value σ) = .ok m' ∧
      (.ok (t, sel) : Py (List Nat × (List Nat → List Nat))) = .ok (t', sel') ∧
      Heap.castTo t' m' = .ok a' ∧
      τ.shape = σ.shape ∧ τ.dim = σ.dim ∧ (∀ j, j ≠ i → τ.elem j = σ.elem j) ∧
      ∀ p, τ.elem i p = σ.elem i p ∨ ∃ x ∈ NDArr.indices t', sel' x = p ∧ τ.elem i p = a'.elem x)
      fun τ h => .inr ⟨m, t, sel, a, hm, rfl, hc, h⟩
    exact hall'.bind (Always.ret hall'.alone)

end PQ.Shared
