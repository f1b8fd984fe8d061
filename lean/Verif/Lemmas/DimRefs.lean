import Verif.Spec.DimRefs
import Verif.Spec.Exponents
import Verif.Lemmas.Dim

/-! # Lemmas about `Dimensionality` objects by reference -/

set_option linter.unusedSectionVars false

namespace PQ.Refs

open Dict

variable {K : Type _}

theorem deref_prefix {st st' : List Dim} (h : st <+: st') {p : Nat} (hp : p < st.length) :
    deref st' p = deref st p := by
  obtain ⟨t, rfl⟩ := h
  simp [deref, List.getD_eq_getElem?_getD, List.getElem?_append_left hp]

theorem deref_set_self {st : List Dim} {p : Nat} (hp : p < st.length) (d : Dim) :
    deref (st.set p d) p = d := by
  simp [deref, List.getD_eq_getElem?_getD, hp]

theorem deref_set_ne {st : List Dim} {p r : Nat} (h : r ≠ p) (d : Dim) :
    deref (st.set p d) r = deref st r := by
  simp [deref, List.getD_eq_getElem?_getD, List.getElem?_set_ne (Ne.symm h)]

theorem deref_nodup {st : List Dim} (h : ∀ d ∈ st, Nodup d) (p : Nat) : Nodup (deref st p) := by
  simp only [deref, List.getD_eq_getElem?_getD]
  cases hp : st[p]? with
  | none => simp [Dict.Nodup]
  | some d => exact h _ (List.mem_of_getElem? hp)

theorem set_append_fresh {d : Dim} {u : UKey} {e : ℚ} (h : u ∉ d.map Prod.fst) :
    Dict.set d u e = d ++ [(u, e)] := by
  induction d with
  | nil => rfl
  | cons kv d ih =>
    simp only [List.map_cons, List.mem_cons, not_or] at h
    have : kv.1 ≠ u := fun h' => h.1 h'.symm
    simp [Dict.set, this, ih h.2]

theorem updateDict_append (e d : Dim) (h : ((d ++ e).map Prod.fst).Nodup) : updateDict d e = d ++ e := by
  induction e generalizing d with
  | nil => simp [updateDict]
  | cons kv e ih =>
    have h1 : kv.1 ∉ d.map Prod.fst := by
      simp only [List.map_append, List.map_cons] at h
      have := (List.nodup_append.1 h).2.2
      intro hm
      exact this _ hm _ (by simp) rfl
    have : updateDict d (kv :: e) = updateDict (d ++ [kv]) e := by
      simp [updateDict, set_append_fresh h1]
    rw [this, ih]
    · simp
    · simpa using h

theorem updateDict_nil {d : Dim} (h : Nodup d) : updateDict [] d = d := by
  simpa using updateDict_append d [] (by simpa [Dict.Nodup] using h)

theorem updateDict_nodup {d : Dim} (e : Dim) (h : Nodup d) : Nodup (updateDict d e) := by
  induction e generalizing d with
  | nil => exact h
  | cons kv e ih => exact ih (nodup_set h _ _)

theorem liveLoop_nodup {f : Dim → UKey × ℚ → Dim} (hf : ∀ d kv, Nodup d → Nodup (f d kv)) (n : Nat) :
    ∀ (fuel i : Nat) (d : Dim), Nodup d → Nodup (Dim.liveLoop f n fuel i d).2
  | 0, _, d, h => by simpa [Dim.liveLoop] using h
  | fuel + 1, i, d, h => by
    rw [Dim.liveLoop]
    split
    · split
      · exact h
      · exact liveLoop_nodup hf n fuel _ _ (hf _ _ h)
    · exact h

theorem divStep_nodup {d : Dim} (h : Nodup d) (kv : UKey × ℚ) : Nodup (Dim.divStep d kv) := by
  simp only [Dim.divStep]
  split
  · split
    · exact nodup_pop (nodup_set h _ _) _
    · exact nodup_set h _ _
  · exact nodup_set h _ _

/-- `r` is a new object with contents `d`. -/
structure Fresh (st : List Dim) (r : Nat × List Dim) (d : Dim) : Prop where
  pre : st <+: r.2
  ge : st.length ≤ r.1
  lt : r.1 < r.2.length
  nodup : ∀ x ∈ r.2, Nodup x
  val : deref r.2 r.1 = d

theorem fresh_new {st : List Dim} (h : ∀ x ∈ st, Nodup x) {d : Dim} (hd : Nodup d) :
    Fresh st (new st d) d :=
  ⟨List.prefix_append _ _, le_rfl, by simp [new],
    by intro x hx; rcases List.mem_append.1 hx with h1 | h1
       · exact h _ h1
       · rw [List.mem_singleton.1 h1]; exact hd,
    by simp [new, deref]⟩

theorem Fresh.trans {st : List Dim} {r s : Nat × List Dim} {d e : Dim} (h : Fresh st r d)
    (h' : Fresh r.2 s e) : Fresh st s e :=
  ⟨h.pre.trans h'.pre, le_trans h.pre.length_le h'.ge, h'.lt, h'.nodup, h'.val⟩

theorem fresh_copy {st : List Dim} (h : ∀ x ∈ st, Nodup x) (p : Nat) :
    Fresh st (copyObj st p) (deref st p) := fresh_new h (deref_nodup h p)

theorem fresh_construct {st : List Dim} (h : ∀ x ∈ st, Nodup x) {v : Nat} (hv : v < st.length) :
    Fresh st (construct (K := K) st v) (deref st v) := by
  have hf : Fresh st (new st []) [] := fresh_new h (by simp [Dict.Nodup])
  have hne : v ≠ st.length := Nat.ne_of_lt hv
  have e1 : deref (st ++ [[]]) v = deref st v := deref_prefix hf.pre hv
  have e2 : deref (st ++ [[]]) st.length = [] := hf.val
  have e3 : (construct (K := K) st v) = (st.length, (st ++ [[]]).set st.length (deref st v)) := by
    simp only [construct, finalize, new, e1, e2, updateDict_nil (deref_nodup h v)]
  have e4 : (st ++ [[]]).set st.length (deref st v) = st ++ [deref st v] := by simp
  rw [e3, e4]
  exact fresh_new h (deref_nodup h v)

/-- What every reachable state satisfies: quantities and variables never share an object. -/
structure Good (s : State K) : Prop where
  nodup : ∀ d ∈ s.store, Nodup d
  vars : ∀ p ∈ s.vars, p < s.store.length
  qs : ∀ q ∈ s.qs, q.dptr < s.store.length
  apart : ∀ p ∈ s.vars, ∀ q ∈ s.qs, p ≠ q.dptr

theorem good_empty : Good (State.empty : State K) :=
  ⟨by simp [State.empty], by simp [State.empty], by simp [State.empty], by simp [State.empty]⟩

/-- The ways a command can change the state. -/
inductive Effect (c : Cmd K) (s : State K) : State K → Prop
  | keep : Effect c s s
  | addDim {r : Nat × List Dim} {d : Dim} (h : Fresh s.store r d) :
      Effect c s ⟨r.2, s.vars ++ [r.1], s.qs⟩
  | shared {j p : Nat} (h : s.vars[j]? = some p) (he : c.SimplifiesEmpty s) : Effect c s ⟨s.store, s.vars ++ [p], s.qs⟩
  | write {j p : Nat} (d : Dim) (h : s.vars[j]? = some p) (hd : Nodup d) (he : c.edits = some j) :
      Effect c s ⟨s.store.set p d, s.vars, s.qs⟩
  | addQs {r : Nat × List Dim} {d : Dim} (h : Fresh s.store r d) (ms : List (NDArr K)) :
      Effect c s ⟨r.2, s.vars, s.qs ++ ms.map (fun m => ⟨m, r.1⟩)⟩
  | setQ {i : Nat} {q : QObj K} (hq : s.qs[i]? = some q) (he : c.assigns = some i) {r : Nat × List Dim} {d : Dim}
      (h : Fresh s.store r d) (m : NDArr K) : Effect c s ⟨r.2, s.vars, s.qs.set i ⟨m, r.1⟩⟩
  | setMag {i : Nat} {q : QObj K} (hq : s.qs[i]? = some q) (he : c.assigns = some i) (m : NDArr K) :
      Effect c s ⟨s.store, s.vars, s.qs.set i ⟨m, q.dptr⟩⟩

theorem Effect.good {c : Cmd K} {s s' : State K} (hs : Good s) (h : Effect c s s') : Good s' := by
  cases h with
  | keep => exact hs
  | addDim h =>
    refine ⟨h.nodup, ?_, ?_, ?_⟩
    · intro p hp
      rcases List.mem_append.1 hp with h1 | h1
      · exact lt_of_lt_of_le (hs.vars _ h1) h.pre.length_le
      · rw [List.mem_singleton.1 h1]; exact h.lt
    · intro q hq; exact lt_of_lt_of_le (hs.qs _ hq) h.pre.length_le
    · intro p hp q hq
      rcases List.mem_append.1 hp with h1 | h1
      · exact hs.apart _ h1 _ hq
      · rw [List.mem_singleton.1 h1]
        exact Ne.symm (Nat.ne_of_lt (lt_of_lt_of_le (hs.qs _ hq) h.ge))
  | shared h _ =>
    have hp := List.mem_of_getElem? h
    refine ⟨hs.nodup, ?_, hs.qs, ?_⟩
    · intro p' hp'
      rcases List.mem_append.1 hp' with h1 | h1
      · exact hs.vars _ h1
      · rw [List.mem_singleton.1 h1]; exact hs.vars _ hp
    · intro p' hp' q hq
      rcases List.mem_append.1 hp' with h1 | h1
      · exact hs.apart _ h1 _ hq
      · rw [List.mem_singleton.1 h1]; exact hs.apart _ hp _ hq
  | write d h hd _ =>
    refine ⟨?_, ?_, ?_, hs.apart⟩
    · intro x hx
      rcases List.mem_or_eq_of_mem_set hx with h1 | h1
      · exact hs.nodup _ h1
      · rw [h1]; exact hd
    · intro p' hp'; simpa using hs.vars _ hp'
    · intro q hq; simpa using hs.qs _ hq
  | addQs h ms =>
    refine ⟨h.nodup, fun p hp => lt_of_lt_of_le (hs.vars _ hp) h.pre.length_le, ?_, ?_⟩
    · intro q hq
      rcases List.mem_append.1 hq with h1 | h1
      · exact lt_of_lt_of_le (hs.qs _ h1) h.pre.length_le
      · obtain ⟨m, -, rfl⟩ := List.mem_map.1 h1; exact h.lt
    · intro p hp q hq
      rcases List.mem_append.1 hq with h1 | h1
      · exact hs.apart _ hp _ h1
      · obtain ⟨m, -, rfl⟩ := List.mem_map.1 h1
        exact Nat.ne_of_lt (lt_of_lt_of_le (hs.vars _ hp) h.ge)
  | setQ hq _ h m =>
    refine ⟨h.nodup, fun p hp => lt_of_lt_of_le (hs.vars _ hp) h.pre.length_le, ?_, ?_⟩
    · intro q' hq'
      rcases List.mem_or_eq_of_mem_set hq' with h1 | h1
      · exact lt_of_lt_of_le (hs.qs _ h1) h.pre.length_le
      · rw [h1]; exact h.lt
    · intro p hp q' hq'
      rcases List.mem_or_eq_of_mem_set hq' with h1 | h1
      · exact hs.apart _ hp _ h1
      · rw [h1]; exact Nat.ne_of_lt (lt_of_lt_of_le (hs.vars _ hp) h.ge)
  | setMag hq _ m =>
    have hm := List.mem_of_getElem? hq
    refine ⟨hs.nodup, hs.vars, ?_, ?_⟩
    · intro q' hq'
      rcases List.mem_or_eq_of_mem_set hq' with h1 | h1
      · exact hs.qs _ h1
      · have := hs.qs _ hm
        simpa [h1] using this
    · intro p hp q' hq'
      rcases List.mem_or_eq_of_mem_set hq' with h1 | h1
      · exact hs.apart _ hp _ h1
      · have := hs.apart _ hp _ hm
        simpa [h1] using this

/-! ### Observations -/

theorem observe_prefix {s : State K} (hs : Good s) {st : List Dim} (h : s.store <+: st) :
    (⟨st, s.vars, s.qs⟩ : State K).observe = s.observe := by
  simp only [State.observe, VState.mk.injEq]
  refine ⟨List.map_congr_left fun p hp => deref_prefix h (hs.vars _ hp), List.map_congr_left fun q hq => ?_⟩
  rw [deref_prefix h (hs.qs _ hq)]

theorem observe_addDim {s : State K} (hs : Good s) {r : Nat × List Dim} {d : Dim}
    (h : Fresh s.store r d) :
    (⟨r.2, s.vars ++ [r.1], s.qs⟩ : State K).observe = ⟨s.observe.dims ++ [d], s.observe.qs⟩ := by
  have e := observe_prefix hs h.pre
  simp only [State.observe, VState.mk.injEq] at e ⊢
  simp [e.1, e.2, h.val]

theorem observe_addQs {s : State K} (hs : Good s) {r : Nat × List Dim} {d : Dim}
    (h : Fresh s.store r d) (ms : List (NDArr K)) :
    (⟨r.2, s.vars, s.qs ++ ms.map (fun m => ⟨m, r.1⟩)⟩ : State K).observe =
      ⟨s.observe.dims, s.observe.qs ++ ms.map (fun m => ⟨m, d⟩)⟩ := by
  have e := observe_prefix hs h.pre
  simp only [State.observe, VState.mk.injEq] at e ⊢
  simp [e.1, e.2, h.val, Function.comp_def]

theorem observe_setQ {s : State K} (hs : Good s) {r : Nat × List Dim} {d : Dim}
    (h : Fresh s.store r d) (i : Nat) (m : NDArr K) :
    (⟨r.2, s.vars, s.qs.set i ⟨m, r.1⟩⟩ : State K).observe =
      ⟨s.observe.dims, s.observe.qs.set i ⟨m, d⟩⟩ := by
  have e := observe_prefix hs h.pre
  simp only [State.observe, VState.mk.injEq] at e ⊢
  simp [e.1, e.2, h.val, List.map_set]

theorem observe_setMag {s : State K} (i : Nat) (m : NDArr K) (p : Nat) :
    (⟨s.store, s.vars, s.qs.set i ⟨m, p⟩⟩ : State K).observe =
      ⟨s.observe.dims, s.observe.qs.set i ⟨m, deref s.store p⟩⟩ := by
  simp [State.observe, List.map_set]

theorem observe_write {s : State K} (hs : Good s) (hna : s.NoAlias) {j p : Nat}
    (h : s.vars[j]? = some p) (d : Dim) :
    (⟨s.store.set p d, s.vars, s.qs⟩ : State K).observe = ⟨s.observe.dims.set j d, s.observe.qs⟩ := by
  have hp := hs.vars _ (List.mem_of_getElem? h)
  simp only [State.observe, VState.mk.injEq]
  constructor
  · apply List.ext_getElem?
    intro k
    rw [List.getElem?_map, List.getElem?_set]
    by_cases hjk : j = k
    · subst hjk
      have : j < s.vars.length := (List.getElem?_eq_some_iff.1 h).1
      obtain ⟨h1, h2⟩ := List.getElem?_eq_some_iff.1 h
      simp [this, h2, deref_set_self hp]
    · simp only [hjk, if_false, List.getElem?_map]
      cases hk : s.vars[k]? with
      | none => rfl
      | some r =>
        have : r ≠ p := by
          rintro rfl
          exact hjk (hna j k ⟨_, h, hk⟩)
        simp [deref_set_ne this]
  · apply List.map_congr_left
    intro q hq
    rw [deref_set_ne (Ne.symm (hs.apart _ (List.mem_of_getElem? h) _ hq))]

theorem observe_dim {s : State K} (j : Nat) :
    s.observe.dim j = match s.vars[j]? with
      | some p => .ok (deref s.store p)
      | none => .error .exception := by
  simp only [VState.dim, State.observe, List.getElem?_map]
  cases s.vars[j]? <;> rfl

theorem observe_qty {s : State K} (i : Nat) :
    s.observe.qty i = match s.qs[i]? with
      | some q => .ok ⟨q.mag, deref s.store q.dptr⟩
      | none => .error .exception := by
  simp only [VState.qty, State.observe, List.getElem?_map]
  cases s.qs[i]? <;> rfl

section ops
variable [Zero K] [One K] [Add K] [Sub K] [Mul K] [Div K] [RPow K] [PyFloor K] [DecidableEq K]

omit [Zero K] [Add K] [Sub K] [Mul K] [Div K] [RPow K] [PyFloor K] in
theorem isOne_iff {m : NDArr K} : IsOne m ↔ isUnitQuantity m = true := by
  simp [IsOne, isUnitQuantity]

theorem validate_spec {s : State K} (hs : Good s) (u : UArg) (hu : u.Valid) :
    (∃ e, (validate s s.store u).1 = .error e ∧ s.observe.units u = .error e) ∨
    (∃ v st d, validate s s.store u = (.ok v, st) ∧ s.observe.units u = .ok d ∧ Fresh s.store (v, st) d) := by
  cases u with
  | lit d => exact Or.inr ⟨_, _, d, rfl, rfl, fresh_new hs.nodup hu⟩
  | var j =>
    simp only [validate, VState.units, State.observe, List.getElem?_map]
    cases hj : s.vars[j]? with
    | none => exact Or.inl ⟨_, rfl, rfl⟩
    | some p => exact Or.inr ⟨_, _, _, rfl, rfl, fresh_copy hs.nodup p⟩
  | qty i =>
    simp only [validate, VState.units, State.observe, List.getElem?_map]
    cases hj : s.qs[i]? with
    | none => exact Or.inl ⟨_, rfl, rfl⟩
    | some q =>
      by_cases h1 : isUnitQuantity q.mag = true
      · refine Or.inr ⟨(dimensionality s.store q).1, (dimensionality s.store q).2, deref s.store q.dptr,
          by simp only [h1, if_true], by simp only [Option.map_some, isOne_iff.2 h1, if_true], ?_⟩
        exact fresh_copy hs.nodup q.dptr
      · exact Or.inl ⟨.valueError, by simp [h1], by simp [mt isOne_iff.1 h1]⟩

theorem pdict_spec {s : State K} (hs : Good s) {w : World K} {op : Op} {a b : QObj K}
    {r : Quantity K} (h : arithValue w op (value s.store a) (value s.store b) = .ok r) :
    Fresh s.store (pdict s.store op a b) r.dim := by
  have na := deref_nodup hs.nodup a.dptr
  have chk : ∀ (x y : Quantity K) (f : UF2) (g : K → K → K) (r : Quantity K),
      applyUF2 w f g (.quantity x) (.quantity y) = .ok r →
      ufunc2Dim w f (.quantity x) (.quantity y) = .ok r.dim := by
    intro x y f g r h
    simp only [applyUF2] at h
    split at h
    · cases h
    · next d hd =>
      split at h
      · cases h
      · cases h; exact hd
  have uni : ∀ (x y : Quantity K) (d : Dim), dCheckUniform w (.quantity x) (.quantity y) = .ok d → d = x.dim := by
    intro x y d h
    simp only [dCheckUniform] at h
    split at h
    · cases h; rfl
    · cases h
  have sc : ∀ (f : UF2) (g : K → K → K) (x y : Quantity K)
      (hf : ∀ x y, ufunc2Dim w f x y = dCheckUniform w x y) (r : Quantity K),
      (match Quantity.scaleOther w x (.quantity y) with
        | .error e => (.error e : Py (Quantity K))
        | .ok o => applyUF2 w f g (.quantity x) (.quantity o)) = .ok r → r.dim = x.dim := by
    intro f g x y hf r h
    split at h
    · cases h
    · have := chk _ _ _ _ _ h
      rw [hf] at this
      exact uni _ _ _ this
  cases op with
  | mul =>
    simp only [arithValue, Quantity.mul] at h
    have := chk _ _ _ _ _ h
    simp only [ufunc2Dim, dMultiply, value] at this
    rw [← Except.ok.inj this]
    exact fresh_new hs.nodup (nodup_mul na _)
  | div =>
    simp only [arithValue, Quantity.truediv] at h
    have := chk _ _ _ _ _ h
    simp only [ufunc2Dim, dDivide, value] at this
    rw [← Except.ok.inj this]
    exact fresh_new hs.nodup (nodup_div na _)
  | floordiv =>
    simp only [arithValue, Quantity.floordiv] at h
    have := chk _ _ _ _ _ h
    simp only [ufunc2Dim, dDivide, value] at this
    rw [← Except.ok.inj this]
    exact fresh_new hs.nodup (nodup_div na _)
  | add =>
    rw [show r.dim = (value s.store a).dim from sc _ _ _ _ (fun _ _ => rfl) r h]
    exact fresh_copy hs.nodup a.dptr
  | sub =>
    rw [show r.dim = (value s.store a).dim from sc _ _ _ _ (fun _ _ => rfl) r h]
    exact fresh_copy hs.nodup a.dptr
  | mod =>
    rw [show r.dim = (value s.store a).dim from sc _ _ _ _ (fun _ _ => rfl) r h]
    exact fresh_copy hs.nodup a.dptr

/-- One step agrees with the machine on values: same exception, same observations. -/
def Agrees (c : Cmd K) (s : State K) (r : Option PyErr × State K) (v : Option PyErr × VState K) : Prop :=
  Effect c s r.2 ∧ (s.NoAlias → r.1 = v.1 ∧ r.2.observe = v.2)

theorem agrees_error {c : Cmd K} {s : State K} (e : PyErr) : Agrees c s (some e, s) (some e, s.observe) :=
  ⟨.keep, fun _ => ⟨rfl, rfl⟩⟩

theorem agrees_bindDim {c : Cmd K} {s : State K} (hs : Good s) {r : Nat × List Dim} {d : Dim}
    (h : Fresh s.store r d) : Agrees c s (bindDim s r) (s.observe.addDim (.ok d)) :=
  ⟨.addDim h, fun _ => ⟨rfl, observe_addDim hs h⟩⟩

theorem agrees_bindQ {c : Cmd K} {s : State K} (hs : Good s) {r : Nat × List Dim} {d : Dim}
    (h : Fresh s.store r d) (m : NDArr K) : Agrees c s (bindQ s m r) (s.observe.addQ (.ok ⟨m, d⟩)) :=
  ⟨.addQs h [m], fun _ => ⟨rfl, observe_addQs hs h [m]⟩⟩

theorem agrees_setQ {c : Cmd K} {s : State K} (hs : Good s) {r : Nat × List Dim} {d : Dim}
    (h : Fresh s.store r d) {i : Nat} {q : QObj K} (hq : s.qs[i]? = some q) (m : NDArr K)
    (he : c.assigns = some i) :
    Agrees c s (none, setQ s i m r) (s.observe.setQ i (.ok ⟨m, d⟩)) :=
  ⟨.setQ hq he h m, fun _ => ⟨rfl, observe_setQ hs h i m⟩⟩

theorem agrees_write {c : Cmd K} {s : State K} (hs : Good s) {j p : Nat} (h : s.vars[j]? = some p) (e : Option PyErr)
    {d : Dim} (hd : Nodup d) (he : c.edits = some j) : Agrees c s (e, write s p d) (e, s.observe.setDim j d) :=
  ⟨.write d h hd he, fun hna => ⟨rfl, observe_write hs hna h d⟩⟩

theorem simplifiedLoop_nodup {w : World K} : ∀ (fuel : Nat) (l : List (UKey × ℚ)) (rq r : SQ K),
    Nodup rq.dim → simplifiedLoop w fuel rq l = .ok r → Nodup r.dim
  | fuel, [], rq, r, h, e => by rw [simplifiedLoop] at e; cases e; exact h
  | fuel, (u, d) :: rest, rq, r, h, e => by
    rw [simplifiedLoop] at e
    split at e
    · cases e
    · exact simplifiedLoop_nodup fuel rest _ r (nodup_mul h _) e

theorem step_agrees {s : State K} (hs : Good s) (np2 : Bool) (w : World K) (fuel : Nat) (c : Cmd K)
    (hc : c.Valid) : Agrees c s (step np2 w fuel s c) (s.observe.step np2 w fuel c) := by
  have nd := fun p => deref_nodup hs.nodup p
  cases c with
  | newDim d => exact agrees_bindDim hs (fresh_new hs.nodup hc)
  | dimOf i =>
    simp only [step, VState.step, observe_qty]
    cases s.qs[i]? with
    | none => exact agrees_error _
    | some q => exact agrees_bindDim hs (fresh_copy hs.nodup q.dptr)
  | copyDim j =>
    simp only [step, VState.step, observe_dim]
    cases s.vars[j]? with
    | none => exact agrees_error _
    | some p => exact agrees_bindDim hs (fresh_copy hs.nodup p)
  | binDim op j k =>
    simp only [step, VState.step, observe_dim]
    cases s.vars[j]? with
    | none => exact agrees_error _
    | some p =>
      cases s.vars[k]? with
      | none => exact agrees_error _
      | some r =>
        cases op with
        | mul => exact agrees_bindDim hs (fresh_new hs.nodup (nodup_mul (nd _) _))
        | div => exact agrees_bindDim hs (fresh_new hs.nodup (nodup_div (nd _) _))
        | add =>
          by_cases h : w.deq (deref s.store p) (deref s.store r) = true
          · have h' : Dim.eq w.hasher w.order (deref s.store p) (deref s.store r) = true := h
            simp only [h, if_true, bind, Except.bind, Dim.add, h']
            exact agrees_bindDim hs (fresh_copy hs.nodup p)
          · have h' : ¬ Dim.eq w.hasher w.order (deref s.store p) (deref s.store r) = true := h
            simp only [h, bind, Except.bind, Dim.add, h']
            exact agrees_error _
        | sub =>
          by_cases h : w.deq (deref s.store p) (deref s.store r) = true
          · have h' : Dim.eq w.hasher w.order (deref s.store p) (deref s.store r) = true := h
            simp only [h, if_true, bind, Except.bind, Dim.sub, h']
            exact agrees_bindDim hs (fresh_copy hs.nodup p)
          · have h' : ¬ Dim.eq w.hasher w.order (deref s.store p) (deref s.store r) = true := h
            simp only [h, bind, Except.bind, Dim.sub, h']
            exact agrees_error _
  | powDim j p =>
    simp only [step, VState.step, observe_dim]
    cases s.vars[j]? with
    | none => exact agrees_error _
    | some o => exact agrees_bindDim hs (fresh_new hs.nodup (nodup_pow (nd _) _))
  | simplifiedDim j =>
    simp only [step, VState.step, observe_dim]
    cases hj : s.vars[j]? with
    | none => exact agrees_error _
    | some p =>
      by_cases h : (deref s.store p).isEmpty = true
      · simp only [h, if_true, Except.bind, Dim.simplified]
        refine ⟨.shared hj ⟨p, hj, List.isEmpty_iff.1 h⟩, fun _ => ⟨rfl, ?_⟩⟩
        simp [bindDim, State.observe, VState.addDim]
      · simp only [h, Except.bind, Dim.simplified]
        cases hl : simplifiedLoop w fuel ⟨1, []⟩ (deref s.store p) with
        | error e => exact agrees_error _
        | ok rq =>
          exact agrees_bindDim hs (fresh_new hs.nodup
            (simplifiedLoop_nodup _ _ _ _ (by simp [Dict.Nodup]) hl))
  | ibinDim op j k =>
    simp only [step, VState.step, observe_dim]
    cases hj : s.vars[j]? with
    | none => exact agrees_error _
    | some p =>
      cases hk : s.vars[k]? with
      | none => exact agrees_error _
      | some r =>
        have hpr : s.NoAlias → (p = r ↔ j = k) := by
          intro hna
          constructor
          · rintro rfl; exact hna j k ⟨_, hj, hk⟩
          · rintro rfl; rw [hj] at hk; exact Option.some.inj hk
        cases op with
        | mul =>
          by_cases h : p = r
          · subst h
            have nn : Nodup (Dim.imulSelf (deref s.store p)).2 :=
              liveLoop_nodup (fun d kv h => nodup_mulStep h kv) _ _ _ _ (nd _)
            have a := agrees_write (c := .ibinDim .mul j k) hs hj (Dim.imulSelf (deref s.store p)).1 nn rfl
            refine ⟨by simpa using a.1, fun hna => ?_⟩
            simpa [(hpr hna).1 rfl] using a.2 hna
          · have a := agrees_write (c := .ibinDim .mul j k) hs hj none (d := Dim.imul (deref s.store p) (deref s.store r))
              (nodup_mul (nd p) (deref s.store r)) rfl
            refine ⟨by simpa [h] using a.1, fun hna => ?_⟩
            have hjk : ¬ j = k := fun e => h ((hpr hna).2 e)
            simpa [h, hjk] using a.2 hna
        | div =>
          by_cases h : p = r
          · subst h
            have nn : Nodup (Dim.itruedivSelf (deref s.store p)).2 :=
              liveLoop_nodup (fun d kv h => divStep_nodup h kv) _ _ _ _ (nd _)
            have a := agrees_write (c := .ibinDim .div j k) hs hj (Dim.itruedivSelf (deref s.store p)).1 nn rfl
            refine ⟨by simpa using a.1, fun hna => ?_⟩
            simpa [(hpr hna).1 rfl] using a.2 hna
          · have a := agrees_write (c := .ibinDim .div j k) hs hj none (d := Dim.itruediv (deref s.store p) (deref s.store r))
              (nodup_div (nd p) (deref s.store r)) rfl
            refine ⟨by simpa [h] using a.1, fun hna => ?_⟩
            have hjk : ¬ j = k := fun e => h ((hpr hna).2 e)
            simpa [h, hjk] using a.2 hna
        | add =>
          by_cases h : w.deq (deref s.store p) (deref s.store r) = true
          · simp only [h, if_true]; exact ⟨.keep, fun _ => ⟨rfl, rfl⟩⟩
          · simp only [h]; exact agrees_error _
        | sub =>
          by_cases h : w.deq (deref s.store p) (deref s.store r) = true
          · simp only [h, if_true]; exact ⟨.keep, fun _ => ⟨rfl, rfl⟩⟩
          · simp only [h]; exact agrees_error _
  | ipowDim j e =>
    simp only [step, VState.step, observe_dim]
    cases hj : s.vars[j]? with
    | none => exact agrees_error _
    | some p => exact agrees_write hs hj none (nodup_pow (nd p) e) rfl
  | setKey j u e =>
    simp only [step, VState.step, observe_dim]
    cases hj : s.vars[j]? with
    | none => exact agrees_error _
    | some p => exact agrees_write hs hj none (nodup_set (nd p) u e) rfl
  | delKey j u =>
    simp only [step, VState.step, observe_dim]
    cases hj : s.vars[j]? with
    | none => exact agrees_error _
    | some p =>
      by_cases h : (Dict.get? (deref s.store p) u).isSome = true
      · simp only [h, if_true]; exact agrees_write hs hj none (nodup_pop (nd p) u) rfl
      · simp only [h]; exact agrees_error _
  | clear j =>
    simp only [step, VState.step, observe_dim]
    cases hj : s.vars[j]? with
    | none => exact agrees_error _
    | some p => exact agrees_write hs hj none (by simp [Dict.Nodup]) rfl
  | update j k =>
    simp only [step, VState.step, observe_dim]
    cases hj : s.vars[j]? with
    | none => exact agrees_error _
    | some p =>
      cases hk : s.vars[k]? with
      | none => exact agrees_error _
      | some r => exact agrees_write hs hj none (updateDict_nodup _ (nd p)) rfl
  | newQ a u =>
    simp only [step, VState.step]
    rcases validate_spec hs u hc with ⟨e, h1, h2⟩ | ⟨v, st, d, h1, h2, h3⟩
    · rw [show validate s s.store u = (.error e, (validate s s.store u).2) from Prod.ext h1 rfl, h2]
      exact agrees_error _
    · rw [h1, h2]
      have h4 := fresh_construct (K := K) h3.nodup h3.lt
      rw [h3.val] at h4
      exact agrees_bindQ hs (h3.trans h4) a
  | newUncertain a u =>
    simp only [step, VState.step]
    rcases validate_spec hs u hc with ⟨e, h1, h2⟩ | ⟨v, st, d, h1, h2, h3⟩
    · rw [show validate s s.store u = (.error e, (validate s s.store u).2) from Prod.ext h1 rfl, h2]
      exact agrees_error _
    · rw [h1, h2]
      have h4 := fresh_construct (K := K) h3.nodup h3.lt
      rw [h3.val] at h4
      have h5 := h3.trans h4
      exact ⟨.addQs h5 [a, ⟨a.shape, fun _ => 0⟩], fun _ => ⟨rfl, observe_addQs hs h5 [a, ⟨a.shape, fun _ => 0⟩]⟩⟩
  | viewQ i f =>
    simp only [step, VState.step, observe_qty]
    cases s.qs[i]? with
    | none => exact agrees_error _
    | some q => exact agrees_bindQ hs (fresh_copy hs.nodup q.dptr) _
  | itemQ i f =>
    simp only [step, VState.step, observe_qty]
    cases s.qs[i]? with
    | none => exact agrees_error _
    | some q =>
      simp only [Except.bind]
      cases f q.mag with
      | error e => exact agrees_error _
      | ok x =>
        have h3 := fresh_copy hs.nodup q.dptr
        have h4 := fresh_construct (K := K) h3.nodup h3.lt
        rw [h3.val] at h4
        exact agrees_bindQ hs (h3.trans h4) _
  | unitsQ i =>
    simp only [step, VState.step, observe_qty]
    cases s.qs[i]? with
    | none => exact agrees_error _
    | some q =>
      have h2 : Fresh s.store (dimensionality s.store q) _ := fresh_copy hs.nodup q.dptr
      have h3 := fresh_copy h2.nodup (dimensionality s.store q).1
      rw [h2.val] at h3
      have h4 := fresh_construct (K := K) h3.nodup h3.lt
      rw [h3.val] at h4
      exact agrees_bindQ hs ((h2.trans h3).trans h4) _
  | rescaleQ i u =>
    simp only [step, VState.step, observe_qty]
    cases hq : s.qs[i]? with
    | none => exact agrees_error _
    | some q =>
      simp only [Except.bind]
      rcases validate_spec hs u hc with ⟨e, h1, h2⟩ | ⟨v, st, d, h1, h2, h3⟩
      · rw [show validate s s.store u = (.error e, (validate s s.store u).2) from Prod.ext h1 rfl, h2]
        exact agrees_error _
      · have hv : deref st v = d := h3.val
        have hqd : deref st q.dptr = deref s.store q.dptr :=
          deref_prefix h3.pre (hs.qs _ (List.mem_of_getElem? hq))
        rw [h1, h2]
        simp only [hv, hqd, Quantity.rescale]
        by_cases he : w.deq (deref s.store q.dptr) d = true
        · simp only [he, if_true]
          have h4 : Fresh st (finalize st (some q)) _ := fresh_copy h3.nodup q.dptr
          rw [hqd] at h4
          exact agrees_bindQ hs (h3.trans h4) _
        · simp only [he]
          cases hcf : w.convFactor (deref s.store q.dptr) d with
          | error e => cases e <;> exact agrees_error _
          | ok cf =>
            have h4 := fresh_construct (K := K) h3.nodup h3.lt
            rw [h3.val] at h4
            have h5 := fresh_copy h4.nodup (construct (K := K) st v).1
            rw [h4.val] at h5
            have h6 := fresh_construct (K := K) h5.nodup h5.lt
            rw [h5.val] at h6
            exact agrees_bindQ hs (((h3.trans h4).trans h5).trans h6) _
  | simplifiedQ i =>
    simp only [step, VState.step, observe_qty]
    cases s.qs[i]? with
    | none => exact agrees_error _
    | some q =>
      simp only [Except.bind, value]
      cases hr : (Quantity.simplified w fuel ⟨q.mag, deref s.store q.dptr⟩) with
      | error e => exact agrees_error _
      | ok r =>
        refine agrees_bindQ hs (fresh_new hs.nodup ?_) _
        simp only [Quantity.simplified] at hr
        cases hl : simplifiedLoop w fuel ⟨1, []⟩ (deref s.store q.dptr) with
        | error e => simp only [hl] at hr; cases hr
        | ok rq =>
          simp only [hl] at hr
          cases hr
          exact simplifiedLoop_nodup _ _ _ _ (by simp [Dict.Nodup]) hl
  | arithQ op i k =>
    simp only [step, VState.step, observe_qty]
    cases s.qs[i]? with
    | none => exact agrees_error _
    | some a =>
      cases s.qs[k]? with
      | none => exact agrees_error _
      | some b =>
        simp only [Except.bind]
        cases hr : arithValue w op (value s.store a) (value s.store b) with
        | error e =>
          rw [show arithValue w op ⟨a.mag, deref s.store a.dptr⟩ ⟨b.mag, deref s.store b.dptr⟩ = _ from hr]
          exact agrees_error _
        | ok r =>
          rw [show arithValue w op ⟨a.mag, deref s.store a.dptr⟩ ⟨b.mag, deref s.store b.dptr⟩ = _ from hr]
          exact agrees_bindQ hs (pdict_spec hs hr) _
  | powQ i e =>
    simp only [step, VState.step, observe_qty]
    cases s.qs[i]? with
    | none => exact agrees_error _
    | some q =>
      simp only [Except.bind, value, Quantity.pow, dPower]
      by_cases hd : hasDims e.dim = true
      · simp only [hd, if_true]; cases uniformExp e.vals <;> exact agrees_error _
      · simp only [hd]
        cases uniformExp e.vals with
        | error e => exact agrees_error _
        | ok p =>
          cases NDArr.bin (fun x p => rpow x p) q.mag e.vals with
          | error e => exact agrees_error _
          | ok m => exact agrees_bindQ hs (fresh_new hs.nodup (nodup_pow (nd _) _)) _
  | setUnitsQ i u =>
    simp only [step, VState.step, observe_qty]
    cases hq : s.qs[i]? with
    | none => exact agrees_error _
    | some q =>
      rcases validate_spec hs u hc with ⟨e, h1, h2⟩ | ⟨v, st, d, h1, h2, h3⟩
      · rw [show validate s s.store u = (.error e, (validate s s.store u).2) from Prod.ext h1 rfl, h2]
        exact agrees_error _
      · have hv : deref st v = d := h3.val
        have hqd : deref st q.dptr = deref s.store q.dptr :=
          deref_prefix h3.pre (hs.qs _ (List.mem_of_getElem? hq))
        rw [h1, h2]
        have hsame : s.observe.qs.set i ⟨q.mag, deref s.store q.dptr⟩ = s.observe.qs := by
          apply List.ext_getElem?
          intro k
          rw [List.getElem?_set]
          by_cases hik : i = k
          · subst hik
            obtain ⟨h8, h9⟩ := List.getElem?_eq_some_iff.1 hq
            simp [State.observe, h8, h9]
          · simp [hik]
        have hkeep : ∀ e, Agrees (.setUnitsQ i u) s (e, s) (e, ⟨s.observe.dims, s.observe.qs.set i ⟨q.mag, deref s.store q.dptr⟩⟩) := by
          intro e
          refine ⟨.keep, fun _ => ⟨rfl, ?_⟩⟩
          rw [hsame]
        simp only [hv, hqd, Quantity.setUnits]
        by_cases he : w.deq (deref s.store q.dptr) d = true
        · simp only [he, if_true]
          exact hkeep none
        · simp only [he]
          cases hcf : w.convFactor (deref s.store q.dptr) d with
          | error e => cases e <;> exact hkeep _
          | ok cf =>
            have h4 := fresh_construct (K := K) h3.nodup h3.lt
            rw [h3.val] at h4
            have h5 := fresh_copy h4.nodup (construct (K := K) st v).1
            rw [h4.val] at h5
            exact agrees_setQ hs ((h3.trans h4).trans h5) hq _ rfl
  | iarithQ op i k =>
    simp only [step, VState.step, observe_qty]
    cases hi : s.qs[i]? with
    | none => exact agrees_error _
    | some a =>
      cases s.qs[k]? with
      | none => exact agrees_error _
      | some b =>
        simp only [bind, Except.bind]
        cases hr : arithValue w op (value s.store a) (value s.store b) with
        | error e =>
          rw [show arithValue w op ⟨a.mag, deref s.store a.dptr⟩ ⟨b.mag, deref s.store b.dptr⟩ = _ from hr]
          exact agrees_error _
        | ok r =>
          rw [show arithValue w op ⟨a.mag, deref s.store a.dptr⟩ ⟨b.mag, deref s.store b.dptr⟩ = _ from hr]
          by_cases hsh : r.mag.shape ≠ a.mag.shape
          · simp only [hsh, if_true, ne_eq, not_false_eq_true]; exact agrees_error _
          · simp only [hsh, if_false]
            cases np2 with
            | true => exact ⟨.setMag hi rfl r.mag, fun _ => ⟨rfl, observe_setMag i r.mag a.dptr⟩⟩
            | false => exact agrees_setQ hs (pdict_spec hs hr) hi _ rfl
  | fillQ i k =>
    simp only [step, VState.step, observe_qty]
    cases hi : s.qs[i]? with
    | none => exact agrees_error _
    | some a =>
      cases s.qs[k]? with
      | none => exact agrees_error _
      | some b =>
        simp only [bind, Except.bind]
        rcases b.mag.toList with _ | ⟨c, _ | ⟨c', l⟩⟩
        · exact agrees_error _
        · exact agrees_setQ hs (fresh_copy hs.nodup b.dptr) hi _ rfl
        · exact agrees_error _
  | outQ f i out =>
    simp only [step, VState.step, observe_qty]
    cases s.qs[i]? with
    | none => exact agrees_error _
    | some a =>
      cases ho : s.qs[out]? with
      | none => exact agrees_error _
      | some o =>
        simp only [bind, Except.bind]
        cases f a.mag with
        | error e => exact agrees_error _
        | ok m =>
          by_cases hsh : m.shape ≠ o.mag.shape
          · simp only [hsh, if_true, ne_eq, not_false_eq_true]; exact agrees_error _
          · simp only [hsh, if_false]
            exact agrees_setQ hs (fresh_copy hs.nodup a.dptr) ho _ rfl

theorem Reached.good {np2 : Bool} {w : World K} {fuel : Nat} {s : State K} (h : Reached np2 w fuel s) :
    Good s := by
  induction h with
  | start => exact good_empty
  | step c hc _ ih => exact (step_agrees ih np2 w fuel c hc).1.good ih

end ops
end PQ.Refs
