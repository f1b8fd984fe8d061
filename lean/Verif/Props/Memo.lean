import Verif.Spec.Memo
import Mathlib.Data.List.Basic
import Mathlib.Data.List.Perm.Subperm
import Mathlib.Data.List.Forall2
import Mathlib.Data.List.Nodup

/-!
# Property C41: memoization is transparent
-/

namespace PQ.Memo

/-! ## Keys -/

theorem Arg.eq_iff (a b : Arg) : a.eq b = true ↔ a.Alike b := by
  have num : ∀ (a : Arg) (q : ℚ), a.num = some q ↔ a.IsNumber q := by
    intro a q
    constructor
    · intro h
      cases a with
      | int n => cases h; exact .int n
      | float x =>
        have e : x = q := Option.some.inj h
        rw [← e]; exact .float x
      | bool b => cases b <;> cases h; exacts [.false, .true]
      | str s => cases h
      | obj n => cases h
      | list l => cases h
    · intro h
      cases h <;> rfl
  unfold Arg.eq Arg.Alike
  rcases ha : a.num with _ | x <;> rcases hb : b.num with _ | y <;> simp only
  · refine ⟨fun h => .inl (by simpa using h), ?_⟩
    rintro (h | ⟨q, h, -⟩)
    · simpa using h
    · rw [← num, ha] at h; cases h
  · simp only [Bool.false_eq_true, false_iff]
    rintro (rfl | ⟨q, h, -⟩)
    · rw [ha] at hb; cases hb
    · rw [← num, ha] at h; cases h
  · simp only [Bool.false_eq_true, false_iff]
    rintro (rfl | ⟨q, -, h⟩)
    · rw [ha] at hb; cases hb
    · rw [← num, hb] at h; cases h
  · rw [decide_eq_true_eq]
    constructor
    · rintro rfl
      exact .inr ⟨x, (num a x).1 ha, (num b x).1 hb⟩
    · rintro (rfl | ⟨q, h1, h2⟩)
      · rw [ha] at hb; exact Option.some.inj hb
      · rw [← num, ha] at h1
        rw [← num, hb] at h2
        rw [Option.some.inj h1, Option.some.inj h2]

theorem tupleEq_iff (a b : List Arg) :
    tupleEq a b = true ↔ List.Forall₂ (fun x y => x.eq y = true) a b := by
  induction a generalizing b with
  | nil => cases b <;> simp [tupleEq]
  | cons x a ih => cases b <;> simp [tupleEq, ih]

theorem Arg.eq_refl (a : Arg) : a.eq a = true := by
  cases a <;> simp [Arg.eq, Arg.num]

theorem itemsEq_iff {k l : List (String × Arg)} (hk : (k.map Prod.fst).Nodup)
    (hl : (l.map Prod.fst).Nodup) :
    itemsEq k l = true ↔
      (∀ n x, (n, x) ∈ k → ∃ y, (n, y) ∈ l ∧ x.eq y = true) ∧
      (∀ n y, (n, y) ∈ l → ∃ x, (n, x) ∈ k ∧ x.eq y = true) := by
  have h1 : itemsEq k l = true ↔ k.length = l.length ∧
      (∀ n x, (n, x) ∈ k → ∃ y, (n, y) ∈ l ∧ x.eq y = true) := by
    simp only [itemsEq, Bool.and_eq_true, beq_iff_eq, List.all_eq_true, List.any_eq_true, Prod.forall,
      Prod.exists]
    refine and_congr Iff.rfl (forall_congr' fun n => forall_congr' fun x => imp_congr Iff.rfl ?_)
    constructor
    · rintro ⟨m, y, h, rfl, h2⟩; exact ⟨y, h, h2⟩
    · rintro ⟨y, h, h2⟩; exact ⟨n, y, h, rfl, h2⟩
  rw [h1]
  constructor
  · rintro ⟨hlen, hf⟩
    refine ⟨hf, ?_⟩
    have hsub : k.map Prod.fst ⊆ l.map Prod.fst := by
      intro n hn
      obtain ⟨⟨m, x⟩, hm, rfl⟩ := List.mem_map.1 hn
      obtain ⟨y, hy, -⟩ := hf _ _ hm
      exact List.mem_map.2 ⟨_, hy, rfl⟩
    have hperm : (k.map Prod.fst).Perm (l.map Prod.fst) :=
      (List.subperm_of_subset hk hsub).perm_of_length_le (by simp [hlen])
    intro n y hy
    have : n ∈ k.map Prod.fst := hperm.mem_iff.2 (List.mem_map.2 ⟨_, hy, rfl⟩)
    obtain ⟨⟨m, x⟩, hm, rfl⟩ := List.mem_map.1 this
    obtain ⟨y', hy', he⟩ := hf _ _ hm
    have hyy : y = y' := by
      have := List.inj_on_of_nodup_map hl hy hy' rfl
      simpa using this
    subst hyy
    exact ⟨x, hm, he⟩
  · rintro ⟨hf, hb⟩
    refine ⟨?_, hf⟩
    have s1 : k.map Prod.fst ⊆ l.map Prod.fst := by
      intro n hn
      obtain ⟨⟨m, x⟩, hm, rfl⟩ := List.mem_map.1 hn
      obtain ⟨y, hy, -⟩ := hf _ _ hm
      exact List.mem_map.2 ⟨_, hy, rfl⟩
    have s2 : l.map Prod.fst ⊆ k.map Prod.fst := by
      intro n hn
      obtain ⟨⟨m, x⟩, hm, rfl⟩ := List.mem_map.1 hn
      obtain ⟨y, hy, -⟩ := hb _ _ hm
      exact List.mem_map.2 ⟨_, hy, rfl⟩
    have l1 := (List.subperm_of_subset hk s1).length_le
    have l2 := (List.subperm_of_subset hl s2).length_le
    simp only [List.length_map] at l1 l2
    omega

theorem keyEq_iff {k k' : ℕ × Actuals} (h : (k.2.kwargs.map Prod.fst).Nodup)
    (h' : (k'.2.kwargs.map Prod.fst).Nodup) :
    keyEq k k' = true ↔ k.1 = k'.1 ∧ EqualArgs k.2 k'.2 := by
  simp only [keyEq, Bool.and_eq_true, beq_iff_eq, tupleEq_iff, itemsEq_iff h h', EqualArgs, and_assoc, Arg.eq_iff]

/-! ## Which keys are evaluated -/

/-- What a call does to cache and evaluation list. -/
theorem call_evals (fs : ℕ → Fun) (s : St) (i : ℕ) (a : Actuals) :
    ((s.call fs i a).2.cache = s.cache ∧ (s.call fs i a).2.evals = s.evals) ∨
    (s.find (i, a) = none ∧ (∃ p, (s.call fs i a).2.cache = s.cache ++ [((i, a), p)]) ∧
      (s.call fs i a).2.evals = s.evals ++ [(i, a)]) := by
  unfold St.call
  split
  · rcases hf : s.find (i, a) with _ | e
    · simp only
      rcases hr : fs i a with e | r
      · exact .inl ⟨rfl, rfl⟩
      · refine .inr ⟨trivial, ⟨((s.alloc r.val).1, r.copyable), ?_⟩, ?_⟩ <;>
        · simp only [St.finish]; split <;> rfl
    · refine .inl ⟨?_, ?_⟩ <;> · simp only [St.finish]; split <;> rfl
  · exact .inl ⟨rfl, rfl⟩

theorem Client.evals {fs : ℕ → Fun} {s : St} {held : List ℕ} (hc : Client fs s held) :
    s.evals = s.cache.map Prod.fst ∧ (∀ k ∈ s.evals, (k.2.kwargs.map Prod.fst).Nodup) ∧
    s.evals.Pairwise (fun k k' => ¬ keyEq k k' = true) := by
  have step : ∀ {s : St} (i : ℕ) (a : Actuals), (a.kwargs.map Prod.fst).Nodup →
      (s.evals = s.cache.map Prod.fst ∧ (∀ k ∈ s.evals, (k.2.kwargs.map Prod.fst).Nodup) ∧
        s.evals.Pairwise (fun k k' => ¬ keyEq k k' = true)) →
      ((s.call fs i a).2.evals = (s.call fs i a).2.cache.map Prod.fst ∧
        (∀ k ∈ (s.call fs i a).2.evals, (k.2.kwargs.map Prod.fst).Nodup) ∧
        (s.call fs i a).2.evals.Pairwise (fun k k' => ¬ keyEq k k' = true)) := by
    rintro s i a hn ⟨h1, h2, h3⟩
    rcases call_evals fs s i a with ⟨e1, e2⟩ | ⟨hf, ⟨p, e1⟩, e2⟩
    · rw [e1, e2]; exact ⟨h1, h2, h3⟩
    · rw [e1, e2]
      refine ⟨by simp [h1], ?_, ?_⟩
      · intro k hk
        rcases List.mem_append.1 hk with hk | hk
        · exact h2 k hk
        · rw [List.mem_singleton.1 hk]; exact hn
      · rw [List.pairwise_append]
        refine ⟨h3, by simp, ?_⟩
        intro k hk k' hk'
        rw [List.mem_singleton.1 hk']
        intro he
        rw [h1] at hk
        obtain ⟨e, hm, rfl⟩ := List.mem_map.1 hk
        simp only [St.find, Option.map_eq_none_iff, List.find?_eq_none] at hf
        exact hf e hm he
  induction hc with
  | start => exact ⟨rfl, by simp, List.Pairwise.nil⟩
  | call i a _ hn hr ih => have := step i a hn ih; rw [hr] at this; exact this
  | failed i a _ hn hr ih => have := step i a hn ih; rw [hr] at this; exact this
  | mutate x c _ _ _ ih => exact ih

/-- C41, the point of memoizing: in no history is a function evaluated to a value twice on arguments
that compare equal. -/
theorem C41_once {fs : ℕ → Fun} {s : St} {held : List ℕ} (hc : Client fs s held) :
    s.evals.Pairwise (fun k k' => ¬ (k.1 = k'.1 ∧ EqualArgs k.2 k'.2)) := by
  obtain ⟨-, h2, h3⟩ := hc.evals
  refine List.Pairwise.imp_of_mem ?_ h3
  intro k k' hk hk' h
  rwa [keyEq_iff (h2 k hk) (h2 k' hk')] at h

/-! ## Transparency -/

/-- What holds in every history, when results are flat. -/
structure MemoInv (fs : ℕ → Fun) (s : St) (held : List ℕ) : Prop where
  bound : ∀ x ∈ held, x < s.heap.length
  cached : ∀ e ∈ s.cache, (e.1.2.kwargs.map Prod.fst).Nodup ∧ e.2.1 ∉ held ∧ e.2.2 = true ∧
    ∃ r, fs e.1.1 e.1.2 = .ok r ∧ r.val.parts = [] ∧ s.heap[e.2.1]? = some ⟨r.val.own, []⟩

theorem St.copy_read (s : St) (a : ℕ) (c : Cell) (hc : s.heap[a]? = some c) (hp : c.parts = []) :
    (s.copy a).2.heap = s.heap ++ [c] ∧ (s.copy a).2.read (s.copy a).1 = some ⟨c.own, []⟩ := by
  simp [St.copy, hc, St.read, hp]

/-- A call: what it returns, and that the invariant is kept. -/
theorem call_spec {fs : ℕ → Fun} (hflat : ∀ i, Flat (fs i)) (hresp : ∀ i, Respects (fs i))
    {s : St} {held : List ℕ} (hi : MemoInv fs s held) (i : ℕ) (a : Actuals)
    (hn : (a.kwargs.map Prod.fst).Nodup) (hh : a.hashable = true) :
    match fs i a with
    | .error e => s.call fs i a = (.error e, s)
    | .ok r => ∃ (x : ℕ) (s' : St), s.call fs i a = (.ok x, s') ∧ s'.read x = some r.val ∧
        s.heap.length ≤ x ∧ s'.heap[x]? = some ⟨r.val.own, []⟩ ∧ MemoInv fs s' (x :: held) := by
  have grow : ∀ (s' : St) (ext : List Cell) (x : ℕ), s'.heap = s.heap ++ ext → s.heap.length ≤ x →
      x < s'.heap.length →
      (∀ e ∈ s'.cache, e ∈ s.cache ∨ ((e.1.2.kwargs.map Prod.fst).Nodup ∧ e.2.1 ≠ x ∧
        s.heap.length ≤ e.2.1 ∧ e.2.2 = true ∧
        ∃ r, fs e.1.1 e.1.2 = .ok r ∧ r.val.parts = [] ∧ s'.heap[e.2.1]? = some ⟨r.val.own, []⟩)) →
      MemoInv fs s' (x :: held) := by
    intro s' ext x hext hx hxlt hc
    refine ⟨?_, ?_⟩
    · intro y hy
      rcases List.mem_cons.1 hy with rfl | hy
      · exact hxlt
      · have := hi.bound y hy
        rw [hext, List.length_append]; omega
    · intro e he
      rcases hc e he with h | ⟨h1, h2, h3, h4, h5⟩
      · obtain ⟨c1, c2, c3, r, c4, c5, c6⟩ := hi.cached e h
        have hlt : e.2.1 < s.heap.length := by
          by_contra hge
          rw [List.getElem?_eq_none (by omega)] at c6; exact absurd c6 (by simp)
        refine ⟨c1, ?_, c3, r, c4, c5, ?_⟩
        · rw [List.mem_cons, not_or]; exact ⟨by omega, c2⟩
        · rw [hext, List.getElem?_append_left hlt]; exact c6
      · refine ⟨h1, ?_, h4, h5⟩
        rw [List.mem_cons, not_or]
        refine ⟨h2, fun hm => ?_⟩
        have := hi.bound _ hm
        omega
  unfold St.call
  rw [if_pos hh]
  rcases hf : s.find (i, a) with _ | e
  · simp only
    rcases hr : fs i a with e | r
    · rfl
    · obtain ⟨hcp, hparts⟩ := hflat i a r hr
      simp only [hcp, St.finish, if_true]
      have hal : (s.alloc r.val).1 = s.heap.length ∧
          (s.alloc r.val).2.heap = s.heap ++ [⟨r.val.own, []⟩] := by
        simp [St.alloc, hparts]
      obtain ⟨a1, a2⟩ := hal
      refine ⟨_, _, rfl, ?_, ?_, ?_, ?_⟩
      · rw [(St.copy_read _ _ ⟨r.val.own, []⟩ (by simp [a1, a2]) rfl).2]
        have : r.val = ⟨r.val.own, r.val.parts⟩ := rfl
        rw [this, hparts]
      · simp only [St.copy, a2, List.length_append]; omega
      · simp [St.copy, a1, a2]
      · refine grow _ [⟨r.val.own, []⟩, ⟨r.val.own, []⟩] _ ?_ ?_ ?_ ?_
        · simp [St.copy, a1, a2]
        · simp only [St.copy, a2, List.length_append]; omega
        · simp [St.copy, a2]
        · intro e he
          simp only [St.copy, List.mem_append, List.mem_singleton] at he
          rcases he with he | rfl
          · exact .inl he
          · refine .inr ⟨hn, ?_, ?_, rfl, r, hr, hparts, ?_⟩
            · simp [St.copy, a1, a2]
            · simp [a1]
            · simp [St.copy, a1, a2]
  · simp only
    simp only [St.find, Option.map_eq_some_iff] at hf
    obtain ⟨ent, hfind, rfl⟩ := hf
    have hm := List.mem_of_find?_eq_some hfind
    have hk := List.find?_some hfind
    obtain ⟨c1, c2, c3, r, c4, c5, c6⟩ := hi.cached ent hm
    rw [keyEq_iff c1 hn] at hk
    have hsame : fs i a = .ok r := by
      rw [← c4, hk.1]; exact (hresp i _ _ hk.2).symm
    rw [hsame]
    simp only [St.finish, c3, if_true]
    obtain ⟨b1, b2⟩ := St.copy_read s ent.2.1 _ c6 rfl
    refine ⟨_, _, rfl, ?_, le_rfl, ?_, ?_⟩
    · rw [b2]
      have : r.val = ⟨r.val.own, r.val.parts⟩ := rfl
      rw [this, c5]
    · rw [b1]; simp [St.copy]
    · refine grow _ [_] _ b1 le_rfl (by rw [b1]; simp [St.copy]) ?_
      intro e he
      exact .inl he

theorem Client.inv {fs : ℕ → Fun} (hflat : ∀ i, Flat (fs i)) (hresp : ∀ i, Respects (fs i))
    {s : St} {held : List ℕ} (hc : Client fs s held) : MemoInv fs s held := by
  induction hc with
  | start => exact ⟨by simp, by simp⟩
  | @call s held i a r s' _ hn hr ih =>
    by_cases hh : a.hashable = true
    · have := call_spec hflat hresp ih i a hn hh
      rcases hf : fs i a with e | v
      · rw [hf] at this; rw [this] at hr; simp at hr
      · rw [hf] at this
        obtain ⟨x, s'', h1, -, -, h4, h5⟩ := this
        rw [h1] at hr
        simp only [Prod.mk.injEq, Except.ok.injEq] at hr
        obtain ⟨rfl, rfl⟩ := hr
        simpa [St.reach, h4] using h5
    · rw [St.call, if_neg hh] at hr; simp at hr
  | @failed s held i a e s' _ hn hr ih =>
    by_cases hh : a.hashable = true
    · have := call_spec hflat hresp ih i a hn hh
      rcases hf : fs i a with e | v
      · rw [hf] at this; rw [this] at hr
        simp only [Prod.mk.injEq] at hr; rw [← hr.2]; exact ih
      · rw [hf] at this
        obtain ⟨x, s'', h1, -⟩ := this
        rw [h1] at hr; simp at hr
    · rw [St.call, if_neg hh] at hr
      simp only [Prod.mk.injEq] at hr; rw [← hr.2]; exact ih
  | @mutate s held x c _ hx _ ih =>
    refine ⟨fun y hy => by simpa [St.mutate] using ih.bound y hy, ?_⟩
    intro e he
    obtain ⟨c1, c2, c3, r, c4, c5, c6⟩ := ih.cached e he
    refine ⟨c1, c2, c3, r, c4, c5, ?_⟩
    have hne : x ≠ e.2.1 := by rintro rfl; exact c2 hx
    rw [St.mutate, List.getElem?_set_ne hne]; exact c6

/-- C41: after any history of calls of any number of decorated functions, interleaved with arbitrary
in-place changes of the objects they returned, a call with hashable arguments does what the undecorated
function does: it raises the same exception, or returns a new object (one nobody holds) with the value
the undecorated function would compute.
Missing (and false, see below): functions whose results a shallow copy does not separate, functions that
distinguish arguments comparing equal, results without a `copy` method, unhashable arguments. -/
theorem C41_transparent_partial {fs : ℕ → Fun} (hflat : ∀ i, Flat (fs i))
    (hresp : ∀ i, Respects (fs i)) {s : St} {held : List ℕ} (hc : Client fs s held) (i : ℕ)
    (a : Actuals) (hn : (a.kwargs.map Prod.fst).Nodup) (hh : a.hashable = true) :
    (∀ e, fs i a = .error e → (s.call fs i a).1 = .error e) ∧
    (∀ r, fs i a = .ok r → ∃ x, (s.call fs i a).1 = .ok x ∧
      (s.call fs i a).2.read x = some r.val ∧ x ∉ held) := by
  have := call_spec hflat hresp (hc.inv hflat hresp) i a hn hh
  refine ⟨fun e he => ?_, fun r hr => ?_⟩
  · rw [he] at this; rw [this]
  · rw [hr] at this
    obtain ⟨x, s', h1, h2, h3, -⟩ := this
    refine ⟨x, by rw [h1], by rw [h1]; exact h2, fun hm => ?_⟩
    have := (hc.inv hflat hresp).bound x hm
    omega

/-- C41, the other half: what a call returned does not change unless the client changes it: no later
call touches an object the client holds. -/
theorem C41_untouched (fs : ℕ → Fun) (s : St) (i : ℕ) (a : Actuals) (x : ℕ)
    (hx : x < s.heap.length) : (s.call fs i a).2.heap[x]? = s.heap[x]? := by
  unfold St.call
  split
  · rcases hf : s.find (i, a) with _ | e
    · simp only
      rcases hr : fs i a with e | r
      · rfl
      · simp only [St.finish]
        have : ∀ l : List Cell, ((s.alloc r.val).2.heap ++ l)[x]? = s.heap[x]? := by
          intro l
          simp only [St.alloc, List.append_assoc]
          exact List.getElem?_append_left hx
        split
        · exact this _
        · simpa using this []
    · simp only [St.finish]
      split
      · simp only [St.copy]; exact List.getElem?_append_left hx
      · rfl
  · rfl

/-! ## A case -/

/-- A table of two functions: doubling an integer argument (an array result), and one that always
raises. -/
def exFuns : ℕ → Fun
  | 0, a => match a.args.map Arg.num with
    | [some q] => .ok ⟨⟨[2 * q.num], []⟩, true⟩
    | _ => .error .typeError
  | _, _ => .error .valueError

theorem forall₂_num {a b : List Arg} (h : List.Forall₂ Arg.Alike a b) :
    a.map Arg.num = b.map Arg.num := by
  induction h with
  | nil => rfl
  | @cons x y _ _ hxy _ ih =>
    rw [List.map_cons, List.map_cons, ih]
    congr 1
    rw [← Arg.eq_iff] at hxy
    unfold Arg.eq at hxy
    rcases hx : x.num with _ | p <;> rcases hy : y.num with _ | q <;> simp_all

theorem exFuns_respects (i : ℕ) : Respects (exFuns i) := by
  intro a b h
  match i with
  | 0 => simp only [exFuns, forall₂_num h.1]
  | _ + 1 => rfl

theorem exFuns_flat (i : ℕ) : Flat (exFuns i) := by
  intro a r h
  match i with
  | 0 =>
    simp only [exFuns] at h
    split at h
    · cases h; exact ⟨rfl, rfl⟩
    · cases h
  | _ + 1 => cases h

/-- The hypotheses of `C41_transparent_partial` are met, after a history in which the result of a call
was overwritten: the next call still returns the right value. -/
example : ∃ (s : St) (held : List ℕ) (x : ℕ), Client exFuns s held ∧ s.evals = [(0, ⟨[.int 3], []⟩)] ∧
    x ∈ held ∧ s.read x = some ⟨[99], []⟩ ∧
    ∃ y, (s.call exFuns 0 ⟨[.float 3], []⟩).1 = .ok y ∧
      (s.call exFuns 0 ⟨[.float 3], []⟩).2.read y = some ⟨[6], []⟩ := by
  have h1 : Client exFuns _ _ := Client.call (r := 1) 0 ⟨[.int 3], []⟩ (Client.start) (by simp) rfl
  have h2 := Client.mutate 1 ⟨[99], []⟩ h1 (by decide +kernel) (by simp)
  refine ⟨_, _, 1, h2, rfl, by decide +kernel, rfl, ?_⟩
  obtain ⟨x, hx1, hx2, -⟩ := (C41_transparent_partial exFuns_flat exFuns_respects h2 0 ⟨[.float 3], []⟩
    (by simp) rfl).2 ⟨⟨[6], []⟩, true⟩ (by decide +kernel)
  exact ⟨x, hx1, hx2⟩

/-! ## What is false -/

/-- A function that tells `1` and `1.0` apart, as division or `repr` do. -/
def exTyped : ℕ → Fun := fun _ a =>
  match a.args with
  | [.int _] => .ok ⟨⟨[0], []⟩, true⟩
  | _ => .ok ⟨⟨[1], []⟩, true⟩

/-- C41 as stated is false: after `g(1)`, `g(1.0)` returns what `f(1)` returns. -/
theorem C41_false_equal_arguments : ∃ (s : St) (held : List ℕ), Client exTyped s held ∧
    exTyped 0 ⟨[.float 1], []⟩ = .ok ⟨⟨[1], []⟩, true⟩ ∧
    ∃ x, (s.call exTyped 0 ⟨[.float 1], []⟩).1 = .ok x ∧
      (s.call exTyped 0 ⟨[.float 1], []⟩).2.read x = some ⟨[0], []⟩ := by
  have h1 : Client exTyped _ _ := Client.call (r := 1) 0 ⟨[.int 1], []⟩ (Client.start) (by simp) rfl
  exact ⟨_, _, h1, rfl, 2, by decide +kernel, by decide +kernel⟩

/-- A function returning a list holding an array. -/
def exNested : ℕ → Fun := fun _ _ => .ok ⟨⟨[], [[1]]⟩, true⟩

/-- C41 as stated is false: the copy is shallow, so changing an array inside a returned list in place
changes what every later call returns. -/
theorem C41_false_shallow_copy : ∃ (s : St) (held : List ℕ), Client exNested s held ∧
    exNested 0 ⟨[], []⟩ = .ok ⟨⟨[], [[1]]⟩, true⟩ ∧
    ∃ x, (s.call exNested 0 ⟨[], []⟩).1 = .ok x ∧
      (s.call exNested 0 ⟨[], []⟩).2.read x = some ⟨[], [[7]]⟩ := by
  have h1 : Client exNested _ _ := Client.call (r := 2) 0 ⟨[], []⟩ (Client.start) (by simp) rfl
  have h2 := Client.mutate 0 ⟨[7], []⟩ h1 (by decide +kernel) (by simp)
  exact ⟨_, _, h2, rfl, 3, by decide +kernel, by decide +kernel⟩

/-- C41 as stated is false: an argument that cannot be hashed is refused with `TypeError`, and so is
nothing evaluated. -/
theorem C41_false_unhashable (fs : ℕ → Fun) (s : St) (i : ℕ) (a : Actuals) (h : a.hashable = false) :
    s.call fs i a = (.error .typeError, s) := by
  rw [St.call, h]; rfl

/-- C41 as stated is false: in particular any call with a list among its arguments, positional or
keyword. -/
theorem C41_false_list (fs : ℕ → Fun) (s : St) (i : ℕ) (a : Actuals) (l : List ℤ)
    (h : .list l ∈ a.args ∨ ∃ k, (k, Arg.list l) ∈ a.kwargs) :
    s.call fs i a = (.error .typeError, s) := by
  refine C41_false_unhashable fs s i a ?_
  unfold Actuals.hashable
  rcases h with h | ⟨k, h⟩
  · have : a.args.all Arg.hashable = false := by
      rw [List.all_eq_false]; exact ⟨_, h, by simp [Arg.hashable]⟩
    rw [this, Bool.false_and]
  · have : (a.kwargs.all fun p => p.2.hashable) = false := by
      rw [List.all_eq_false]; exact ⟨_, h, by simp [Arg.hashable]⟩
    rw [this, Bool.and_false]

/-- C41 as stated is false: a result without a `copy` method (a plain `float`) makes every call raise
`AttributeError`, although the value was computed and stored. -/
theorem C41_false_no_copy {fs : ℕ → Fun} {r : Ret} (i : ℕ) (a : Actuals)
    (hf : fs i a = .ok r) (hr : r.copyable = false) (hh : a.hashable = true) :
    (({} : St).call fs i a).1 = .error .attributeError ∧
    (({} : St).call fs i a).2.evals = [(i, a)] := by
  have : ({} : St).find (i, a) = none := rfl
  simp [St.call, hh, this, hf, St.finish, hr]

end PQ.Memo
