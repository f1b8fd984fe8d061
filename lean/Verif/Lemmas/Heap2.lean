import Verif.Lemmas.Heap

/-! # Memory: invariants of primitive steps -/

namespace PQ

variable {K : Type _} [One K]

open NDArr

namespace Heap

omit [One K] in
theorem get_lt {h : Heap K} {i : Nat} {o : Obj} (ho : h.objs[i]? = some o) : i < h.objs.length :=
  (List.getElem?_eq_some_iff.1 ho).1

/-- Memory invariant. -/
structure WF (h : Heap K) : Prop where
  ok : ∀ (i : Nat) (o : Obj), h.objs[i]? = some o → ObjOK h o
  unit : ∀ (i : Nat) (o : Obj) (u : UKey), h.objs[i]? = some o → o.kind = .unit u → o.shape = [] ∧ h.mem (o.addr []) = 1
  ro : ∀ (i : Nat) (o : Obj) (u : UKey) (j : Nat) (p : Obj), h.objs[i]? = some o → o.kind = .unit u → h.objs[j]? = some p → ¬ o.Apart p →
    p.writeable = false

omit [One K] in
theorem setDim_get (h : Heap K) (i : Nat) (o : Obj) (d : Dim) (ho : h.objs[i]? = some o) (j : Nat) :
    (h.setDim i o d).objs[j]? = if j = i then some { o with kind := .quantity d } else h.objs[j]? := by
  unfold setDim
  have := get_lt ho
  rw [List.getElem?_set]
  by_cases e : i = j
  · subst e; simp [this]
  · simp [e, Ne.symm e]

theorem Prim.length_le {h h' : Heap K} {l : Option Nat} (p : Prim h l h') :
    h.objs.length ≤ h'.objs.length := by
  cases p with
  | alloc a kind wr hu => simp [Heap.alloc, push]
  | view i o kind s sel ho hk hs hinj => simp [pushView, push]
  | write i o mem ho hw hm => simp
  | setDim i o d d' ho hk => simp [Heap.setDim]

theorem Prim.next_le {h h' : Heap K} {l : Option Nat} (p : Prim h l h') : h.next ≤ h'.next := by
  cases p with
  | alloc a kind wr hu => simp [Heap.alloc, push]
  | view i o kind s sel ho hk hs hinj => simp [pushView, push]
  | write i o mem ho hw hm => simp
  | setDim i o d d' ho hk => simp [Heap.setDim]

theorem Prim.stable {h h' : Heap K} {l : Option Nat} (p : Prim h l h') (j : Nat) (q : Obj)
    (hq : h.objs[j]? = some q) :
    ∃ q', h'.objs[j]? = some q' ∧ Stable q q' ∧ (l ≠ some j → q' = q) := by
  cases p with
  | alloc a kind wr hu =>
    exact ⟨q, push_get_old _ _ _ _ hq, .rfl' q, fun _ => rfl⟩
  | view i o kind s sel ho hk hs hinj =>
    exact ⟨q, push_get_old _ _ _ _ hq, .rfl' q, fun _ => rfl⟩
  | write i o mem ho hw hm => exact ⟨q, hq, .rfl' q, fun _ => rfl⟩
  | setDim i o d d' ho hk =>
    have hg := setDim_get h i o d' ho j
    by_cases e : j = i
    · subst e
      rw [ho] at hq; cases hq
      rw [if_pos rfl] at hg
      exact ⟨_, hg, ⟨rfl, rfl, rfl, rfl, rfl, .inr ⟨d, d', hk, rfl⟩⟩, fun h => absurd rfl h⟩
    · rw [if_neg e, hq] at hg
      exact ⟨q, hg, .rfl' q, fun _ => rfl⟩

theorem Prims.stable {H : Nat → Prop} {h h' : Heap K} (p : Prims H h h') (j : Nat) (q : Obj)
    (hq : h.objs[j]? = some q) :
    ∃ q', h'.objs[j]? = some q' ∧ Stable q q' ∧ (¬ H j → q' = q) := by
  induction p with
  | refl => exact ⟨q, hq, .rfl' q, fun _ => rfl⟩
  | step l _ s hl ih =>
    obtain ⟨q1, h1, s1, e1⟩ := ih
    obtain ⟨q2, h2, s2, e2⟩ := s.stable j q1 h1
    refine ⟨q2, h2, s1.trans s2, fun hn => ?_⟩
    rw [e2 (fun e => hn (hl j e)), e1 hn]

omit [One K] in
theorem pushView_cell {h : Heap K} {i : Nat} {o : Obj} {kind : AKind} {s : List Nat}
    {sel : List Nat → List Nat} (hs : ∀ j, InB s j → InB o.shape (sel j)) {a : Nat}
    (ha : Obj.Cell ⟨kind, s, fun j => o.addr (sel j), false,
      some (collapse h.objs kind h.objs.length i), o.writeable⟩ a) : o.Cell a := by
  obtain ⟨j, hj, e⟩ := ha
  exact ⟨sel j, hs j hj, e⟩

omit [One K] in
theorem ObjOK.of {h h' : Heap K} {o o' : Obj} (k : ObjOK h o) (hn : h.next ≤ h'.next)
    (s : Stable o o') : ObjOK h' o' :=
  ⟨by rw [s.shape, s.addr]; exact fun i hi => lt_of_lt_of_le (k.bound i hi) hn,
   by rw [s.shape, s.addr]; exact k.inj⟩

omit [One K] in
theorem ObjOK.cell_lt {h : Heap K} {o : Obj} (k : ObjOK h o) {a : Nat} (ha : o.Cell a) :
    a < h.next := by
  obtain ⟨i, hi, rfl⟩ := ha
  exact k.bound i hi

/-- The object `alloc` adds. -/
def allocObj (h : Heap K) (a : NDArr K) (kind : AKind) (wr : Bool) : Obj :=
  ⟨kind, a.shape, fun j => h.next + ravel a.shape j, true, none, wr⟩

omit [One K] in
theorem alloc_get_cases (h : Heap K) (a : NDArr K) (kind : AKind) (wr : Bool) (i : Nat) (p : Obj)
    (hp : (h.alloc a kind wr).2.objs[i]? = some p) :
    h.objs[i]? = some p ∨ (i = h.objs.length ∧ p = allocObj h a kind wr) :=
  push_get_cases { h with
      mem := fun c => if h.next ≤ c then (((NDArr.indices a.shape).map a.elem)[c - h.next]?).getD (h.mem c) else h.mem c,
      next := h.next + a.shape.prod } _ i p hp

omit [One K] in
theorem alloc_get_old (h : Heap K) (a : NDArr K) (kind : AKind) (wr : Bool) (i : Nat) (p : Obj)
    (hp : h.objs[i]? = some p) : (h.alloc a kind wr).2.objs[i]? = some p :=
  push_get_old { h with
      mem := fun c => if h.next ≤ c then (((NDArr.indices a.shape).map a.elem)[c - h.next]?).getD (h.mem c) else h.mem c,
      next := h.next + a.shape.prod } _ i p hp

omit [One K] in
theorem alloc_get_new (h : Heap K) (a : NDArr K) (kind : AKind) (wr : Bool) :
    (h.alloc a kind wr).2.objs[(h.alloc a kind wr).1]? = some (allocObj h a kind wr) := by
  simp [alloc, push, allocObj]

omit [One K] in
theorem alloc_mem_old (h : Heap K) (a : NDArr K) (kind : AKind) (wr : Bool) (c : Nat)
    (hc : c < h.next) : (h.alloc a kind wr).2.mem c = h.mem c := by
  simp only [alloc, push]
  rw [if_neg (by omega)]

omit [One K] in
theorem alloc_mem_new (h : Heap K) (a : NDArr K) (kind : AKind) (wr : Bool) (i : List Nat)
    (hi : InB a.shape i) : (h.alloc a kind wr).2.mem (h.next + ravel a.shape i) = a.elem i := by
  simp only [alloc, push]
  rw [if_pos (by omega), Nat.add_sub_cancel_left, List.getElem?_map, indices_ravel hi]
  rfl

omit [One K] in
theorem alloc_next (h : Heap K) (a : NDArr K) (kind : AKind) (wr : Bool) :
    (h.alloc a kind wr).2.next = h.next + a.shape.prod := rfl

omit [One K] in
theorem alloc_objOK (h : Heap K) (a : NDArr K) (kind : AKind) (wr : Bool) :
    ObjOK (h.alloc a kind wr).2 (allocObj h a kind wr) :=
  ⟨fun i hi => by
      rw [alloc_next]
      exact Nat.add_lt_add_left (ravel_lt hi) _,
   fun i j hi hj e => ravel_inj hi hj (Nat.add_left_cancel e)⟩

omit [One K] in
theorem allocObj_cell {h : Heap K} {a : NDArr K} {kind : AKind} {wr : Bool} {c : Nat}
    (hc : (allocObj h a kind wr).Cell c) : h.next ≤ c := by
  obtain ⟨i, _, rfl⟩ := hc
  exact Nat.le_add_right _ _

theorem Prim.wf {h h' : Heap K} {l : Option Nat} (p : Prim h l h') (hw : WF h) : WF h' := by
  have hnx := p.next_le
  cases p with
  | alloc a kind wr hu =>
    refine ⟨?_, ?_, ?_⟩
    · intro i o ho
      rcases alloc_get_cases h a kind wr i o ho with h1 | ⟨_, rfl⟩
      · exact (hw.ok i o h1).of hnx (.rfl' o)
      · exact alloc_objOK h a kind wr
    · intro i o u ho hk
      rcases alloc_get_cases h a kind wr i o ho with h1 | ⟨_, rfl⟩
      · obtain ⟨hs, hm⟩ := hw.unit i o u h1 hk
        refine ⟨hs, ?_⟩
        rw [alloc_mem_old _ _ _ _ _ ((hw.ok i o h1).bound [] (by rw [hs]; exact .nil))]
        exact hm
      · obtain ⟨_, hs, he⟩ := hu u hk
        refine ⟨hs, ?_⟩
        have := alloc_mem_new h a kind wr [] (by rw [hs]; exact .nil)
        rw [he] at this
        exact this
    · intro i o u j q ho hk hq hap
      rcases alloc_get_cases h a kind wr i o ho with h1 | ⟨_, rfl⟩
      · rcases alloc_get_cases h a kind wr j q hq with h2 | ⟨_, rfl⟩
        · exact hw.ro i o u j q h1 hk h2 hap
        · exact absurd (fun c hc hc' => absurd ((hw.ok i o h1).cell_lt hc)
            (Nat.not_lt.2 (allocObj_cell hc'))) hap
      · rcases alloc_get_cases h a kind wr j q hq with h2 | ⟨_, rfl⟩
        · exact absurd (fun c hc hc' => absurd ((hw.ok j q h2).cell_lt hc')
            (Nat.not_lt.2 (allocObj_cell hc))) hap
        · exact (hu u hk).1
  | view i o kind s sel ho hk hs hinj =>
    refine ⟨?_, ?_, ?_⟩
    · intro j q hq
      rcases push_get_cases _ _ _ _ hq with h1 | ⟨_, rfl⟩
      · exact (hw.ok j q h1).of hnx (.rfl' q)
      · exact ⟨fun k hk' => lt_of_lt_of_le ((hw.ok i o ho).bound _ (hs k hk')) hnx,
          fun a b ha hb e => hinj a b ha hb ((hw.ok i o ho).inj _ _ (hs a ha) (hs b hb) e)⟩
    · intro j q u hq hku
      rcases push_get_cases _ _ _ _ hq with h1 | ⟨_, rfl⟩
      · exact hw.unit j q u h1 hku
      · exact absurd hku (hk u)
    · intro j q u k r hq hku hr hap
      rcases push_get_cases _ _ _ _ hq with h1 | ⟨_, rfl⟩
      · rcases push_get_cases _ _ _ _ hr with h2 | ⟨_, rfl⟩
        · exact hw.ro j q u k r h1 hku h2 hap
        · refine hw.ro j q u i o h1 hku ho (fun hx => hap (fun c hc hc' => hx c hc ?_))
          exact pushView_cell hs hc'
      · exact absurd hku (hk u)
  | write i o mem ho hwr hm =>
    refine ⟨fun j q hq => ⟨(hw.ok j q hq).bound, (hw.ok j q hq).inj⟩, ?_, fun j q u k r => hw.ro j q u k r⟩
    intro j q u hq hk
    obtain ⟨hs, h1⟩ := hw.unit j q u hq hk
    refine ⟨hs, ?_⟩
    show mem (q.addr []) = 1
    rw [hm _ ?_]
    · exact h1
    · intro hc
      have := hw.ro j q u i o hq hk ho (fun hap => hap _ ⟨[], by rw [hs]; exact .nil, rfl⟩ hc)
      rw [this] at hwr; cases hwr
  | setDim i o d d' ho hk =>
    have hg := setDim_get h i o d' ho
    have key : ∀ (j : Nat) (q : Obj), (h.setDim i o d').objs[j]? = some q → ∃ q0, h.objs[j]? = some q0 ∧ Stable q0 q ∧
        (∀ u, q.kind = .unit u → q = q0) := by
      intro j q hq
      rw [hg j] at hq
      by_cases e : j = i
      · rw [if_pos e] at hq
        cases hq
        exact ⟨o, e ▸ ho, ⟨rfl, rfl, rfl, rfl, rfl, .inr ⟨d, d', hk, rfl⟩⟩, fun u hu => by simp at hu⟩
      · rw [if_neg e] at hq
        exact ⟨q, hq, .rfl' q, fun _ _ => rfl⟩
    refine ⟨?_, ?_, ?_⟩
    · intro j q hq
      obtain ⟨q0, h0, s0, _⟩ := key j q hq
      exact (hw.ok j q0 h0).of hnx s0
    · intro j q u hq hku
      obtain ⟨q0, h0, _, e0⟩ := key j q hq
      have e := e0 u hku
      subst e
      exact hw.unit j q u h0 hku
    · intro j q u k r hq hku hr hap
      obtain ⟨q0, h0, _, e0⟩ := key j q hq
      obtain ⟨r0, h1, s1, _⟩ := key k r hr
      rw [s1.writeable]
      have := e0 u hku
      subst this
      refine hw.ro j q u k r0 h0 hku h1 (fun hx => hap (fun c hc hc' => hx c hc ((s1.cell c).1 hc')))

theorem Prims.wf {H : Nat → Prop} {h h' : Heap K} (p : Prims H h h') (hw : WF h) : WF h' := by
  induction p with
  | refl => exact hw
  | step l _ s _ ih => exact s.wf ih

theorem Prims.length_le {H : Nat → Prop} {h h' : Heap K} (p : Prims H h h') :
    h.objs.length ≤ h'.objs.length := by
  induction p with
  | refl => exact le_rfl
  | step l _ s _ ih => exact ih.trans s.length_le

/-! ## Isolation -/

/-- The objects in `S` are as they were in `h0` and share no memory with the objects in `H`. -/
structure Iso (S H : Nat → Prop) (h0 h : Heap K) : Prop where
  same : ∀ (i : Nat) (o : Obj), S i → h0.objs[i]? = some o →
    h.objs[i]? = some o ∧ ∀ a, o.Cell a → h.mem a = h0.mem a
  apart : ∀ (i : Nat) (o : Obj) (j : Nat) (p : Obj), S i → h0.objs[i]? = some o → H j →
    h.objs[j]? = some p → o.Apart p

theorem Prim.iso {S H : Nat → Prop} {h0 h h' : Heap K} {l : Option Nat} (p : Prim h l h')
    (hl : ∀ i, l = some i → H i) (hSH : ∀ i, S i → ¬ H i) (hw : WF h) (k : Iso S H h0 h) :
    Iso S H h0 h' := by
  refine ⟨?_, ?_⟩
  · intro i o hi ho
    obtain ⟨h1, hm⟩ := k.same i o hi ho
    obtain ⟨o', h2, _, e⟩ := p.stable i o h1
    rw [e (fun e => hSH i hi (hl i e))] at h2
    refine ⟨h2, fun a ha => ?_⟩
    rw [← hm a ha]
    have hlt := (hw.ok i o h1).cell_lt ha
    cases p with
    | alloc b kind wr hu => exact alloc_mem_old h b kind wr a hlt
    | view => rfl
    | write j q mem hq hwr hmm =>
      exact hmm a (k.apart i o j q hi ho (hl j rfl) hq a ha)
    | setDim => rfl
  · intro i o j q hi ho hj hq
    obtain ⟨h1, hm⟩ := k.same i o hi ho
    cases p with
    | alloc b kind wr hu =>
      rcases alloc_get_cases h b kind wr j q hq with h2 | ⟨_, rfl⟩
      · exact k.apart i o j q hi ho hj h2
      · exact fun c hc hc' => absurd ((hw.ok i o h1).cell_lt hc) (Nat.not_lt.2 (allocObj_cell hc'))
    | view m r kind s sel hr hk hs hinj =>
      rcases push_get_cases _ _ _ _ hq with h2 | ⟨_, rfl⟩
      · exact k.apart i o j q hi ho hj h2
      · exact fun c hc hc' => k.apart i o m r hi ho (hl m rfl) hr c hc (pushView_cell hs hc')
    | write m r mem hr hwr hmm => exact k.apart i o j q hi ho hj hq
    | setDim m r d d' hr hk =>
      rw [setDim_get h m r d' hr j] at hq
      by_cases e : j = m
      · rw [if_pos e] at hq
        cases hq
        intro c hc hc'
        exact k.apart i o m r hi ho (hl m rfl) hr c hc hc'
      · rw [if_neg e] at hq
        exact k.apart i o j q hi ho hj hq

theorem Prims.iso {S H : Nat → Prop} {h h' : Heap K} (p : Prims H h h') (hSH : ∀ i, S i → ¬ H i)
    (hw : WF h) (hap : ∀ i j, S i → H j → ApartIds h i j) : Iso S H h h' := by
  induction p with
  | refl =>
    exact ⟨fun i o _ ho => ⟨ho, fun _ _ => rfl⟩, fun i o j p hi ho hj hp => hap i j hi hj o p ho hp⟩
  | step l q s hl ih =>
    exact s.iso (fun i hi => hl i hi) hSH (q.wf hw) ih

end Heap
end PQ
