import Verif.Lemmas.ExampleHeap

/-!
# Properties C28-C31, C52, C53: immutable units, views, copies, item assignment, in-place operators

`h` ranges over all states of memory reachable by any sequence of commands (`Heap.Reached`), `np2`
over both behaviours of numpy (before 2.0: `false`).  `Sees h i k a`: object `i` is of type and units
`k` and shows the elements `a`.
-/

namespace PQ

open NDArr Heap

section units
variable {K : Type _} [Zero K] [One K] [Add K] [Sub K] [Mul K] [Div K] [RPow K] [PyFloor K]
  [DecidableEq K] {np2 : Bool} {w : World K} {h : Heap K}

/-! ## C28 -/

/-- C28: whatever commands are executed, a unit object stays that unit, with value 1. -/
theorem C28_units_immutable (hr : Reached np2 w h) (i : Nat) (o : Obj) (u : UKey)
    (ho : h.objs[i]? = some o) (hu : o.kind = .unit u) (cs : List (Cmd K)) (hc : ∀ c ∈ cs, c.Valid) :
    Sees (h.runAll np2 w cs) i (.unit u) (NDArr.scalar 1) := by
  have hp := runAll_prims np2 w (fun _ => True) cs h hr.wf hc (fun _ _ _ _ => trivial)
    (fun _ _ => trivial)
  obtain ⟨o', ho', st, _⟩ := hp.stable i o ho
  have hk : o'.kind = .unit u := by
    rcases st.kind with e | ⟨d, d', e, _⟩
    · rw [e, hu]
    · rw [hu] at e; cases e
  obtain ⟨hs, hm⟩ := (hp.wf hr.wf).unit i o' u ho' hk
  refine ⟨o', ho', hk, ?_, ?_⟩
  · exact hs
  · intro j hj
    have hj' : InB o'.shape j := hj
    rw [hs] at hj'
    cases hj'
    exact hm

/-- C28: every attempt to change a unit object in place raises, and changes nothing at all. -/
theorem C28_attempts_raise (hr : Reached np2 w h) (i : Nat) (o : Obj) (u : UKey)
    (ho : h.objs[i]? = some o) (hu : o.kind = .unit u) (c : Cmd K) (hm : c.modifies = some i) :
    ∃ e, h.run np2 w c = (.error e, h) := by
  have hro := hr.wf.unit_readonly ho hu
  cases c <;> simp only [Cmd.modifies, reduceCtorEq, Option.some.injEq] at hm <;> subst hm <;>
    simp only [run, ho]
  · rename_i k v
    split
    · rename_i o' x ho' hx
      cases ho'
      simp only [hu, AKind.isQuantity, if_true, setitem]
      split
      · exact ⟨_, rfl⟩
      · simp only [assign, hro, Bool.not_false, if_true]
        exact ⟨_, rfl⟩
    · exact ⟨_, rfl⟩
  · rename_i js v
    split
    · rename_i o' x ho' hx
      cases ho'
      simp only [hu, AKind.isQuantity, if_true, put]
      split
      · exact ⟨_, rfl⟩
      · simp only [hro, Bool.not_false, if_true]
        exact ⟨_, rfl⟩
    · exact ⟨_, rfl⟩
  · rename_i v
    split
    · rename_i o' x ho' hx
      cases ho'
      simp only [hu, AKind.isQuantity, if_true, fill]
      split
      · simp only [hro, Bool.not_false, if_true]
        exact ⟨_, rfl⟩
      · exact ⟨_, rfl⟩
    · exact ⟨_, rfl⟩
  · rename_i op m v
    split
    · rename_i o' x ho' hx
      cases ho'
      have key : ∀ (f : UF2) (g : K → K → K) (y : Operand K),
          ∃ e, ufuncInto np2 w f g h m o y = (some e, h) := by
        intro f g y
        unfold ufuncInto
        split
        · exact ⟨_, rfl⟩
        · split
          · exact ⟨_, rfl⟩
          · simp only [hro, Bool.not_false, if_true]
            exact ⟨_, rfl⟩
      have key2 : ∃ e, inplace np2 w h op m o x = (some e, h) := by
        unfold inplace
        cases op <;> simp only [hu]
        · exact ⟨_, rfl⟩
        · exact ⟨_, rfl⟩
        · split
          · exact ⟨_, rfl⟩
          · exact key _ _ _
        · exact ⟨_, rfl⟩
        · exact ⟨_, rfl⟩
        · exact key _ _ _
      obtain ⟨e, he⟩ := key2
      exact ⟨e, by rw [he]; rfl⟩
    · exact ⟨_, rfl⟩
  · simp only [ipow, hu]
    exact ⟨_, rfl⟩
  · simp only [setUnits, hu]
    exact ⟨_, rfl⟩
  · rename_i f j
    split
    · rename_i o1 o' ho1 ho'
      cases ho'
      split
      · simp only [into, hu]
        split
        · exact ⟨_, rfl⟩
        · split
          · exact ⟨_, rfl⟩
          · simp only [hro, Bool.not_false, if_true]
            exact ⟨_, rfl⟩
      · exact ⟨_, rfl⟩
    · exact ⟨_, rfl⟩

/-! ## C30 -/

omit [Zero K] [One K] [Add K] [Sub K] [Mul K] [Div K] [RPow K] [PyFloor K] [DecidableEq K] in
/-- Objects that kept their memory are seen as before. -/
theorem sees_of_iso {S H : Nat → Prop} {h0 h' : Heap K} (k : Iso S H h0 h') {i : Nat} (hi : S i)
    {kd : AKind} {a : NDArr K} (hs : Sees h0 i kd a) : Sees h' i kd a := by
  obtain ⟨o, ho, hk, hsh, hel⟩ := hs.ex
  obtain ⟨h1, hm⟩ := k.same i o hi ho
  refine ⟨o, h1, hk, hsh, fun j hj => ?_⟩
  rw [← hel j hj]
  exact hm _ ⟨j, hj, rfl⟩

/-- C30, in general: if the objects in `S` share no memory with the others, then no sequence of
commands that works only on other objects, or on objects created later, is visible in them. -/
theorem C30_separate_objects_independent (hr : Reached np2 w h) (S : Nat → Prop)
    (hS : ∀ i, S i → i < h.objs.length) (hap : ∀ i j, S i → ¬ S j → ApartIds h i j)
    (cs : List (Cmd K)) (hc : ∀ c ∈ cs, c.Valid) (ht : ∀ c ∈ cs, ∀ i, c.touches = some i → ¬ S i)
    (i : Nat) (hi : S i) (k : AKind) (a : NDArr K) (hs : Sees h i k a) :
    Sees (h.runAll np2 w cs) i k a := by
  have hp := runAll_prims np2 w (fun i => ¬ S i) cs h hr.wf hc ht
    (fun i hi hSi => absurd (hS i hSi) (by omega))
  exact sees_of_iso (hp.iso (fun i hi hn => hn hi) hr.wf hap) hi hs

/-- A copy shows what the original shows and shares no memory with anything. -/
theorem copy_spec (hw : Heap.WF h) {i j : Nat} {o : Obj} (ho : h.objs[i]? = some o) {h1 : Heap K}
    (hrun : h.run np2 w (.copy i) = (.ok j, h1)) :
    j = h.objs.length ∧ h1.objs.length = h.objs.length + 1 ∧ Sees h1 j o.kind (h.arr o) ∧
      (∀ m, m ≠ j → ApartIds h1 j m) ∧ (∀ m k a, m < h.objs.length → Sees h m k a → Sees h1 m k a) := by
  simp only [run, ho] at hrun
  split at hrun
  · cases hrun
  · rename_i hk
    simp only [Prod.mk.injEq, Except.ok.injEq] at hrun
    obtain ⟨rfl, rfl⟩ := hrun
    refine ⟨rfl, by simp [alloc, push], ?_, ?_, ?_⟩
    · refine ⟨allocObj h (h.arr o) o.kind true, alloc_get_new _ _ _ _, rfl, rfl, fun k hk' => ?_⟩
      exact alloc_mem_new h (h.arr o) o.kind true k hk'
    · intro m hm p q hp hq c hc hc'
      rw [alloc_get_new] at hp
      cases hp
      rcases alloc_get_cases h _ _ _ m q hq with h2 | ⟨e, _⟩
      · exact absurd ((hw.ok m q h2).cell_lt hc') (Nat.not_lt.2 (allocObj_cell hc))
      · exact hm e
    · intro m k a hm hs
      obtain ⟨p, hp, hk', hsh, hel⟩ := hs.ex
      refine ⟨p, alloc_get_old _ _ _ _ _ _ hp, hk', hsh, fun x hx => ?_⟩
      rw [← hel x hx]
      exact alloc_mem_old h (h.arr o) o.kind true _ ((hw.ok m p hp).bound x hx)

/-- C30: `c = q.copy()` equals `q`: same type, units and elements. -/
theorem C30_copy_equal (hr : Reached np2 w h) (i j : Nat) (k : AKind) (a : NDArr K) (h1 : Heap K)
    (hs : Sees h i k a) (hrun : h.run np2 w (.copy i) = (.ok j, h1)) :
    Sees h1 j k a ∧ Sees h1 i k a := by
  obtain ⟨o, ho, hk, hsa⟩ := hs.ex
  obtain ⟨rfl, _, hsj, _, hold⟩ := copy_spec hr.wf ho hrun
  refine ⟨?_, hold i k a (get_lt ho) ⟨o, ho, hk, hsa⟩⟩
  obtain ⟨p, hp, hkp, hsp⟩ := hsj.ex
  exact ⟨p, hp, hkp.trans hk, hsp.trans hsa⟩

/-- C30: after `c = q.copy()`, nothing done without going through `c` changes what `c` shows. -/
theorem C30_copy_not_affected (hr : Reached np2 w h) (i j : Nat) (k : AKind) (a : NDArr K)
    (h1 : Heap K) (hs : Sees h i k a) (hrun : h.run np2 w (.copy i) = (.ok j, h1))
    (cs : List (Cmd K)) (hc : ∀ c ∈ cs, c.Valid) (ht : ∀ c ∈ cs, c.touches ≠ some j) :
    Sees (h1.runAll np2 w cs) j k a := by
  obtain ⟨o, ho, hk, hsa⟩ := hs.ex
  have hr1 : Reached np2 w h1 := by
    have := Reached.step (np2 := np2) (w := w) (.copy i) hr trivial
    rwa [hrun] at this
  obtain ⟨rfl, hlen, _, hap, _⟩ := copy_spec hr.wf ho hrun
  refine C30_separate_objects_independent hr1 (fun m => m = h.objs.length) (fun m hm => by omega)
    ?_ cs hc (fun c hcm m hm e => ht c hcm (e ▸ hm)) _ rfl k a (C30_copy_equal hr _ _ k a h1 hs hrun).1
  rintro m m' rfl hm'
  exact hap m' hm'

/-- C30: after `c = q.copy()`, nothing done through `c` only (and through objects made from it)
changes what `q`, or any other object that existed, shows. -/
theorem C30_copy_does_not_affect (hr : Reached np2 w h) (i j : Nat) (o : Obj) (h1 : Heap K)
    (ho : h.objs[i]? = some o) (hrun : h.run np2 w (.copy i) = (.ok j, h1))
    (cs : List (Cmd K)) (hc : ∀ c ∈ cs, c.Valid)
    (ht : ∀ c ∈ cs, ∀ m, c.touches = some m → h.objs.length ≤ m)
    (m : Nat) (k : AKind) (a : NDArr K) (hs : Sees h m k a) :
    Sees (h1.runAll np2 w cs) m k a := by
  have hr1 : Reached np2 w h1 := by
    have := Reached.step (np2 := np2) (w := w) (.copy i) hr trivial
    rwa [hrun] at this
  obtain ⟨rfl, hlen, _, hap, hold⟩ := copy_spec hr.wf ho hrun
  have hm : m < h.objs.length := by
    obtain ⟨p, hp, _⟩ := hs.ex
    exact get_lt hp
  refine C30_separate_objects_independent hr1 (fun m => m < h.objs.length) (fun m hm => by omega)
    ?_ cs hc (fun c hcm m hm => not_lt.2 (ht c hcm m hm)) _ hm k a (hold m k a hm hs)
  intro x y hx hy p q hp hq
  have hy' : y = h.objs.length := by
    have := get_lt hq
    omega
  subst hy'
  intro c hc hc'
  exact hap x (by omega) q p hq hp c hc' hc

end units

/-! ## Concrete cases -/

/-- `m` exists (object 0); `q = Quantity(m)`; attempts to change `m`. -/
noncomputable def exUnitHeap : Heap ℝ := Heap.empty.runAll false exWorld [.newUnit uM, .magnitude 0, .wrap 0 []]

theorem exUnitHeap_reached : Reached false exWorld exUnitHeap :=
  .step (.wrap 0 []) (.step (.magnitude 0) (.step (.newUnit uM) .empty trivial) trivial) trivial

example : Sees (exUnitHeap.runAll false exWorld
      [.rawWrite 1 kAll (NDArr.scalar 7), .inplace .mul 0 (.lit (.array (NDArr.scalar 2))), .setUnits 0 dKm]) 0
      (.unit uM) (NDArr.scalar 1) :=
  C28_units_immutable exUnitHeap_reached 0 _ uM rfl rfl _ (by
    intro c hc
    simp only [List.mem_cons, List.not_mem_nil, or_false] at hc
    rcases hc with rfl | rfl | rfl
    · exact kAll_basic.sound
    · trivial
    · trivial)

example : ∃ e, exUnitHeap.run false exWorld (.inplace .mod 0 (.lit (.array (NDArr.scalar 2)))) = (.error e, exUnitHeap) :=
  C28_attempts_raise exUnitHeap_reached 0 _ uM rfl rfl _ rfl

/-- `q = [1, 2, 3] * km; v = q[1:]; c = v.copy()`: writing to `v` is not visible in `c`. -/
example (a : NDArr ℝ) (hs : Sees exHeap2 2 (.quantity dKm) a) :
    Sees ((exHeap2.run false exWorld (.copy 2)).2.runAll false exWorld
      [.fill 2 (.lit (.quantity ⟨NDArr.scalar 5, dS⟩)), .inplace .add 1 (.obj 3)]) 3 (.quantity dKm) a :=
  C30_copy_not_affected exHeap2_reached 2 3 _ a _ hs rfl _ (by simp [Cmd.Valid]) (by simp [Cmd.touches])

end PQ
