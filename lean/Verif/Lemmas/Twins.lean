import Verif.Spec.Twins
import Verif.Lemmas.Heap5
import Verif.Props.Programs
import Verif.Props.ItemAssign

/-!
# Twin states of memory: how each primitive step keeps them alike
-/

set_option linter.unusedSectionVars false

namespace PQ

open Client NDArr

variable {K : Type _} [Field K] [LinearOrder K] [IsStrictOrderedRing K] [RPow K] [LawfulRPow K] [PyFloor K]
variable {hh : Hasher} {w : World K} {h h' : Heap K}

theorem KindEq.isQuantity {k k' : AKind} (e : KindEq w k k') : k.isQuantity = k'.isQuantity := by
  cases e <;> rfl

theorem KindEq.dimOK {k k' : AKind} (e : KindEq w k k') : DimOK w k.dim ∧ DimOK w k'.dim ∧ Compatible w k.dim k'.dim := by
  cases e with
  | plain => exact ⟨DimOK.nil w, DimOK.nil w, compatible_refl w _⟩
  | unit hu => exact ⟨hu, hu, compatible_refl w _⟩
  | quantity hd hd' hc => exact ⟨hd, hd', hc⟩

theorem KindEq.sameType {k k' l l' : AKind} (e : KindEq w k k') (f : KindEq w l l') : k.sameType l = k'.sameType l' := by
  cases e <;> cases f <;> rfl

theorem SameLayout.cell {o o' : Obj} (s : SameLayout o o') (a : Nat) : o.Cell a ↔ o'.Cell a := by
  unfold Obj.Cell; rw [s.shape, s.addr]

theorem SameLayout.apart {o o' p p' : Obj} (s : SameLayout o o') (t : SameLayout p p') : o.Apart p ↔ o'.Apart p' :=
  ⟨fun e a ha hb => e a ((s.cell a).2 ha) ((t.cell a).2 hb), fun e a ha hb => e a ((s.cell a).1 ha) ((t.cell a).1 hb)⟩

namespace Twin

theorem get (t : Twin w h h') {i : Nat} {o : Obj} (ho : h.objs[i]? = some o) : ∃ o', h'.objs[i]? = some o' := by
  have hi := Heap.get_lt ho
  rw [t.length] at hi
  exact ⟨_, List.getElem?_eq_getElem hi⟩

theorem get' (t : Twin w h h') {i : Nat} {o' : Obj} (ho : h'.objs[i]? = some o') : ∃ o, h.objs[i]? = some o := by
  have hi := Heap.get_lt ho
  rw [← t.length] at hi
  exact ⟨_, List.getElem?_eq_getElem hi⟩

theorem get_none (t : Twin w h h') {i : Nat} (ho : h.objs[i]? = none) : h'.objs[i]? = none := by
  rw [List.getElem?_eq_none_iff] at ho ⊢
  rw [← t.length]; exact ho

theorem cell (t : Twin w h h') {i : Nat} {o o' : Obj} (ho : h.objs[i]? = some o) (ho' : h'.objs[i]? = some o')
    (hq : o.kind.isQuantity = true) (k : List Nat) (hk : InB o.shape k) (v : Valuation w) :
    h.mem (o.addr k) * v.size o.kind.dim = h'.mem (o'.addr k) * v.size o'.kind.dim :=
  (t.value i o o' ho ho' hq v).2 k hk

theorem physEq (t : Twin w h h') {i : Nat} {o o' : Obj} (ho : h.objs[i]? = some o) (ho' : h'.objs[i]? = some o')
    (hq : o.kind.isQuantity = true) : PhysEq w (h.quantity o) (h'.quantity o') :=
  have e := (t.kind i o o' ho ho').dimOK
  ⟨e.1, e.2.1, e.2.2, t.value i o o' ho ho' hq⟩

theorem baseIsQuantity (t : Twin w h h') {o o' : Obj} (hs : SameLayout o o') :
    h.baseIsQuantity o = h'.baseIsQuantity o' := by
  unfold Heap.baseIsQuantity
  rw [← hs.base]
  rcases o.base with _ | b
  · rfl
  · simp only
    rcases hb : h.objs[b]? with _ | ob
    · rw [t.get_none hb]
    · obtain ⟨ob', hb'⟩ := t.get hb
      rw [hb']
      exact (t.kind b ob ob' hb hb').isQuantity

theorem unshared (t : Twin w h h') {i : Nat} (hu : h.Unshared i) : h'.Unshared i := by
  intro j o' p' hj ho' hp' hq'
  obtain ⟨o, ho⟩ := t.get' ho'
  obtain ⟨p, hp⟩ := t.get' hp'
  refine ((t.array i o o' ho ho').apart (t.array j p p' hp hp')).1 (hu j o p hj ho hp ?_)
  rw [(t.kind j p p' hp hp').isQuantity]; exact hq'

theorem push (t : Twin w h h') {p p' : Obj} (hs : SameLayout p p') (hk : KindEq w p.kind p'.kind)
    (hv : p.kind.isQuantity = true → ∀ v : Valuation w, NDArr.Same (v.phys (h.quantity p)) (v.phys (h'.quantity p'))) :
    Twin w (h.push p).2 (h'.push p').2 := by
  have key : ∀ (i : Nat) (o o' : Obj), (h.push p).2.objs[i]? = some o → (h'.push p').2.objs[i]? = some o' →
      (h.objs[i]? = some o ∧ h'.objs[i]? = some o') ∨ (o = p ∧ o' = p') := by
    intro i o o' ho ho'
    rcases Heap.push_get_cases _ _ _ _ ho with h1 | ⟨h1, h2⟩ <;>
      rcases Heap.push_get_cases _ _ _ _ ho' with h3 | ⟨h3, h4⟩
    · exact .inl ⟨h1, h3⟩
    · exact absurd (Heap.get_lt h1) (by rw [t.length]; omega)
    · exact absurd (Heap.get_lt h3) (by rw [← t.length]; omega)
    · exact .inr ⟨h2, h4⟩
  refine ⟨t.next, ?_, ?_, ?_, ?_⟩
  · simp [Heap.push, t.length]
  · intro i o o' ho ho'
    rcases key i o o' ho ho' with ⟨a, b⟩ | ⟨rfl, rfl⟩
    · exact t.array i o o' a b
    · exact hs
  · intro i o o' ho ho'
    rcases key i o o' ho ho' with ⟨a, b⟩ | ⟨rfl, rfl⟩
    · exact t.kind i o o' a b
    · exact hk
  · intro i o o' ho ho' hq
    rcases key i o o' ho ho' with ⟨a, b⟩ | ⟨rfl, rfl⟩
    · exact t.value i o o' a b hq
    · exact hv hq

theorem collapse (t : Twin w h h') {k k' : AKind} (hk : KindEq w k k') :
    ∀ fuel i, Heap.collapse h.objs k fuel i = Heap.collapse h'.objs k' fuel i
  | 0, _ => rfl
  | fuel + 1, i => by
    simp only [Heap.collapse]
    rcases ho : h.objs[i]? with _ | o
    · rw [t.get_none ho]
    · obtain ⟨o', ho'⟩ := t.get ho
      have hs := t.array i o o' ho ho'
      rw [ho']
      simp only
      rw [hs.owns, hs.base]
      congr 1
      rcases o'.base with _ | b
      · rfl
      · simp only
        rcases hb : h.objs[b]? with _ | ob
        · rw [t.get_none hb]
        · obtain ⟨ob', hb'⟩ := t.get hb
          rw [hb']
          simp only
          rw [(t.kind b ob ob' hb hb').sameType hk, collapse t hk fuel b]

theorem pushView (t : Twin w h h') {i : Nat} {o o' : Obj} (hs : SameLayout o o') {k k' : AKind} (hk : KindEq w k k')
    {s : List Nat} (sel : List Nat → List Nat)
    (hv : k.isQuantity = true → ∀ j, InB s j → ∀ v : Valuation w,
      h.mem (o.addr (sel j)) * v.size k.dim = h'.mem (o'.addr (sel j)) * v.size k'.dim) :
    Twin w (h.pushView i o k s sel).2 (h'.pushView i o' k' s sel).2 := by
  unfold Heap.pushView
  refine t.push ⟨rfl, ?_, rfl, ?_, hs.writeable⟩ hk (fun hq v => ⟨rfl, fun j hj => ?_⟩)
  · funext j; exact congrFun hs.addr _
  · simp only
    rw [t.collapse hk, t.length]
  · exact hv hq j hj v

theorem alloc (t : Twin w h h') (hW : Heap.WF h) (hW' : Heap.WF h') {a a' : NDArr K} {k k' : AKind} (wr : Bool)
    (hs : a.shape = a'.shape) (hk : KindEq w k k')
    (hv : k.isQuantity = true → ∀ j, InB a.shape j → ∀ v : Valuation w,
      a.elem j * v.size k.dim = a'.elem j * v.size k'.dim) :
    Twin w (h.alloc a k wr).2 (h'.alloc a' k' wr).2 := by
  have key : ∀ (i : Nat) (o o' : Obj), (h.alloc a k wr).2.objs[i]? = some o → (h'.alloc a' k' wr).2.objs[i]? = some o' →
      (h.objs[i]? = some o ∧ h'.objs[i]? = some o') ∨ (o = Heap.allocObj h a k wr ∧ o' = Heap.allocObj h' a' k' wr) := by
    intro i o o' ho ho'
    rcases Heap.alloc_get_cases _ _ _ _ _ _ ho with h1 | ⟨h1, h2⟩ <;>
      rcases Heap.alloc_get_cases _ _ _ _ _ _ ho' with h3 | ⟨h3, h4⟩
    · exact .inl ⟨h1, h3⟩
    · exact absurd (Heap.get_lt h1) (by rw [t.length]; omega)
    · exact absurd (Heap.get_lt h3) (by rw [← t.length]; omega)
    · exact .inr ⟨h2, h4⟩
  refine ⟨?_, ?_, ?_, ?_, ?_⟩
  · rw [Heap.alloc_next, Heap.alloc_next, t.next, hs]
  · simp [Heap.alloc, Heap.push, t.length]
  · intro i o o' ho ho'
    rcases key i o o' ho ho' with ⟨a, b⟩ | ⟨rfl, rfl⟩
    · exact t.array i o o' a b
    · refine ⟨hs, ?_, rfl, rfl, rfl⟩
      simp only [Heap.allocObj, t.next, hs]
  · intro i o o' ho ho'
    rcases key i o o' ho ho' with ⟨a, b⟩ | ⟨rfl, rfl⟩
    · exact t.kind i o o' a b
    · exact hk
  · intro i o o' ho ho' hq v
    rcases key i o o' ho ho' with ⟨e, f⟩ | ⟨rfl, rfl⟩
    · have hA := t.array i o o' e f
      refine ⟨hA.shape, fun j hj => ?_⟩
      have hj' : InB o'.shape j := by rw [← hA.shape]; exact hj
      show (h.alloc a k wr).2.mem (o.addr j) * _ = (h'.alloc a' k' wr).2.mem (o'.addr j) * _
      rw [Heap.alloc_mem_old _ _ _ _ _ ((hW.ok i o e).bound j hj), Heap.alloc_mem_old _ _ _ _ _ ((hW'.ok i o' f).bound j hj')]
      exact t.cell e f hq j hj v
    · refine ⟨hs, fun j hj => ?_⟩
      have hj0 : InB a.shape j := hj
      have hj' : InB a'.shape j := by rw [← hs]; exact hj0
      show (h.alloc a k wr).2.mem (h.next + ravel a.shape j) * _ = (h'.alloc a' k' wr).2.mem (h'.next + ravel a'.shape j) * _
      rw [Heap.alloc_mem_new _ _ _ _ _ hj0, Heap.alloc_mem_new _ _ _ _ _ hj']
      exact hv hq j hj0 v

theorem allocQuantity (hr : Reachable hh w) (t : Twin w h h') (hW : Heap.WF h) (hW' : Heap.WF h') {q q' : Quantity K}
    (hq : PhysEq w q q') :
    (h.allocQuantity q.mag q.dim).1 = (h'.allocQuantity q'.mag q'.dim).1 ∧
    Twin w (h.allocQuantity q.mag q.dim).2 (h'.allocQuantity q'.mag q'.dim).2 := by
  obtain ⟨v0⟩ := exists_valuation hr.wf
  have hsh : q.mag.shape = q'.mag.shape := (hq.same v0).1
  have t1 := t.alloc hW hW' (a := q.mag) (a' := q'.mag) true hsh (KindEq.plain (w := w)) (fun e => by cases e)
  rw [Heap.allocQuantity_eq, Heap.allocQuantity_eq]
  refine ⟨?_, ?_⟩
  · simp [Heap.pushView, Heap.push, Heap.alloc, t.length]
  · have hs : SameLayout (Heap.allocObj h q.mag .ndarray true) (Heap.allocObj h' q'.mag .ndarray true) := by
      refine ⟨hsh, ?_, rfl, rfl, rfl⟩
      simp only [Heap.allocObj, t.next, hsh]
    rw [← t.length, ← hsh]
    refine t1.pushView hs (.quantity hq.left hq.right hq.compatible) id (fun _ j hj v => ?_)
    have hj' : InB q'.mag.shape j := by rw [← hsh]; exact hj
    show (h.alloc q.mag .ndarray true).2.mem (h.next + ravel q.mag.shape j) * _ =
      (h'.alloc q'.mag .ndarray true).2.mem (h'.next + ravel q'.mag.shape j) * _
    rw [Heap.alloc_mem_new _ _ _ _ _ hj, Heap.alloc_mem_new _ _ _ _ _ hj']
    exact (hq.same v).2 j hj

/-- Writing values that agree into the cells of an object. -/
theorem write (t : Twin w h h') (hC : h.Coherent) (hC' : h'.Coherent) {i : Nat} {o o' : Obj}
    (ho : h.objs[i]? = some o) (ho' : h'.objs[i]? = some o') (hq : o.kind.isQuantity = true)
    {m m' : Nat → K} (hm : ∀ a, ¬ o.Cell a → m a = h.mem a) (hm' : ∀ a, ¬ o.Cell a → m' a = h'.mem a)
    (hv : ∀ a, o.Cell a → ∀ v : Valuation w, m a * v.size o.kind.dim = m' a * v.size o'.kind.dim) :
    Twin w ⟨m, h.next, h.objs⟩ ⟨m', h'.next, h'.objs⟩ := by
  refine ⟨t.next, t.length, t.array, t.kind, ?_⟩
  intro j p p' hp hp' hqp v
  have hA := t.array j p p' hp hp'
  have hK := t.kind j p p' hp hp'
  have hKo := t.kind i o o' ho ho'
  refine ⟨hA.shape, fun k hk => ?_⟩
  show m (p.addr k) * v.size p.kind.dim = m' (p'.addr k) * v.size p'.kind.dim
  rw [← hA.addr]
  by_cases hc : o.Cell (p.addr k)
  · have hn : ¬ o.Apart p := fun e => e _ hc ⟨k, hk, rfl⟩
    have hn' : ¬ o'.Apart p' := fun e => hn (((t.array i o o' ho ho').apart hA).2 e)
    have e1 := hC i j o p ho hp hq hqp hn
    have e2 := hC' i j o' p' ho' hp' (hKo.isQuantity ▸ hq) (hK.isQuantity ▸ hqp) hn'
    have s1 : v.size o.kind.dim = v.size p.kind.dim :=
      dsize_same _ hKo.dimOK.1.canon.nodup hK.dimOK.1.canon.nodup e1
    have s2 : v.size o'.kind.dim = v.size p'.kind.dim :=
      dsize_same _ hKo.dimOK.2.1.canon.nodup hK.dimOK.2.1.canon.nodup e2
    rw [← s1, ← s2]
    exact hv _ hc v
  · rw [hm _ hc, hm' _ hc]
    have := t.cell hp hp' hqp k hk v
    rw [← hA.addr] at this
    exact this

/-- Overwriting an object that shares its memory with no other quantity, and changing its units. -/
theorem rewrite (t : Twin w h h') {i : Nat} {o o' : Obj}
    (ho : h.objs[i]? = some o) (ho' : h'.objs[i]? = some o') (hu : h.Unshared i)
    (hi : ∀ j k, InB o.shape j → InB o.shape k → o.addr j = o.addr k → j = k)
    {r r' : Quantity K} (hr : PhysEq w r r') (hs : r.mag.shape = o.shape) :
    Twin w ((h.store o r.mag).setDim i o r.dim) ((h'.store o' r'.mag).setDim i o' r'.dim) := by
  have hA := t.array i o o' ho ho'
  have hi' : ∀ j k, InB o'.shape j → InB o'.shape k → o'.addr j = o'.addr k → j = k := by
    rw [← hA.shape, ← hA.addr]; exact hi
  refine ⟨t.next, ?_, ?_, ?_, ?_⟩
  · simp [Heap.setDim, Heap.store, t.length]
  · intro j p p' hp hp'
    rw [Heap.setDim_get (h.store o r.mag) i o r.dim ho] at hp
    rw [Heap.setDim_get (h'.store o' r'.mag) i o' r'.dim ho'] at hp'
    by_cases e : j = i
    · rw [if_pos e] at hp hp'
      cases hp; cases hp'
      exact ⟨hA.shape, hA.addr, hA.owns, hA.base, hA.writeable⟩
    · rw [if_neg e] at hp hp'
      exact t.array j p p' hp hp'
  · intro j p p' hp hp'
    rw [Heap.setDim_get (h.store o r.mag) i o r.dim ho] at hp
    rw [Heap.setDim_get (h'.store o' r'.mag) i o' r'.dim ho'] at hp'
    by_cases e : j = i
    · rw [if_pos e] at hp hp'
      cases hp; cases hp'
      exact .quantity hr.left hr.right hr.compatible
    · rw [if_neg e] at hp hp'
      exact t.kind j p p' hp hp'
  · intro j p p' hp hp' hq v
    rw [Heap.setDim_get (h.store o r.mag) i o r.dim ho] at hp
    rw [Heap.setDim_get (h'.store o' r'.mag) i o' r'.dim ho'] at hp'
    by_cases e : j = i
    · rw [if_pos e] at hp hp'
      cases hp; cases hp'
      refine ⟨hA.shape, fun k hk => ?_⟩
      have hk0 : InB o.shape k := hk
      have hk' : InB o'.shape k := by rw [← hA.shape]; exact hk
      show (h.store o r.mag).mem (o.addr k) * _ = (h'.store o' r'.mag).mem (o'.addr k) * _
      rw [Heap.store_mem_cell _ _ _ hi k hk, Heap.store_mem_cell _ _ _ hi' k hk']
      exact (hr.same v).2 k (by show InB r.mag.shape k; rw [hs]; exact hk0)
    · rw [if_neg e] at hp hp'
      have hp0 : h.objs[j]? = some p := hp
      have hp0' : h'.objs[j]? = some p' := hp'
      have hB := t.array j p p' hp hp'
      refine ⟨hB.shape, fun k hk => ?_⟩
      have hk0 : InB p.shape k := hk
      have hap := hu j o p e ho hp hq
      have n1 : ¬ o.Cell (p.addr k) := fun c => hap _ c ⟨k, hk0, rfl⟩
      have n2 : ¬ o'.Cell (p'.addr k) := fun c => n1 (by rw [hB.addr]; exact (hA.cell _).2 c)
      show (h.store o r.mag).mem (p.addr k) * _ = (h'.store o' r'.mag).mem (p'.addr k) * _
      rw [Heap.store_mem_of_not_cell _ _ _ _ n1, Heap.store_mem_of_not_cell _ _ _ _ n2]
      exact t.cell hp0 hp0' hq k hk0 v

end Twin

/-! ## Writing cells one after the other -/

/-- Two memories agree on the cells satisfying `C`, up to factors. -/
theorem foldl_update_rel {β : Type _} (C : Nat → Prop) (addr : β → Nat) (val val' : β → K) (R : K → K → Prop) :
    ∀ (l : List β) (m m' : Nat → K), (∀ a, C a → R (m a) (m' a)) → (∀ i ∈ l, R (val i) (val' i)) →
      ∀ a, C a → R ((l.foldl (fun mem i => Function.update mem (addr i) (val i)) m) a)
        ((l.foldl (fun mem i => Function.update mem (addr i) (val' i)) m') a)
  | [], m, m', hm, _, a, ha => hm a ha
  | i :: l, m, m', hm, hv, a, ha => by
    rw [List.foldl_cons, List.foldl_cons]
    refine foldl_update_rel C addr val val' R l _ _ (fun b hb => ?_) (fun j hj => hv j (List.mem_cons_of_mem _ hj)) a ha
    by_cases e : b = addr i
    · subst e
      rw [Function.update_self, Function.update_self]
      exact hv i (List.mem_cons_self ..)
    · rw [Function.update_of_ne e, Function.update_of_ne e]
      exact hm b hb

theorem putLoop_rel (o o' : Obj) (hs : o.shape = o'.shape) (ha : o.addr = o'.addr) (R : K → K → Prop)
    (l l' : List K) (hl : List.Forall₂ R l l') :
    ∀ (js : List Int) (n : Nat) (m m' : Nat → K), (∀ a, o.Cell a → R (m a) (m' a)) →
      (Heap.putLoop o l n js m).1 = (Heap.putLoop o' l' n js m').1 ∧
      ∀ a, o.Cell a → R ((Heap.putLoop o l n js m).2 a) ((Heap.putLoop o' l' n js m').2 a)
  | [], n, m, m', hm => ⟨rfl, hm⟩
  | j :: js, n, m, m', hm => by
    have hlen := hl.length_eq
    simp only [Heap.putLoop]
    rw [← hs, ← hlen, ← ha]
    generalize (if j < 0 then j + (o.shape.prod : Int) else j) = p
    by_cases hp : 0 ≤ p ∧ p < (o.shape.prod : Int)
    · rw [if_pos hp, if_pos hp]
      rcases h1 : (NDArr.indices o.shape)[p.toNat]? with _ | i
      · exact ⟨rfl, hm⟩
      · rcases h2 : l[n % l.length]? with _ | x
        · have h3 : l'[n % l.length]? = none := by
            rw [List.getElem?_eq_none_iff] at h2 ⊢
            omega
          rw [h3]
          exact ⟨rfl, hm⟩
        · obtain ⟨h4, h5⟩ := List.getElem?_eq_some_iff.1 h2
          have h6 : n % l.length < l'.length := by omega
          have h3 : l'[n % l.length]? = some l'[n % l.length] := List.getElem?_eq_getElem h6
          rw [h3]
          simp only
          refine putLoop_rel o o' hs ha R l l' hl js (n + 1) _ _ (fun b hb => ?_)
          by_cases e : b = o.addr i
          · subst e
            rw [Function.update_self, Function.update_self, ← h5]
            exact hl.get h4 h6
          · rw [Function.update_of_ne e, Function.update_of_ne e]
            exact hm b hb
    · rw [if_neg hp, if_neg hp]
      exact ⟨rfl, hm⟩

end PQ
