import Verif.Lemmas.Heap2

/-! # Memory: every command is made of primitive steps -/

namespace PQ

variable {K : Type _}

open NDArr

namespace Heap

section prims
variable [One K]

theorem prims_view {H : Nat → Prop} {h : Heap K} {i : Nat} {o : Obj} {kind : AKind}
    (ho : h.objs[i]? = some o) (hk : ∀ u, kind ≠ .unit u) (hi : H i) :
    Prims H h (h.pushView i o kind o.shape id).2 :=
  .single (some i) (.view i o kind o.shape id ho hk (fun _ h => h) (fun _ _ _ _ e => e))
    (fun j hj => by cases hj; exact hi)

theorem prims_alloc {H : Nat → Prop} {h : Heap K} (a : NDArr K) (kind : AKind) (wr : Bool)
    (hk : ∀ u, kind ≠ .unit u) : Prims H h (h.alloc a kind wr).2 :=
  .single none (.alloc a kind wr (fun u e => absurd e (hk u))) (fun j hj => by cases hj)

omit [One K] in
theorem allocQuantity_eq (h : Heap K) (a : NDArr K) (d : Dim) :
    h.allocQuantity a d = (h.alloc a .ndarray true).2.pushView h.objs.length
      (allocObj h a .ndarray true) (.quantity d) a.shape id := by
  unfold allocQuantity
  simp only [alloc_get_new]
  rfl

theorem prims_allocQuantity {H : Nat → Prop} {h : Heap K} (a : NDArr K) (d : Dim)
    (hH : ∀ i, h.objs.length ≤ i → H i) : Prims H h (h.allocQuantity a d).2 := by
  rw [allocQuantity_eq]
  refine (prims_alloc a .ndarray true (fun u => by simp)).trans ?_
  exact prims_view (o := allocObj h a .ndarray true) (alloc_get_new h a .ndarray true)
    (fun u => by simp) (hH _ le_rfl)

theorem prims_store {H : Nat → Prop} {h : Heap K} {i : Nat} {o : Obj} (m : NDArr K)
    (ho : h.objs[i]? = some o) (hw : o.writeable = true) (hi : H i) : Prims H h (h.store o m) :=
  .single (some i) (.write i o _ ho hw (fun a ha => store_mem_of_not_cell h o m a ha))
    (fun j hj => by cases hj; exact hi)

theorem prims_store_setDim {H : Nat → Prop} {h : Heap K} {i : Nat} {o : Obj} {d0 : Dim}
    (m : NDArr K) (d : Dim) (ho : h.objs[i]? = some o) (hw : o.writeable = true)
    (hk : o.kind = .quantity d0) (hi : H i) : Prims H h ((h.store o m).setDim i o d) :=
  (prims_store m ho hw hi).trans
    (.single (some i) (.setDim i o d0 d ho hk) (fun j hj => by cases hj; exact hi))

theorem prims_assign {H : Nat → Prop} {h : Heap K} {i : Nat} {o : Obj} {k : Key} (m : NDArr K)
    (hs : k.Sound) (ho : h.objs[i]? = some o) (hi : H i) : Prims H h (h.assign o k m).2 := by
  unfold assign
  split
  · exact .refl _
  · rename_i hw
    split
    · exact .refl _
    · rename_i s sel he
      split
      · exact .refl _
      · exact .single (some i) (.write i o _ ho (by simpa using hw) (fun a ha =>
          storeSel_mem_of_not h o s sel _ a (fun j hj e => ha ⟨sel j, hs _ _ _ he j hj, e⟩)))
          (fun j hj => by cases hj; exact hi)

omit [One K] in
theorem putLoop_mem (o : Obj) (vals : List K) : ∀ (js : List Int) (n : Nat) (mem : Nat → K) (a : Nat),
    ¬ o.Cell a → (putLoop o vals n js mem).2 a = mem a
  | [], _, _, _, _ => rfl
  | j :: js, n, mem, a, ha => by
      unfold putLoop
      generalize hp : (if j < 0 then j + (o.shape.prod : Int) else j) = p
      simp only [hp]
      split
      · split
        · rename_i i x hi hx
          rw [putLoop_mem o vals js _ _ a ha]
          refine Function.update_of_ne (fun e => ha ?_) _ _
          exact ⟨i, mem_indices.1 (List.mem_of_getElem? hi), e.symm⟩
        · rfl
      · rfl

end prims

section run
variable [Zero K] [One K] [Add K] [Sub K] [Mul K] [Div K] [RPow K] [PyFloor K] [DecidableEq K]

omit [Add K] [Sub K] [Mul K] [Div K] [RPow K] [PyFloor K] in
theorem prims_ufuncInto {H : Nat → Prop} {np2 : Bool} {w : World K} {f : UF2} {g : K → K → K}
    {h : Heap K} {i : Nat} {o : Obj} (y : Operand K) (ho : h.objs[i]? = some o)
    (hk : (∃ d, o.kind = .quantity d) ∨ o.writeable = false) (hi : H i) :
    Prims H h (ufuncInto np2 w f g h i o y).2 := by
  unfold ufuncInto
  split
  · exact .refl _
  · split
    · exact .refl _
    · split
      · exact .refl _
      · rename_i hw
        have hw' : o.writeable = true := by simpa using hw
        split
        · exact prims_store _ ho hw' hi
        · split
          · exact .refl _
          · rcases hk with ⟨d, hd⟩ | hr
            · exact prims_store_setDim _ _ ho hw' hd hi
            · rw [hr] at hw'; cases hw'

omit [Zero K] [Add K] [Sub K] [Mul K] [Div K] [RPow K] [PyFloor K] [DecidableEq K] in
/-- In a well-formed heap a unit object is read-only. -/
theorem WF.unit_readonly {h : Heap K} (hw : WF h) {i : Nat} {o : Obj} (ho : h.objs[i]? = some o)
    {u : UKey} (hk : o.kind = .unit u) : o.writeable = false :=
  hw.ro i o u i o ho hk ho (fun hap =>
    have hs := (hw.unit i o u ho hk).1
    have hc : o.Cell (o.addr []) := ⟨[], by rw [hs]; exact .nil, rfl⟩
    hap _ hc hc)

omit [Zero K] [Add K] [Sub K] [Mul K] [Div K] [RPow K] [PyFloor K] [DecidableEq K] in
theorem WF.quantity_or_readonly {h : Heap K} (hw : WF h) {i : Nat} {o : Obj}
    (ho : h.objs[i]? = some o) (hq : o.kind.isQuantity = true) :
    (∃ d, o.kind = .quantity d) ∨ o.writeable = false := by
  cases hk : o.kind with
  | ndarray => rw [hk] at hq; cases hq
  | quantity d => exact .inl ⟨d, rfl⟩
  | unit u => exact .inr (hw.unit_readonly ho hk)

theorem prims_inplace {H : Nat → Prop} {np2 : Bool} {w : World K} {op : IOp} {h : Heap K} {i : Nat}
    {o : Obj} (x : Operand K) (hw : WF h) (ho : h.objs[i]? = some o) (hi : H i) :
    Prims H h (inplace np2 w h op i o x).2 := by
  by_cases hq : o.kind.isQuantity = true
  · have hk := hw.quantity_or_readonly ho hq
    unfold inplace
    simp only
    split
    · exact .refl _
    · exact .refl _
    · exact .refl _
    · exact .refl _
    · exact .refl _
    · split
      · exact .refl _
      · exact prims_ufuncInto _ ho hk hi
    · split
      · exact .refl _
      · exact prims_ufuncInto _ ho hk hi
    · split
      · exact .refl _
      · exact prims_ufuncInto _ ho hk hi
    · split
      · exact .refl _
      · exact prims_ufuncInto _ ho hk hi
    · split
      · exact .refl _
      · exact prims_ufuncInto _ ho hk hi
    · exact prims_ufuncInto _ ho hk hi
  · have : o.kind = .ndarray := by
      cases hk : o.kind <;> simp [hk, AKind.isQuantity] at hq ⊢
    unfold inplace
    simp only [this]
    exact .refl _

omit [Zero K] [Add K] [Sub K] [Mul K] [Div K] [PyFloor K] [DecidableEq K] in
theorem prims_ipow {H : Nat → Prop} {np2 : Bool} {h : Heap K} {i : Nat} {o : Obj} (e : ExpArg)
    (ho : h.objs[i]? = some o) (hi : H i) : Prims H h (ipow np2 h i o e).2 := by
  unfold ipow
  split
  · exact .refl _
  · exact .refl _
  · rename_i d hd
    split
    · exact .refl _
    · split
      · exact .refl _
      · split
        · exact .refl _
        · split
          · exact .refl _
          · split
            · exact .refl _
            · split
              · exact .refl _
              · split
                · exact .refl _
                · rename_i hw
                  have hw' : o.writeable = true := by simpa using hw
                  split
                  · exact prims_store _ ho hw' hi
                  · exact prims_store_setDim _ _ ho hw' hd hi

omit [Zero K] [Add K] [Sub K] [PyFloor K] [DecidableEq K] in
theorem prims_setUnits {H : Nat → Prop} {w : World K} {h : Heap K} {i : Nat} {o : Obj} (d : Dim)
    (ho : h.objs[i]? = some o) (hi : H i) : Prims H h (setUnits w h i o d).2 := by
  unfold setUnits
  split
  · exact .refl _
  · exact .refl _
  · rename_i d0 hd
    split
    · exact .refl _
    · split
      · exact .refl _
      · rename_i hw
        have hw' : o.writeable = true := by simpa using hw
        split
        · exact .refl _
        · split
          · exact prims_store_setDim _ _ ho hw' hd hi
          · exact .refl _
          · exact .refl _

omit [Zero K] [Add K] [Sub K] [PyFloor K] [DecidableEq K] in
theorem prims_setitem {H : Nat → Prop} {w : World K} {h : Heap K} {i : Nat} {o : Obj} {k : Key}
    (x : Operand K) (hs : k.Sound) (ho : h.objs[i]? = some o) (hi : H i) :
    Prims H h (setitem w h o k x).2 := by
  unfold setitem
  split
  · exact .refl _
  · exact prims_assign _ hs ho hi

omit [Zero K] [Add K] [Sub K] [PyFloor K] [DecidableEq K] in
theorem prims_put {H : Nat → Prop} {w : World K} {h : Heap K} {i : Nat} {o : Obj} (idxs : List Int)
    (x : Operand K) (ho : h.objs[i]? = some o) (hi : H i) : Prims H h (put w h o idxs x).2 := by
  unfold put
  split
  · exact .refl _
  · split
    · exact .refl _
    · rename_i m _ hw
      exact .single (some i) (.write i o _ ho (by simpa using hw)
        (fun a ha => putLoop_mem o _ idxs 0 h.mem a ha)) (fun j hj => by cases hj; exact hi)

omit [Zero K] [Add K] [Sub K] [Mul K] [Div K] [RPow K] [PyFloor K] [DecidableEq K] in
theorem prims_fill {H : Nat → Prop} {h : Heap K} {i : Nat} {o : Obj} (x : Operand K)
    (ho : h.objs[i]? = some o) (hi : H i) : Prims H h (fill h i o x).2 := by
  unfold fill
  split
  · split
    · exact .refl _
    · rename_i hw
      have hw' : o.writeable = true := by simpa using hw
      simp only
      split
      · exact prims_store _ ho hw' hi
      · exact prims_store_setDim _ _ ho hw' (by assumption) hi
      · exact prims_store _ ho hw' hi
  · exact .refl _

omit [Zero K] [Add K] [Sub K] [Mul K] [Div K] [RPow K] [PyFloor K] [DecidableEq K] in
theorem prims_into {H : Nat → Prop} {h : Heap K} {f : Quantity K → Py (Quantity K)} {o : Obj}
    {out : Nat} {oo : Obj} (ho : h.objs[out]? = some oo) (hi : H out) :
    Prims H h (into h f o out oo).2 := by
  unfold into
  split
  · exact .refl _
  · split
    · exact .refl _
    · split
      · exact .refl _
      · split
        · exact .refl _
        · rename_i hw
          have hw' : oo.writeable = true := by simpa using hw
          simp only
          split
          · rename_i hd
            exact prims_store_setDim _ _ ho hw' hd hi
          · exact prims_store _ ho hw' hi

omit [Zero K] [Add K] [Sub K] [PyFloor K] [DecidableEq K] in
theorem prims_wrap {H : Nat → Prop} {w : World K} {h : Heap K} {i : Nat} {o : Obj} (d : Dim)
    (ho : h.objs[i]? = some o) (hi : H i) (hH : ∀ i, h.objs.length ≤ i → H i) :
    Prims H h (wrap w h i o d).2 := by
  unfold wrap
  split
  · exact prims_view ho (fun u => by simp) hi
  · split
    · split
      · exact prims_allocQuantity _ _ hH
      · exact prims_view ho (fun u => by simp) hi
    · split
      · exact .refl _
      · rename_i q _
        have hp := prims_allocQuantity (h := h) q.mag q.dim hH
        simp only
        split
        · exact hp
        · rename_i o' ho'
          exact hp.trans (prims_view ho' (fun u => by simp) (hH _ (by
            rw [allocQuantity_eq]
            simp [pushView, push, alloc])))

omit [Zero K] [One K] [Add K] [Sub K] [Mul K] [Div K] [RPow K] [PyFloor K] [DecidableEq K] in
theorem result_snd (i : Nat) (r : Option PyErr × Heap K) : (result i r).2 = r.2 := by
  obtain ⟨e, h⟩ := r
  cases e <;> rfl

omit [Zero K] [One K] [Add K] [Sub K] [Mul K] [Div K] [RPow K] [PyFloor K] [DecidableEq K] in
theorem pushView_fst_ge (h : Heap K) (i : Nat) (o : Obj) (k : AKind) (s : List Nat)
    (sel : List Nat → List Nat) : (h.pushView i o k s sel).1 = h.objs.length := rfl

omit [Zero K] [One K] [Add K] [Sub K] [Mul K] [Div K] [RPow K] [PyFloor K] [DecidableEq K] in
theorem pushView_length (h : Heap K) (i : Nat) (o : Obj) (k : AKind) (s : List Nat)
    (sel : List Nat → List Nat) : (h.pushView i o k s sel).2.objs.length = h.objs.length + 1 := by
  simp [pushView, push]

/-- Every command consists of primitive steps on the object it touches and on objects it has just
created. -/
theorem run_prims (np2 : Bool) (w : World K) (h : Heap K) (c : Cmd K) (hw : WF h) (hc : c.Valid) :
    Prims (fun i => c.touches = some i ∨ h.objs.length ≤ i) h (h.run np2 w c).2 := by
  have hH : ∀ i, h.objs.length ≤ i → (c.touches = some i ∨ h.objs.length ≤ i) := fun i hi => .inr hi
  cases c with
  | newUnit u =>
    exact .single none (.alloc _ _ _ (fun _ _ => ⟨rfl, rfl, rfl⟩)) (fun j hj => by cases hj)
  | newArray a => exact prims_alloc _ _ _ (fun u => by simp)
  | newQuantity a d => exact prims_allocQuantity _ _ hH
  | wrap i d =>
    simp only [run]
    split
    · exact .refl _
    · rename_i o ho
      exact prims_wrap d ho (.inl rfl) hH
  | magnitude i =>
    simp only [run]
    split
    · exact .refl _
    · rename_i o ho
      split
      · exact prims_view ho (fun u => by simp) (.inl rfl)
      · exact .refl _
  | view i k =>
    simp only [run]
    split
    · exact .refl _
    · rename_i o ho
      split
      · exact .refl _
      · rename_i hk
        split
        · exact .refl _
        · rename_i s sel he
          have hb : k.Basic := hc
          exact Prims.single (h' := (h.pushView i o o.kind s sel).2) (some i)
            (Prim.view i o o.kind s sel ho (fun u e => hk u e)
              (fun j hj => hb.sound _ _ _ he j hj)
              (fun a b ha hb' e => hb.inj _ _ _ he a b ha hb' e))
            (fun j hj => by cases hj; exact .inl rfl)
  | item i idx =>
    simp only [run]
    split
    · exact .refl _
    · split
      · split
        · exact prims_allocQuantity _ _ hH
        · exact prims_alloc _ _ _ (fun u => by simp)
      · exact .refl _
  | copy i =>
    simp only [run]
    split
    · exact .refl _
    · split
      · exact .refl _
      · rename_i hk
        exact prims_alloc _ _ _ (fun u e => hk u e)
  | deepcopy i =>
    simp only [run]
    split
    · exact .refl _
    · rename_i o ho
      split
      · split
        · exact .refl _
        · rename_i om hom
          refine (prims_view (kind := .ndarray) ho (fun u => by simp) (.inl rfl)).trans ?_
          exact prims_view hom (fun u => by simp) (hH _ le_rfl)
      · exact prims_alloc _ _ _ (fun u => by simp)
  | squeeze i k =>
    simp only [run]
    split
    · exact .refl _
    · rename_i o ho
      split
      · split
        · exact .refl _
        · rename_i om hom
          split
          · exact .refl _
          · rename_i s sel he
            split
            · exact .refl _
            · rename_i om' hom'
              refine (prims_view (kind := .ndarray) ho (fun u => by simp) (.inl rfl)).trans ?_
              have hb : k.Basic := hc
              refine Prims.trans (h' := (pushView _ _ om .ndarray s sel).2)
                (Prims.single (some _) (Prim.view _ om .ndarray s sel hom (fun u => by simp)
                  (fun j hj => hb.sound _ _ _ he j hj)
                  (fun a b ha hb' e => hb.inj _ _ _ he a b ha hb' e))
                  (fun j hj => by cases hj; exact hH _ le_rfl)) ?_
              refine prims_view hom' (fun u => by simp) (hH _ ?_)
              rw [pushView_fst_ge, pushView_length]
              omega
      · exact .refl _
  | setitem i k v =>
    simp only [run]
    split
    · rename_i o x ho hx
      split
      · rw [result_snd]
        exact prims_setitem x hc ho (.inl rfl)
      · exact .refl _
    · exact .refl _
  | put i idxs v =>
    simp only [run]
    split
    · rename_i o x ho hx
      split
      · rw [result_snd]
        exact prims_put idxs x ho (.inl rfl)
      · exact .refl _
    · exact .refl _
  | fill i v =>
    simp only [run]
    split
    · rename_i o x ho hx
      split
      · rw [result_snd]
        exact prims_fill x ho (.inl rfl)
      · exact .refl _
    · exact .refl _
  | inplace op i v =>
    simp only [run]
    split
    · rename_i o x ho hx
      rw [result_snd]
      exact prims_inplace x hw ho (.inl rfl)
    · exact .refl _
  | ipow i e =>
    simp only [run]
    split
    · exact .refl _
    · rename_i o ho
      rw [result_snd]
      exact prims_ipow e ho (.inl rfl)
  | setUnits i d =>
    simp only [run]
    split
    · exact .refl _
    · rename_i o ho
      rw [result_snd]
      exact prims_setUnits d ho (.inl rfl)
  | into f i out =>
    simp only [run]
    split
    · rename_i o oo ho hoo
      split
      · rw [result_snd]
        exact prims_into hoo (.inl rfl)
      · exact .refl _
    · exact .refl _
  | rawWrite i k m =>
    simp only [run]
    split
    · exact .refl _
    · rename_i o ho
      split
      · rw [result_snd]
        exact prims_assign m hc ho (.inl rfl)
      · exact .refl _

theorem run_wf {np2 : Bool} {w : World K} {h : Heap K} {c : Cmd K} (hw : WF h) (hc : c.Valid) :
    WF (h.run np2 w c).2 := (run_prims np2 w h c hw hc).wf hw

omit [Add K] [Sub K] [Mul K] [Div K] [RPow K] [PyFloor K] [DecidableEq K] in
theorem empty_wf : WF (Heap.empty : Heap K) := by
  refine ⟨?_, ?_, ?_⟩ <;> intro i o <;> intros <;> simp_all [Heap.empty]

theorem Reached.wf {np2 : Bool} {w : World K} {h : Heap K} (r : Reached np2 w h) : WF h := by
  induction r with
  | empty => exact empty_wf
  | step c _ hc ih => exact run_wf ih hc

theorem runAll_prims (np2 : Bool) (w : World K) (H : Nat → Prop) :
    ∀ (cs : List (Cmd K)) (h : Heap K), WF h → (∀ c ∈ cs, c.Valid) →
      (∀ c ∈ cs, ∀ i, c.touches = some i → H i) → (∀ i, h.objs.length ≤ i → H i) →
      Prims H h (h.runAll np2 w cs)
  | [], h, _, _, _, _ => .refl _
  | c :: cs, h, hw, hc, ht, hn => by
      have hp := run_prims np2 w h c hw (hc c (by simp))
      have hp' : Prims H h (h.run np2 w c).2 :=
        hp.mono (fun i hi => hi.elim (ht c (by simp) i) (hn i))
      unfold runAll
      exact hp'.trans (runAll_prims np2 w H cs _ (hp.wf hw) (fun d hd => hc d (by simp [hd]))
        (fun d hd => ht d (by simp [hd])) (fun i hi => hn i (hp.length_le.trans hi)))

end run
end Heap
end PQ
