import Verif.Lemmas.Heap4

/-! # Coherence of units under careful commands -/

namespace PQ

open NDArr

variable {K : Type _}

namespace Heap

theorem Obj.Apart.symm {o p : Obj} (h : o.Apart p) : p.Apart o := fun a ha hb => h a hb ha

theorem Coherent.of_objs {h h' : Heap K} (hc : Coherent h) (e : h'.objs = h.objs) : Coherent h' := by
  unfold Coherent; rw [e]; exact hc

theorem Coherent.push {h : Heap K} (hc : Coherent h) (o : Obj)
    (ho : o.kind.isQuantity = true → ∀ (j : Nat) (p : Obj), h.objs[j]? = some p →
      p.kind.isQuantity = true → ¬ o.Apart p → SameContent o.kind.dim p.kind.dim) :
    Coherent (h.push o).2 := by
  intro i j a b ha hb hqa hqb hab
  rcases push_get_cases _ _ _ _ ha with h1 | ⟨_, rfl⟩
  · rcases push_get_cases _ _ _ _ hb with h2 | ⟨_, rfl⟩
    · exact hc i j a b h1 h2 hqa hqb hab
    · exact fun u => (ho hqb i a h1 hqa (fun k => hab (Obj.Apart.symm k)) u).symm
  · rcases push_get_cases _ _ _ _ hb with h2 | ⟨_, rfl⟩
    · exact ho hqa j b h2 hqb hab
    · exact fun u => rfl

theorem Coherent.alloc {h : Heap K} [One K] (hc : Coherent h) (hw : WF h) (a : NDArr K) (k : AKind) (wr : Bool) :
    Coherent (h.alloc a k wr).2 := by
  refine Coherent.push (h := { h with mem := _, next := _ }) (hc.of_objs rfl) _ ?_
  intro _ j p hp _ hap
  refine absurd ?_ hap
  intro c hc' hc''
  exact absurd ((hw.ok j p hp).cell_lt hc'') (Nat.not_lt.2 (allocObj_cell (a := a) (kind := k) (wr := wr) hc'))

/-- Pushing a view whose cells belong to an object `o0`: enough that the units are right for every
quantity overlapping `o0`. -/
theorem Coherent.pushView {h : Heap K} (hc : Coherent h) {i : Nat} {o : Obj} {kind : AKind}
    {s : List Nat} {sel : List Nat → List Nat} (hs : ∀ j, InB s j → InB o.shape (sel j))
    (hd : kind.isQuantity = true → ∀ (j : Nat) (p : Obj), h.objs[j]? = some p →
      p.kind.isQuantity = true → ¬ o.Apart p → SameContent kind.dim p.kind.dim) :
    Coherent (h.pushView i o kind s sel).2 := by
  refine hc.push _ ?_
  intro hq j p hp hqp hap
  refine hd hq j p hp hqp (fun k => hap ?_)
  intro c hc' hc''
  exact k c (pushView_cell hs hc') hc''

/-- A view of a quantity with its units. -/
theorem Coherent.pushView_same {h : Heap K} (hc : Coherent h) {i : Nat} {o : Obj}
    (ho : h.objs[i]? = some o) {kind : AKind} {s : List Nat} {sel : List Nat → List Nat}
    (hs : ∀ j, InB s j → InB o.shape (sel j))
    (hk : kind.isQuantity = true → o.kind.isQuantity = true ∧ kind.dim = o.kind.dim) :
    Coherent (h.pushView i o kind s sel).2 := by
  refine hc.pushView hs (fun hq j p hp hqp hap => ?_)
  obtain ⟨h1, h2⟩ := hk hq
  rw [h2]
  exact hc i j o p ho hp h1 hqp hap

theorem Coherent.allocQuantity {h : Heap K} [One K] (hc : Coherent h) (hw : WF h) (a : NDArr K) (d : Dim) :
    Coherent (h.allocQuantity a d).2 := by
  rw [allocQuantity_eq]
  refine (hc.alloc hw a .ndarray true).pushView (fun _ hj => hj) ?_
  intro _ j p hp hqp hap
  rcases alloc_get_cases h a .ndarray true j p hp with h2 | ⟨_, rfl⟩
  · refine absurd ?_ hap
    intro c hc' hc''
    exact absurd ((hw.ok j p h2).cell_lt hc'') (Nat.not_lt.2 (allocObj_cell hc'))
  · cases hqp

theorem Coherent.setDim {h : Heap K} (hc : Coherent h) {i : Nat} {o : Obj} (ho : h.objs[i]? = some o)
    (hu : h.Unshared i) (d : Dim) : Coherent (h.setDim i o d) := by
  intro j k a b ha hb hqa hqb hab
  rw [setDim_get h i o d ho] at ha hb
  by_cases ej : j = i
  · rw [if_pos ej] at ha
    cases ha
    by_cases ek : k = i
    · rw [if_pos ek] at hb
      cases hb
      exact fun u => rfl
    · rw [if_neg ek] at hb
      exact absurd (hu k o b ek ho hb hqb) hab
  · rw [if_neg ej] at ha
    by_cases ek : k = i
    · rw [if_pos ek] at hb
      cases hb
      exact absurd (fun c h1 h2 => hu j o a ej ho ha hqa c h2 h1) hab
    · rw [if_neg ek] at hb
      exact hc j k a b ha hb hqa hqb hab

theorem Coherent.store_setDim {h : Heap K} (hc : Coherent h) {i : Nat} {o : Obj}
    (ho : h.objs[i]? = some o) (hu : h.Unshared i) (m : NDArr K) (d : Dim) :
    Coherent ((h.store o m).setDim i o d) :=
  Coherent.setDim (h := h.store o m) (hc.of_objs rfl) ho hu d

theorem view_base {h : Heap K} {i : Nat} {o : Obj} (ho : h.objs[i]? = some o)
    (hv : h.ViewOfQuantity i) : h.baseIsQuantity o = true := by
  obtain ⟨o', b, ob, h1, h2, h3, h4⟩ := hv
  rw [ho] at h1; cases h1
  exact baseIsQuantity_of h2 h3 h4

theorem empty_coherent [Zero K] : Coherent (Heap.empty : Heap K) := by
  intro i j o p ho
  simp [Heap.empty] at ho

section
variable [Zero K] [One K] [Add K] [Sub K] [Mul K] [Div K] [RPow K] [PyFloor K] [DecidableEq K]

omit [One K] [Add K] [Sub K] [Mul K] [Div K] [RPow K] [PyFloor K] in
theorem ufuncInto_coherent {np2 : Bool} {w : World K} {f : UF2} {g : K → K → K} {h : Heap K} {i : Nat}
    {o : Obj} {y : Operand K} (hc : Coherent h) (ho : h.objs[i]? = some o) (hu : h.Unshared i) :
    Coherent (ufuncInto np2 w f g h i o y).2 := by
  unfold ufuncInto
  split
  · exact hc
  · split
    · exact hc
    · split
      · exact hc
      · split
        · exact hc.of_objs rfl
        · split
          · exact hc
          · exact hc.store_setDim ho hu _ _

theorem inplace_coherent {np2 : Bool} {w : World K} {h : Heap K} {op : IOp} {i : Nat} {o : Obj}
    {x : Operand K} (hw : WF h) (hc : Coherent h) (ho : h.objs[i]? = some o)
    (hca : match op with
      | .mul | .div => h.Unshared i ∨ h.ViewOfQuantity i
      | .floordiv => h.Unshared i
      | _ => True) : Coherent (inplace np2 w h op i o x).2 := by
  by_cases hk : ∃ d, o.kind = .quantity d
  · obtain ⟨d, hk⟩ := hk
    by_cases hop : IOp.keeps op = true
    · exact hc.of_objs (inplace_objs_keeps ho hk hop)
    · have key : (h.Unshared i ∨ h.ViewOfQuantity i) → (op = .mul ∨ op = .div) →
          Coherent (inplace np2 w h op i o x).2 := by
        intro hcare hop
        rcases hcare with hu | hv
        · rcases hop with rfl | rfl <;> unfold inplace <;> simp only [hk] <;> split
          all_goals first
            | exact hc
            | exact ufuncInto_coherent hc ho hu
        · by_cases hx : x.toQuantity.dim = []
          · exact hc.of_objs (inplace_objs_scale ho hk (by tauto) hx)
          · have hb := view_base ho hv
            have he : (!x.toQuantity.dim.isEmpty && h.baseIsQuantity o) = true := by
              rw [hb]; cases hxx : x.toQuantity.dim with
              | nil => exact absurd hxx hx
              | cons _ _ => rfl
            rcases hop with rfl | rfl <;> unfold inplace <;> simp only [hk, he, if_true] <;> exact hc
      cases op <;> simp only [IOp.keeps, not_true_eq_false] at hop
      · exact key hca (.inl rfl)
      · exact key hca (.inr rfl)
      · unfold inplace
        simp only [hk]
        exact ufuncInto_coherent hc ho hca
  · exact hc.of_objs (inplace_objs_nonquantity hw ho (fun d e => hk ⟨d, e⟩))

omit [Zero K] [Add K] [Sub K] [Mul K] [Div K] [PyFloor K] [DecidableEq K] [One K] in
theorem ipow_coherent {np2 : Bool} {h : Heap K} {i : Nat} {o : Obj} {e : ExpArg}
    (hc : Coherent h) (ho : h.objs[i]? = some o) (hca : h.Unshared i ∨ h.ViewOfQuantity i) :
    Coherent (ipow np2 h i o e).2 := by
  rcases hca with hu | hv
  · unfold ipow
    split
    · exact hc
    · exact hc
    · split
      · exact hc
      · split
        · exact hc
        · split
          · exact hc
          · split
            · exact hc
            · split
              · exact hc
              · split
                · exact hc
                · split
                  · exact hc
                  · split
                    · exact hc.of_objs rfl
                    · exact hc.store_setDim ho hu _ _
  · exact hc.of_objs (ipow_objs_protected ho (view_base ho hv))

omit [Zero K] [Add K] [Sub K] [PyFloor K] [DecidableEq K] in
theorem setUnits_coherent {w : World K} {h : Heap K} {i : Nat} {o : Obj} {d : Dim}
    (hc : Coherent h) (ho : h.objs[i]? = some o) (hca : h.Unshared i ∨ h.ViewOfQuantity i) :
    Coherent (setUnits w h i o d).2 := by
  unfold setUnits
  split
  · exact hc
  · exact hc
  · split
    · exact hc
    · rename_i hb
      have hu : h.Unshared i := hca.resolve_right (fun hv => hb (view_base ho hv))
      split
      · exact hc
      · split
        · exact hc
        · split
          · exact hc.store_setDim ho hu _ _
          · exact hc
          · exact hc

omit [Zero K] [Add K] [Sub K] [Mul K] [Div K] [RPow K] [PyFloor K] [DecidableEq K] [One K] in
theorem fill_coherent {h : Heap K} {i : Nat} {o : Obj} {x : Operand K} (hc : Coherent h)
    (ho : h.objs[i]? = some o) (hu : h.Unshared i) : Coherent (fill h i o x).2 := by
  unfold fill
  split
  · split
    · exact hc
    · simp only
      split
      · exact hc.of_objs rfl
      · exact hc.store_setDim ho hu _ _
      · exact hc.of_objs rfl
  · exact hc

omit [Zero K] [Add K] [Sub K] [Mul K] [Div K] [RPow K] [PyFloor K] [DecidableEq K] [One K] in
theorem into_coherent {h : Heap K} {f : Quantity K → Py (Quantity K)} {o : Obj} {out : Nat} {oo : Obj}
    (hc : Coherent h) (ho : h.objs[out]? = some oo) (hu : h.Unshared out) :
    Coherent (into h f o out oo).2 := by
  unfold into
  split
  · exact hc
  · split
    · exact hc
    · split
      · exact hc
      · split
        · exact hc
        · simp only
          split
          · exact hc.store_setDim ho hu _ _
          · exact hc.of_objs rfl

omit [Zero K] [Add K] [Sub K] [PyFloor K] [DecidableEq K] in
theorem wrap_coherent {w : World K} {h : Heap K} {i : Nat} {o : Obj} {d : Dim} (hw : WF h)
    (hc : Coherent h) (ho : h.objs[i]? = some o)
    (hca : ∀ (j : Nat) (o p : Obj), h.objs[i]? = some o → o.kind.isQuantity = false →
      h.objs[j]? = some p → p.kind.isQuantity = true → ¬ o.Apart p → SameContent d p.kind.dim) :
    Coherent (wrap w h i o d).2 := by
  unfold wrap
  split
  · rename_i hk
    exact hc.pushView (fun _ hj => hj) (fun _ j p hp hqp hap =>
      hca j o p ho (by rw [hk]; rfl) hp hqp hap)
  · rename_i hk
    have hq : o.kind.isQuantity = true := by
      cases hk' : o.kind with
      | ndarray => exact absurd hk' hk
      | quantity _ => rfl
      | unit _ => rfl
    split
    · split
      · exact hc.allocQuantity hw _ _
      · exact hc.pushView_same ho (fun _ hj => hj) (fun _ => ⟨hq, rfl⟩)
    · split
      · exact hc
      · rename_i q _
        have h1 := hc.allocQuantity hw q.mag q.dim
        simp only
        rw [allocQuantity_eq] at h1 ⊢
        simp only [pushView] at h1 ⊢
        rw [push_get_new]
        exact h1.pushView_same (push_get_new _ _) (fun _ hj => hj) (fun _ => ⟨rfl, rfl⟩)

theorem run_coherent {np2 : Bool} {w : World K} {h : Heap K} {c : Cmd K} (hw : WF h)
    (hc : Coherent h) (hv : c.Valid) (hca : c.Careful h) : Coherent (h.run np2 w c).2 := by
  cases c with
  | newUnit u => exact hc.alloc hw _ _ _
  | newArray a => exact hc.alloc hw _ _ _
  | newQuantity a d => exact hc.allocQuantity hw _ _
  | wrap i d =>
    simp only [run]
    split
    · exact hc
    · rename_i o ho
      exact wrap_coherent hw hc ho hca
  | magnitude i =>
    simp only [run]
    split
    · exact hc
    · rename_i o ho
      split
      · exact hc.pushView_same ho (fun _ hj => hj) (fun e => by cases e)
      · exact hc
  | view i k =>
    simp only [run]
    split
    · exact hc
    · rename_i o ho
      split
      · exact hc
      · split
        · exact hc
        · rename_i s sel he
          have hb : k.Basic := hv
          exact hc.pushView_same ho (hb.sound _ _ _ he) (fun e => ⟨e, rfl⟩)
  | item i idx =>
    simp only [run]
    split
    · exact hc
    · split
      · split
        · exact hc.allocQuantity hw _ _
        · exact hc.alloc hw _ _ _
      · exact hc
  | copy i =>
    simp only [run]
    split
    · exact hc
    · split
      · exact hc
      · exact hc.alloc hw _ _ _
  | deepcopy i =>
    simp only [run]
    split
    · exact hc
    · rename_i o ho
      split
      · rename_i hq
        have h1 : Coherent (h.pushView i o .ndarray o.shape id).2 :=
          hc.pushView_same ho (fun _ hj => hj) (fun e => by cases e)
        simp only [pushView] at h1 ⊢
        rw [push_get_new]
        refine h1.pushView (fun _ hj => hj) (fun _ j p hp hqp hap => ?_)
        refine h1 i j o p (push_get_old _ _ _ _ ho) hp hq hqp hap
      · exact hc.alloc hw _ _ _
  | squeeze i k =>
    simp only [run]
    split
    · exact hc
    · rename_i o ho
      split
      · rename_i hq
        have h1 : Coherent (h.pushView i o .ndarray o.shape id).2 :=
          hc.pushView_same ho (fun _ hj => hj) (fun e => by cases e)
        simp only [pushView] at h1 ⊢
        rw [push_get_new]
        simp only
        split
        · exact hc
        · rename_i s sel he
          have hb : k.Basic := hv
          have hs := hb.sound _ _ _ he
          have h2 := h1.pushView_same (i := (h.push _).1) (push_get_new _ _) (kind := .ndarray)
            (s := s) (sel := sel) hs (fun e => by cases e)
          simp only [pushView] at h2
          rw [push_get_new]
          refine h2.pushView (fun _ hj => hj) (fun _ j p hp hqp hap => ?_)
          refine h2 i j o p (push_get_old _ _ _ _ (push_get_old _ _ _ _ ho)) hp hq hqp ?_
          intro hap'
          refine hap (fun c hc1 hc2 => hap' c ?_ hc2)
          obtain ⟨x, hx, e⟩ := hc1
          exact ⟨sel x, hs x hx, e⟩
      · exact hc
  | setitem i k v =>
    simp only [run]
    split
    · split
      · rw [result_snd]; exact hc.of_objs (setitem_objs _ _ _ _ _)
      · exact hc
    · exact hc
  | put i js v =>
    simp only [run]
    split
    · split
      · rw [result_snd]; exact hc.of_objs (put_objs _ _ _ _ _)
      · exact hc
    · exact hc
  | fill i v =>
    simp only [run]
    split
    · split
      · rw [result_snd]; exact fill_coherent hc (by assumption) hca
      · exact hc
    · exact hc
  | inplace op i v =>
    simp only [run]
    split
    · rw [result_snd]; exact inplace_coherent hw hc (by assumption) hca
    · exact hc
  | ipow i e =>
    simp only [run]
    split
    · exact hc
    · rw [result_snd]; exact ipow_coherent hc (by assumption) hca
  | setUnits i d =>
    simp only [run]
    split
    · exact hc
    · rw [result_snd]; exact setUnits_coherent hc (by assumption) hca
  | into f i out =>
    simp only [run]
    split
    · split
      · rw [result_snd]; exact into_coherent hc (by assumption) hca
      · exact hc
    · exact hc
  | rawWrite i k m =>
    simp only [run]
    split
    · exact hc
    · split
      · rw [result_snd]; exact hc.of_objs (assign_objs _ _ _ _)
      · exact hc

end
end Heap
end PQ
