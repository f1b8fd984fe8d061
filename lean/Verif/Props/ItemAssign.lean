import Verif.Lemmas.ExampleHeap
import Verif.Props.Memory

/-!
# Properties C30 (deep copies), C31, C52, C53: item assignment, in-place operators, live views
-/

namespace PQ

open NDArr Heap

/-! ## C30: deep copies -/

section deep
variable {K : Type _} [Zero K] [One K] [Add K] [Sub K] [Mul K] [Div K] [RPow K] [PyFloor K]
  [DecidableEq K] {np2 : Bool} {w : World K} {h : Heap K}

/-- C71: `copy.deepcopy(q)` shows what `q` shows (for a unit object: as a plain quantity). -/
theorem C71_deepcopy_equal_partial (i : Nat) (d : Dim) (a : NDArr K) (hs : Sees h i (.quantity d) a) :
    ∃ j h1, h.run np2 w (.deepcopy i) = (.ok j, h1) ∧ Sees h1 j (.quantity d) a ∧
      Sees h1 i (.quantity d) a := by
  obtain ⟨o, ho, hk, hsa⟩ := hs.ex
  simp only [run, ho, hk, AKind.isQuantity, if_true, pushView]
  rw [push_get_new]
  refine ⟨_, _, rfl, ⟨_, push_get_new _ _, rfl, hsa⟩, ⟨o, ?_, hk, hsa⟩⟩
  exact push_get_old _ _ _ _ (push_get_old _ _ _ _ ho)

end deep

/-- C71 is false of `copy.deepcopy`, which shares its memory with the original:
`q = 1000*m; c = copy.deepcopy(q); c[...] = 5*m` changes `q`.  (The comment in `__deepcopy__` says
that the constructor copies; it does not.) -/
theorem C71_deepcopy_false :
    let h := (Heap.empty.runAll false exWorld [.newQuantity (NDArr.scalar 1000) dM, .deepcopy 1])
    let r := h.run false exWorld (.setitem 3 kAll (.lit (.quantity ⟨NDArr.scalar 5, dM⟩)))
    Sees h 1 (.quantity dM) (NDArr.scalar 1000) ∧ Sees h 3 (.quantity dM) (NDArr.scalar 1000) ∧
    r.1 = .ok 3 ∧ Sees r.2 1 (.quantity dM) (NDArr.scalar 5) := by
  intro h r
  have hd : exWorld.dne dM dM = false := by rw [dne_eq]; simp [World.deq, Dim.eq]
  have hr : r = result 3 ((h.setitem exWorld ⟨.quantity dM, [], fun j => 0 + ravel [] j, false, some 2, true⟩
      kAll (.quantity ⟨NDArr.scalar 5, dM⟩))) := rfl
  have hs : h.setitem exWorld ⟨.quantity dM, [], fun j => 0 + ravel [] j, false, some 2, true⟩
      kAll (.quantity ⟨NDArr.scalar 5, dM⟩)
      = h.assign ⟨.quantity dM, [], fun j => 0 + ravel [] j, false, some 2, true⟩ kAll (NDArr.scalar 5) := by
    unfold setitem assigned
    simp only [AKind.dim, Operand.toQuantity, hd, Bool.false_eq_true, if_false]
  rw [hr, hs]
  have sc : ∀ (h : Heap ℝ) (i : Nat) (k : AKind) (o : Obj) (x : ℝ), h.objs[i]? = some o →
      o.kind = k → o.shape = [] → h.mem (o.addr []) = x → Sees h i k (NDArr.scalar x) := by
    intro h i k o x ho hk hs hx
    refine ⟨o, ho, hk, hs, fun j hj => ?_⟩
    have hj' : InB o.shape j := hj
    rw [hs] at hj'
    cases hj'
    exact hx
  exact ⟨sc _ _ _ _ _ rfl rfl rfl rfl, sc _ _ _ _ _ rfl rfl rfl rfl, rfl, sc _ _ _ _ _ rfl rfl rfl rfl⟩

/-! ## C31 -/

section assign
variable {K : Type _} [Field K] [LinearOrder K] [IsStrictOrderedRing K] [RPow K] [LawfulRPow K]
  [PyFloor K] {np2 : Bool} {w : World K} {h : Heap K} {hh : Hasher}

omit [Field K] [LinearOrder K] [IsStrictOrderedRing K] [RPow K] [LawfulRPow K] [PyFloor K] in
theorem castTo_map (s : List Nat) (m : NDArr K) (f : K → K) :
    castTo s (m.map f) = match castTo s m with | .ok r => .ok (r.map f) | .error e => .error e := by
  unfold castTo
  simp only [show (m.map f).shape = m.shape from rfl]
  by_cases hb : bshape (m.shape.drop (dropOnes s.length m.shape)) s = some s
  · rw [if_pos hb, if_pos hb]; rfl
  · rw [if_neg hb, if_neg hb]

omit [PyFloor K] in
/-- The value stored has the physical value of the operand. -/
theorem assigned_phys (hw : Reachable hh w) {d : Dim} {x : Operand K} {m : NDArr K} (hd : DimOK w d)
    (hx : DimOK w x.dim) (hs : HashSafe w x.dim d) (h : assigned w d x = .ok m) (v : Valuation w) :
    m.map (fun y => y * v.size d) = v.physOp x := by
  have hp : v.phys x.toQuantity = v.physOp x := by
    cases x with
    | quantity q => rfl
    | array a =>
      change a.map (fun y => y * v.size []) = a
      exact NDArr.map_id' (fun y => by rw [show v.size [] = 1 from rfl, mul_one]) a
  have hdim : x.toQuantity.dim = x.dim := by cases x <;> rfl
  unfold assigned at h
  simp only at h
  split at h
  · split at h
    · cases h
    · rename_i r hr
      cases h
      rw [← hp, ← rescale_phys hw.wf (by rw [hdim]; exact hx) hd (by rw [hdim]; exact hs) hr v]
      obtain ⟨_, _, _, e, _⟩ := rescale_ok hw.wf (by rw [hdim]; exact hx) hd (by rw [hdim]; exact hs) hr
      unfold Valuation.phys
      rw [e v]
  · rename_i hne
    cases h
    rw [← hp]
    unfold Valuation.phys
    rw [dne_eq, Bool.not_eq_true, Bool.not_eq_false'] at hne
    have hsame : SameContent x.dim d := hs.direct (by
      rw [hdim] at hne
      simp only [World.deq, Dim.eq] at hne ⊢
      rw [Bool.beq_comm]; exact hne)
    rw [hdim, show v.size x.dim = v.size d from dsize_same v.val hx.canon.nodup hd.canon.nodup hsame]

omit [Field K] [LinearOrder K] [IsStrictOrderedRing K] [RPow K] [LawfulRPow K] [PyFloor K] in
theorem storeSel_mem_cases (h : Heap K) (o : Obj) (s : List Nat) (sel : List Nat → List Nat)
    (m : NDArr K) (a : Nat) :
    (∃ j, InB s j ∧ o.addr (sel j) = a ∧ (h.storeSel o s sel m).mem a = m.elem j) ∨
    ((∀ j, InB s j → o.addr (sel j) ≠ a) ∧ (h.storeSel o s sel m).mem a = h.mem a) := by
  have key : ∀ (l : List (List Nat)) (mem : Nat → K),
      (∃ j ∈ l, o.addr (sel j) = a ∧
        l.foldl (fun mem i => Function.update mem (o.addr (sel i)) (m.elem i)) mem a = m.elem j) ∨
      ((∀ j ∈ l, o.addr (sel j) ≠ a) ∧
        l.foldl (fun mem i => Function.update mem (o.addr (sel i)) (m.elem i)) mem a = mem a) := by
    intro l
    induction l with
    | nil => intro mem; exact .inr ⟨by simp, rfl⟩
    | cons i l ih =>
      intro mem
      rcases ih (Function.update mem (o.addr (sel i)) (m.elem i)) with ⟨j, hj, e, hm⟩ | ⟨hn, hm⟩
      · exact .inl ⟨j, by simp [hj], e, hm⟩
      · by_cases e : o.addr (sel i) = a
        · refine .inl ⟨i, by simp, e, ?_⟩
          rw [List.foldl_cons, hm, ← e, Function.update_self]
        · refine .inr ⟨?_, ?_⟩
          · intro j hj
            rcases List.mem_cons.1 hj with rfl | hj
            · exact e
            · exact hn j hj
          · rw [List.foldl_cons, hm, Function.update_of_ne (Ne.symm e)]
  rcases key (indices s) h.mem with ⟨j, hj, e, hm⟩ | ⟨hn, hm⟩
  · exact .inl ⟨j, mem_indices.1 hj, e, hm⟩
  · exact .inr ⟨fun j hj => hn j (mem_indices.2 hj), hm⟩

/-- C31: `q[key] = x` that succeeds stores `x` converted to the units of `q`: every selected element
afterwards has the physical value of the corresponding element of `x` (broadcast to the selection;
when the key selects an element several times, of one of the corresponding elements), every other
element and all units are as before. -/
theorem C31_setitem_stores (hw : Reachable hh w) (hr : Reached np2 w h) (i : Nat) (o : Obj) (k : Key)
    (hk : k.Sound) (xs : Src K) (x : Operand K) (h' : Heap K) (ho : h.objs[i]? = some o)
    (hx : h.src xs = some x) (hrun : h.run np2 w (.setitem i k xs) = (.ok i, h'))
    (hdo : DimOK w o.kind.dim) (hdx : DimOK w x.dim) (hs : HashSafe w x.dim o.kind.dim)
    (v : Valuation w) :
    h'.objs = h.objs ∧ ∃ s sel m, k o.shape = .ok (s, sel) ∧ castTo s (v.physOp x) = .ok m ∧
      ∀ idx, InB o.shape idx →
        (∃ j, InB s j ∧ sel j = idx ∧ (v.phys (h'.quantity o)).elem idx = m.elem j) ∨
        ((∀ j, InB s j → sel j ≠ idx) ∧
          (v.phys (h'.quantity o)).elem idx = (v.phys (h.quantity o)).elem idx) := by
  have hinj := (hr.wf.ok i o ho).inj
  simp only [run, ho, hx] at hrun
  split at hrun
  · have hobjs := setitem_objs w h o k x
    unfold setitem at hrun hobjs
    split at hrun
    · cases hrun
    · rename_i m hm
      simp only [hm] at hobjs
      unfold assign at hrun hobjs
      split at hrun
      · cases hrun
      · rename_i hwr
        rw [if_neg hwr] at hobjs
        split at hrun
        · cases hrun
        · rename_i s sel hks
          simp only [hks] at hobjs
          split at hrun
          · cases hrun
          · rename_i m' hm'
            cases hrun
            clear hobjs
            refine ⟨rfl, s, sel, m'.map (fun y => y * v.size o.kind.dim), hks, ?_, ?_⟩
            · rw [← assigned_phys hw hdo hdx hs hm v, castTo_map, hm']
            · intro idx hidx
              rcases storeSel_mem_cases h o s sel m' (o.addr idx) with ⟨j, hj, e, hv⟩ | ⟨hn, hv⟩
              · refine .inl ⟨j, hj, hinj _ _ (hk _ _ _ hks j hj) hidx e, ?_⟩
                change (h.storeSel o s sel m').mem (o.addr idx) * v.size o.kind.dim = m'.elem j * v.size o.kind.dim
                rw [hv]
              · refine .inr ⟨fun j hj e => hn j hj (by rw [e]), ?_⟩
                change (h.storeSel o s sel m').mem (o.addr idx) * v.size o.kind.dim = h.mem (o.addr idx) * v.size o.kind.dim
                rw [hv]
  · cases hrun

/-- C31, for a scalar value: every selected element has afterwards the physical value of `x`. -/
theorem C31_setitem_scalar (hw : Reachable hh w) (hr : Reached np2 w h) (i : Nat) (o : Obj) (k : Key)
    (hk : k.Sound) (xs : Src K) (x : Operand K) (h' : Heap K) (ho : h.objs[i]? = some o)
    (hx : h.src xs = some x) (hrun : h.run np2 w (.setitem i k xs) = (.ok i, h'))
    (hdo : DimOK w o.kind.dim) (hdx : DimOK w x.dim) (hs : HashSafe w x.dim o.kind.dim)
    (v : Valuation w) (hsc : (v.physOp x).shape = []) (s : List Nat) (sel : List Nat → List Nat)
    (hks : k o.shape = .ok (s, sel)) (j : List Nat) (hj : InB s j) :
    (v.phys (h'.quantity o)).elem (sel j) = (v.physOp x).elem [] := by
  obtain ⟨_, s', sel', m, h1, h2, h3⟩ := C31_setitem_stores hw hr i o k hk xs x h' ho hx hrun hdo hdx hs v
  rw [hks] at h1; cases h1
  rcases h3 (sel j) (hk _ _ _ hks j hj) with ⟨j', _, _, e⟩ | ⟨hn, _⟩
  · rw [e]
    unfold castTo at h2
    rw [hsc] at h2
    simp only [dropOnes, List.drop_nil] at h2
    split at h2
    · cases h2
      simp [bidx]
    · cases h2
  · exact absurd rfl (hn j hj)

omit [IsStrictOrderedRing K] [LawfulRPow K] in
/-- C31: an item assignment that raises changes nothing. -/
theorem C31_setitem_error (i : Nat) (k : Key) (xs : Src K) (e : PyErr) (h' : Heap K)
    (hrun : h.run np2 w (.setitem i k xs) = (.error e, h')) : h' = h := by
  simp only [run] at hrun
  split at hrun
  · split at hrun
    · unfold setitem at hrun
      split at hrun
      · cases hrun; rfl
      · unfold assign at hrun
        split at hrun
        · cases hrun; rfl
        · split at hrun
          · cases hrun; rfl
          · split at hrun
            · cases hrun; rfl
            · cases hrun
    · cases hrun; rfl
  · cases hrun; rfl

/-- C31: assigning, by `q[key] = x` or `q.put(indices, x)`, a value that cannot be converted to the
units of `q` is a `ValueError` and changes nothing. -/
theorem C31_incompatible (hw : Reachable hh w) (i : Nat) (o : Obj) (k : Key) (idxs : List Int) (xs : Src K)
    (x : Operand K) (ho : h.objs[i]? = some o) (hq : o.kind.isQuantity = true)
    (hx : h.src xs = some x)
    (hdo : DimOK w o.kind.dim) (hdx : DimOK w x.dim) (hs : HashSafe w x.dim o.kind.dim)
    (hn : ¬ Compatible w x.dim o.kind.dim) :
    h.run np2 w (.setitem i k xs) = (.error .valueError, h) ∧
    h.run np2 w (.put i idxs xs) = (.error .valueError, h) := by
  have hdim : x.toQuantity.dim = x.dim := by cases x <;> rfl
  have ha : assigned w o.kind.dim x = .error .valueError := by
    unfold assigned
    simp only
    have hne : w.dne o.kind.dim x.toQuantity.dim = true := by
      rw [dne_eq, Bool.not_eq_true', Bool.eq_false_iff, hdim]
      intro he
      refine hn (compatible_of_same hdx.canon.nodup hdo.canon.nodup (hs.direct ?_))
      simp only [World.deq, Dim.eq] at he ⊢
      rw [Bool.beq_comm]; exact he
    rw [if_pos hne]
    have := (rescale_eq_error_iff hw.wf (q := x.toQuantity) (d := o.kind.dim) (by rw [hdim]; exact hdx) hdo
      (by rw [hdim]; exact hs)).2 (by rw [hdim]; exact hn)
    rw [this]
  constructor
  · simp only [run, ho, hx, hq, if_true, setitem, ha, result]
  · simp only [run, ho, hx, hq, if_true, put, ha, result]

/-- C31: a value that can be converted is accepted when the array is writeable, the key is valid for
the shape of `q` and the shape of the value fits the selection. -/
theorem C31_compatible (hw : Reachable hh w) (i : Nat) (o : Obj) (k : Key) (xs : Src K) (x : Operand K)
    (ho : h.objs[i]? = some o) (hq : o.kind.isQuantity = true) (hx : h.src xs = some x)
    (hdo : DimOK w o.kind.dim) (hdx : DimOK w x.dim) (hs : HashSafe w x.dim o.kind.dim)
    (hc : Compatible w x.dim o.kind.dim) (hwr : o.writeable = true) (s : List Nat)
    (sel : List Nat → List Nat) (hks : k o.shape = .ok (s, sel)) (m : NDArr K)
    (hm : castTo s x.arr = .ok m) : (h.run np2 w (.setitem i k xs)).1 = .ok i := by
  have hdim : x.toQuantity.dim = x.dim := by cases x <;> rfl
  have hmag : x.toQuantity.mag = x.arr := by cases x <;> rfl
  have ha : ∃ f : K → K, assigned w o.kind.dim x = .ok (x.arr.map f) := by
    unfold assigned
    simp only
    split
    · obtain ⟨r, hr⟩ := (rescale_returns hw.wf (q := x.toQuantity) (d := o.kind.dim) (by rw [hdim]; exact hdx)
        hdo (by rw [hdim]; exact hs)).2 (by rw [hdim]; exact hc)
      obtain ⟨_, _, _, _, cf, _, e, _⟩ := rescale_ok hw.wf (by rw [hdim]; exact hdx) hdo
        (by rw [hdim]; exact hs) hr
      rw [hr]
      exact ⟨fun y => cf * y, by simp only [e, hmag]⟩
    · exact ⟨id, by rw [← hmag]; congr 1⟩
  obtain ⟨f, hf⟩ := ha
  simp only [run, ho, hx, hq, if_true, setitem, hf, assign, hwr, Bool.not_true, Bool.false_eq_true,
    if_false, hks, castTo_map, hm, result]

omit [Field K] [LinearOrder K] [IsStrictOrderedRing K] [RPow K] [LawfulRPow K] [PyFloor K] in
theorem indices_get {s : List Nat} {n : Nat} {i : List Nat} (h : (indices s)[n]? = some i) :
    InB s i ∧ ravel s i = n := by
  have hi : InB s i := mem_indices.1 (List.mem_of_getElem? h)
  refine ⟨hi, ?_⟩
  have h2 := indices_ravel hi
  obtain ⟨l1, e1⟩ := List.getElem?_eq_some_iff.1 h
  obtain ⟨l2, e2⟩ := List.getElem?_eq_some_iff.1 h2
  exact (List.Nodup.getElem_inj_iff (indices_nodup s)).1 (e2.trans e1.symm)

/-- The position an index of `put` denotes in a flattened array of `size` elements: negative indices
count from the end. -/
def flatPos (size : Nat) (j : Int) : Int := if j < 0 then j + size else j

omit [Field K] [LinearOrder K] [IsStrictOrderedRing K] [RPow K] [LawfulRPow K] [PyFloor K] in
theorem putLoop_spec (o : Obj)
    (hinj : ∀ i j, InB o.shape i → InB o.shape j → o.addr i = o.addr j → i = j) (vals : List K)
    (hv : vals ≠ []) (idx : List Nat) (hidx : InB o.shape idx) :
    ∀ (js : List Int) (n : Nat) (mem mem' : Nat → K), putLoop o vals n js mem = (none, mem') →
      ((∀ j ∈ js, flatPos o.shape.prod j ≠ ravel o.shape idx) → mem' (o.addr idx) = mem (o.addr idx)) ∧
      ∀ a t, js[a]? = some t → flatPos o.shape.prod t = ravel o.shape idx →
        (∀ b t', a < b → js[b]? = some t' → flatPos o.shape.prod t' ≠ ravel o.shape idx) →
        vals[(n + a) % vals.length]? = some (mem' (o.addr idx))
  | [], n, mem, mem', h => by
      cases h
      exact ⟨fun _ => rfl, fun a t h => by simp at h⟩
  | j :: js, n, mem, mem', h => by
      unfold putLoop at h
      simp only at h
      have hfp : (if j < 0 then j + (o.shape.prod : Int) else j) = flatPos o.shape.prod j := rfl
      generalize hpg : flatPos o.shape.prod j = p at hfp
      rw [hfp] at h
      split at h
      · rename_i hr
        have hn : n % vals.length < vals.length := Nat.mod_lt _ (List.length_pos_iff.2 hv)
        have hp : p.toNat < (indices o.shape).length := by
          rw [indices_length]; omega
        rw [List.getElem?_eq_getElem hn, List.getElem?_eq_getElem hp] at h
        simp only at h
        obtain ⟨hi, hrav⟩ := indices_get (List.getElem?_eq_getElem hp)
        generalize hii : (indices o.shape)[p.toNat] = i at h hi hrav
        have hflat : flatPos o.shape.prod j = ravel o.shape i := by
          omega
        obtain ⟨ih1, ih2⟩ := putLoop_spec o hinj vals hv idx hidx js (n + 1) _ mem' h
        by_cases e : i = idx
        · subst e
          constructor
          · intro hne
            exact absurd hflat (hne j (by simp))
          · intro a t ht hflat' hlast
            cases a with
            | zero =>
              rw [ih1 (fun j' hj' => ?_), Function.update_self]
              · exact List.getElem?_eq_getElem hn
              · obtain ⟨b, hb⟩ := List.getElem?_of_mem hj'
                exact hlast (b + 1) j' (by omega) (by simpa using hb)
            | succ a =>
              have := ih2 a t (by simpa using ht) hflat'
                (fun b t' hb ht' => hlast (b + 1) t' (by omega) (by simpa using ht'))
              rw [← this]
              congr 2
              omega
        · have hna : o.addr idx ≠ o.addr i := fun h' => e (hinj _ _ hi hidx h'.symm)
          constructor
          · intro hne
            rw [ih1 (fun j' hj' => hne j' (by simp [hj'])), Function.update_of_ne hna]
          · intro a t ht hflat' hlast
            cases a with
            | zero =>
              simp only [List.getElem?_cons_zero, Option.some.injEq] at ht
              subst ht
              exact absurd (ravel_inj hi hidx (by omega)) e
            | succ a =>
              have := ih2 a t (by simpa using ht) hflat'
                (fun b t' hb ht' => hlast (b + 1) t' (by omega) (by simpa using ht'))
              rw [← this]
              congr 2
              omega
      · cases h

omit [LinearOrder K] [IsStrictOrderedRing K] [RPow K] [LawfulRPow K] [PyFloor K] [Field K] in
theorem toList_map (m : NDArr K) (f : K → K) : (m.map f).toList = m.toList.map f := by
  simp [NDArr.toList, NDArr.map]

/-- C31: `q.put(indices, x)` that succeeds with a non-empty `x` stores the elements of `x`, converted to
the units of `q` and repeated as often as needed, at the positions given; a position given several times
gets the last of its values, every other element and all units are as before. -/
theorem C31_put_stores (hw : Reachable hh w) (hr : Reached np2 w h) (i : Nat) (o : Obj)
    (js : List Int) (xs : Src K) (x : Operand K) (h' : Heap K) (ho : h.objs[i]? = some o)
    (hx : h.src xs = some x) (hrun : h.run np2 w (.put i js xs) = (.ok i, h'))
    (hdo : DimOK w o.kind.dim) (hdx : DimOK w x.dim) (hs : HashSafe w x.dim o.kind.dim)
    (v : Valuation w) (hne : (v.physOp x).toList ≠ []) :
    h'.objs = h.objs ∧ ∀ idx, InB o.shape idx →
      ((∀ j ∈ js, flatPos o.shape.prod j ≠ ravel o.shape idx) →
        (v.phys (h'.quantity o)).elem idx = (v.phys (h.quantity o)).elem idx) ∧
      ∀ a t, js[a]? = some t → flatPos o.shape.prod t = ravel o.shape idx →
        (∀ b t', a < b → js[b]? = some t' → flatPos o.shape.prod t' ≠ ravel o.shape idx) →
        (v.physOp x).toList[a % (v.physOp x).toList.length]? = some ((v.phys (h'.quantity o)).elem idx) := by
  have hinj := (hr.wf.ok i o ho).inj
  simp only [run, ho, hx] at hrun
  split at hrun
  · unfold put at hrun
    split at hrun
    · cases hrun
    · rename_i m hm
      split at hrun
      · cases hrun
      · have hphys := assigned_phys hw hdo hdx hs hm v
        rw [← hphys, toList_map] at hne ⊢
        have hne' : m.toList ≠ [] := fun e => hne (by rw [e]; rfl)
        rcases hp : putLoop o m.toList 0 js h.mem with ⟨e, mem'⟩
        rw [hp] at hrun
        cases e with
        | some e => simp only [result] at hrun; cases hrun
        | none =>
          simp only [result] at hrun
          cases hrun
          refine ⟨rfl, fun idx hidx => ?_⟩
          obtain ⟨h1, h2⟩ := putLoop_spec o hinj m.toList hne' idx hidx js 0 h.mem mem' hp
          constructor
          · intro hn
            change mem' (o.addr idx) * v.size o.kind.dim = h.mem (o.addr idx) * v.size o.kind.dim
            rw [h1 hn]
          · intro a t ht hf hl
            have := h2 a t ht hf hl
            rw [Nat.zero_add] at this
            rw [List.length_map, List.getElem?_map, this]
            rfl
  · cases hrun

end assign

/-- Item assignment to the view `q[1:]` of `q = [1, 2, 3] * km` in metres: accepted. -/
example : ∃ s sel, kTail [2] = .ok (s, sel) ∧
    castTo s (Operand.quantity (⟨NDArr.scalar 5, dM⟩ : Quantity ℝ)).arr = .ok ⟨[1], fun _ => 5⟩ :=
  ⟨_, _, rfl, rfl⟩

example : (exHeap2.run false exWorld (.setitem 2 kTail (.lit (.quantity ⟨NDArr.scalar 5, dM⟩)))).1 = .ok 2 :=
  C31_compatible exWorld_reachable 2 _ kTail _ _ rfl rfl rfl (ex_dimOK dKm (by simp)) (ex_dimOK dM (by simp))
    ex_safe_m_km (compatible_symm exWorld_wf ex_compat) rfl [1] _ rfl ⟨[1], fun _ => 5⟩ rfl

/-- ... and in seconds: refused. -/
example :
    exHeap2.run false exWorld (.setitem 2 kTail (.lit (.quantity ⟨NDArr.scalar 5, dS⟩)))
      = (.error .valueError, exHeap2) :=
  (C31_incompatible exWorld_reachable 2 ⟨.quantity dKm, [2], _, false, some 1, true⟩ kTail []
    (.lit (.quantity ⟨NDArr.scalar 5, dS⟩)) (.quantity ⟨NDArr.scalar 5, dS⟩) rfl rfl rfl
    (ex_dimOK dKm (by simp)) (ex_dimOK dS (by simp)) ex_safe_s_km
    (fun h => ex_incompat (compatible_symm exWorld_wf h))).1

/-! ## C52: in-place operators agree with the binary ones -/

section inplace
variable {K : Type _} [Zero K] [One K] [Add K] [Sub K] [Mul K] [Div K] [RPow K] [PyFloor K]
  [DecidableEq K] {np2 : Bool} {w : World K} {h : Heap K}

/-- The binary operator belonging to an in-place operator. -/
def IOp.binary (w : World K) : IOp → Quantity K → Operand K → Py (Quantity K)
  | .add => Quantity.add w
  | .sub => Quantity.sub w
  | .mod => Quantity.mod w
  | .mul => Quantity.mul w
  | .div => Quantity.truediv w
  | .floordiv => Quantity.floordiv w

omit [Add K] [Sub K] [Mul K] [Div K] [RPow K] [PyFloor K] in
/-- A ufunc with output, before numpy 2, compared with the ufunc without. -/
theorem ufuncInto_ok {f : UF2} {g : K → K → K} (hw : Heap.WF h) {i : Nat} {o : Obj} {d : Dim}
    {y : Operand K} {h' : Heap K} (ho : h.objs[i]? = some o) (hk : o.kind = .quantity d)
    (hrun : ufuncInto false w f g h i o y = (none, h')) :
    ∃ r, applyUF2 w f g (.quantity (h.quantity o)) y = .ok r ∧ Sees h' i (.quantity r.dim) r.mag := by
  have hop : h.operand o = .quantity (h.quantity o) := by
    rw [operand_quantity hk]; simp [Heap.quantity, hk, AKind.dim]
  unfold ufuncInto at hrun
  split at hrun
  · cases hrun
  · rename_i m hm
    split at hrun
    · cases hrun
    · rename_i hsh
      split at hrun
      · cases hrun
      · split at hrun
        · rename_i h2; cases h2
        · rw [hop] at hrun
          split at hrun
          · cases hrun
          · rename_i dn hd
            cases hrun
            refine ⟨⟨m, dn⟩, ?_, ?_⟩
            · unfold applyUF2
              have hm' : NDArr.bin g (Operand.quantity (h.quantity o)).arr y.arr = .ok m := hm
              rw [hd]
              simp only [hm']
            · have hsh' : m.shape = o.shape := by simpa using hsh
              refine ⟨{ o with kind := .quantity dn }, ?_, rfl, hsh'.symm, fun x hx => ?_⟩
              · exact (setDim_get _ _ _ _ ho i).trans (if_pos rfl)
              · exact store_mem_cell h o m (hw.ok i o ho).inj x hx

/-- C52 (numpy before 2): if `q op= x` succeeds, then `q op x` would have given the same type, units and
elements that `q` has afterwards. -/
theorem C52_inplace_agrees (hr : Reached false w h) (op : IOp) (i : Nat) (o : Obj) (d : Dim) (xs : Src K)
    (x : Operand K) (h' : Heap K) (ho : h.objs[i]? = some o) (hk : o.kind = .quantity d)
    (hx : h.src xs = some x) (hrun : h.run false w (.inplace op i xs) = (.ok i, h')) :
    ∃ r, IOp.binary w op (h.quantity o) x = .ok r ∧ Sees h' i (.quantity r.dim) r.mag := by
  simp only [run, ho, hx] at hrun
  have hrun' : Heap.inplace false w h op i o x = (none, h') := by
    rcases hi : Heap.inplace false w h op i o x with ⟨e, h2⟩
    rw [hi] at hrun
    cases e <;> simp only [result] at hrun <;> cases hrun
    rfl
  unfold Heap.inplace at hrun'
  cases op <;> simp only [hk] at hrun' <;> simp only [IOp.binary]
  · unfold Quantity.add
    split at hrun'
    · cases hrun'
    · rename_i q hq
      rw [hq]
      exact ufuncInto_ok hr.wf ho hk hrun'
  · unfold Quantity.sub
    split at hrun'
    · cases hrun'
    · rename_i q hq
      rw [hq]
      exact ufuncInto_ok hr.wf ho hk hrun'
  · unfold Quantity.mod
    split at hrun'
    · cases hrun'
    · rename_i q hq
      rw [hq]
      exact ufuncInto_ok hr.wf ho hk hrun'
  · unfold Quantity.mul
    split at hrun'
    · cases hrun'
    · exact ufuncInto_ok hr.wf ho hk hrun'
  · unfold Quantity.truediv
    split at hrun'
    · cases hrun'
    · exact ufuncInto_ok hr.wf ho hk hrun'
  · unfold Quantity.floordiv
    exact ufuncInto_ok hr.wf ho hk hrun'

omit [One K] [Add K] [Sub K] [Mul K] [Div K] [RPow K] [PyFloor K] in
theorem ufuncInto_returns {f : UF2} {g : K → K → K} {i : Nat} {o : Obj} {d : Dim} {y : Operand K}
    {r : Quantity K} (hk : o.kind = .quantity d)
    (hr : applyUF2 w f g (.quantity (h.quantity o)) y = .ok r) (hs : r.mag.shape = o.shape)
    (hwr : o.writeable = true) : (ufuncInto np2 w f g h i o y).1 = none := by
  have hop : h.operand o = .quantity (h.quantity o) := by
    rw [operand_quantity hk]; simp [Heap.quantity, hk, AKind.dim]
  unfold applyUF2 at hr
  split at hr
  · cases hr
  · rename_i dn hd
    split at hr
    · cases hr
    · rename_i m hm
      cases hr
      have hm' : NDArr.bin g (h.arr o) y.arr = .ok m := hm
      unfold ufuncInto
      rw [hm']
      have hs' : m.shape = o.shape := hs
      simp only [hs', ne_eq, not_true_eq_false, if_false, hwr, Bool.not_true, Bool.false_eq_true, hop, hd]
      split <;> rfl

/-- C52: if `q op x` gives a result of the shape of `q`, then `q op= x` succeeds on a writeable `q` - for
`*=` and `/=` provided `x` has no units or `q` is not a view of a quantity. -/
theorem C52_inplace_succeeds (op : IOp) (i : Nat) (o : Obj) (d : Dim) (xs : Src K) (x : Operand K)
    (r : Quantity K) (ho : h.objs[i]? = some o) (hk : o.kind = .quantity d) (hx : h.src xs = some x)
    (hr : IOp.binary w op (h.quantity o) x = .ok r) (hs : r.mag.shape = o.shape)
    (hwr : o.writeable = true) (hv : op = .mul ∨ op = .div → x.dim = [] ∨ ¬ h.ViewOfQuantity i) :
    (h.run np2 w (.inplace op i xs)).1 = .ok i := by
  have hprot : (op = .mul ∨ op = .div) → (!x.toQuantity.dim.isEmpty && h.baseIsQuantity o) = false := by
    intro hop
    rcases hv hop with h1 | h1
    · have hdim : x.toQuantity.dim = x.dim := by cases x <;> rfl
      rw [hdim, h1]; rfl
    · have : h.baseIsQuantity o = false := by
        rw [Bool.eq_false_iff]
        intro hb
        obtain ⟨b, ob, h2, h3, h4⟩ := baseIsQuantity_spec hb
        exact h1 ⟨o, b, ob, ho, h2, h3, h4⟩
      rw [this, Bool.and_false]
  have key : (Heap.inplace np2 w h op i o x).1 = none := by
    unfold Heap.inplace
    cases op <;> simp only [hk] <;> simp only [IOp.binary] at hr
    · unfold Quantity.add at hr
      split at hr
      · cases hr
      · rename_i q hq
        rw [hq]
        exact ufuncInto_returns hk hr hs hwr
    · unfold Quantity.sub at hr
      split at hr
      · cases hr
      · rename_i q hq
        rw [hq]
        exact ufuncInto_returns hk hr hs hwr
    · unfold Quantity.mod at hr
      split at hr
      · cases hr
      · rename_i q hq
        rw [hq]
        exact ufuncInto_returns hk hr hs hwr
    · rw [if_neg (by rw [hprot (.inl rfl)]; simp)]
      exact ufuncInto_returns hk hr hs hwr
    · rw [if_neg (by rw [hprot (.inr rfl)]; simp)]
      exact ufuncInto_returns hk hr hs hwr
    · exact ufuncInto_returns hk hr hs hwr
  simp only [run, ho, hx]
  rcases hi : Heap.inplace np2 w h op i o x with ⟨e, h2⟩
  rw [hi] at key
  simp only at key
  subst key
  rfl

omit [One K] [Add K] [Sub K] [Mul K] [Div K] [RPow K] [PyFloor K] in
theorem ufuncInto_error {f : UF2} {g : K → K → K} {i : Nat} {o : Obj} {y : Operand K} {e : PyErr}
    {h' : Heap K} (hrun : ufuncInto np2 w f g h i o y = (some e, h')) : h' = h := by
  unfold ufuncInto at hrun
  split at hrun
  · cases hrun; rfl
  · split at hrun
    · cases hrun; rfl
    · split at hrun
      · cases hrun; rfl
      · split at hrun
        · cases hrun
        · split at hrun
          · cases hrun; rfl
          · cases hrun

/-- C52: an in-place operator that raises changes nothing. -/
theorem C52_inplace_error (op : IOp) (i : Nat) (xs : Src K) (e : PyErr) (h' : Heap K)
    (hrun : h.run np2 w (.inplace op i xs) = (.error e, h')) : h' = h := by
  simp only [run] at hrun
  split at hrun
  · rename_i o x ho hx
    have key : ∀ (e : PyErr) (h2 : Heap K), Heap.inplace np2 w h op i o x = (some e, h2) → h2 = h := by
      intro e h2 hi
      unfold Heap.inplace at hi
      simp only at hi
      split at hi <;> first
        | (cases hi; rfl)
        | exact ufuncInto_error hi
        | (split at hi
           · cases hi; rfl
           · exact ufuncInto_error hi)
    rcases hi : Heap.inplace np2 w h op i o x with ⟨e', h2⟩
    rw [hi] at hrun
    cases e' <;> simp only [result] at hrun <;> cases hrun
    exact key _ _ hi
  · cases hrun; rfl

/-- C83 (numpy 2): if `q += x`, `q -= x` or `q %= x` succeeds and `q + x` (and so on) does too, then `q`
has afterwards the units and elements of that result. -/
theorem C83_inplace_agrees_partial (hr : Reached true w h) (op : IOp) (hop : op = .add ∨ op = .sub ∨ op = .mod)
    (i : Nat) (o : Obj) (d : Dim) (xs : Src K) (x : Operand K) (h' : Heap K) (r : Quantity K)
    (ho : h.objs[i]? = some o) (hk : o.kind = .quantity d) (hx : h.src xs = some x)
    (hrun : h.run true w (.inplace op i xs) = (.ok i, h'))
    (hbin : IOp.binary w op (h.quantity o) x = .ok r) : Sees h' i (.quantity r.dim) r.mag := by
  have key : ∀ (f : UF2) (g : K → K → K) (y : Operand K) (r : Quantity K) (h2 : Heap K),
      (∀ d', ufunc2Dim w f (.quantity (h.quantity o)) y = .ok d' → d' = d) →
      applyUF2 w f g (.quantity (h.quantity o)) y = .ok r →
      ufuncInto true w f g h i o y = (none, h2) → Sees h2 i (.quantity r.dim) r.mag := by
    intro f g y r h2 hd ha hu
    unfold applyUF2 at ha
    split at ha
    · cases ha
    · rename_i dn hdn
      split at ha
      · cases ha
      · rename_i m hm
        cases ha
        have hm' : NDArr.bin g (h.arr o) y.arr = .ok m := hm
        unfold ufuncInto at hu
        rw [hm'] at hu
        simp only [if_true] at hu
        split at hu
        · cases hu
        · rename_i hsh
          split at hu
          · cases hu
          · cases hu
            have hsh' : m.shape = o.shape := by simpa using hsh
            refine ⟨o, ho, ?_, hsh'.symm, fun y hy => store_mem_cell h o m (hr.wf.ok i o ho).inj y hy⟩
            rw [hk, hd dn hdn]
  have hrun' : Heap.inplace true w h op i o x = (none, h') := by
    simp only [run, ho, hx] at hrun
    rcases hi : Heap.inplace true w h op i o x with ⟨e, h2⟩
    rw [hi] at hrun
    cases e <;> simp only [result] at hrun <;> cases hrun
    rfl
  have hcu : ∀ y d', dCheckUniform w (.quantity (h.quantity o)) y = .ok d' → d' = d := by
    intro y d' hd'
    rw [checkUniform_first hd']
    simp [Heap.quantity, hk, AKind.dim]
  unfold Heap.inplace at hrun'
  rcases hop with rfl | rfl | rfl <;> simp only [hk] at hrun' <;> simp only [IOp.binary] at hbin
  · unfold Quantity.add at hbin
    split at hrun'
    · cases hrun'
    · rename_i q hq
      rw [hq] at hbin
      exact key _ _ _ _ _ (fun d' hd' => hcu (.quantity q) d' (by simpa only [ufunc2Dim] using hd')) hbin hrun'
  · unfold Quantity.sub at hbin
    split at hrun'
    · cases hrun'
    · rename_i q hq
      rw [hq] at hbin
      exact key _ _ _ _ _ (fun d' hd' => hcu (.quantity q) d' (by simpa only [ufunc2Dim] using hd')) hbin hrun'
  · unfold Quantity.mod at hbin
    split at hrun'
    · cases hrun'
    · rename_i q hq
      rw [hq] at hbin
      exact key _ _ _ _ _ (fun d' hd' => hcu (.quantity q) d' (by simpa only [ufunc2Dim] using hd')) hbin hrun'

/-! ## C53: views are live -/

/-- C53: a view shows, at any later time, the elements its owner has at that time: `q[1:][j]` is
`q[j+1]` whatever has been done to `q`, to the view or to anything else in between. -/
theorem C53_view_live (hr : Reached np2 w h) (i v : Nat) (k : Key) (hk : k.Basic) (o : Obj) (h1 : Heap K)
    (s : List Nat) (sel : List Nat → List Nat) (ho : h.objs[i]? = some o) (hks : k o.shape = .ok (s, sel))
    (hrun : h.run np2 w (.view i k) = (.ok v, h1)) (cs : List (Cmd K)) (hc : ∀ c ∈ cs, c.Valid)
    (ov oi : Obj) (hov : (h1.runAll np2 w cs).objs[v]? = some ov)
    (hoi : (h1.runAll np2 w cs).objs[i]? = some oi) :
    ((h1.runAll np2 w cs).arr ov).shape = s ∧
      ∀ j, ((h1.runAll np2 w cs).arr ov).elem j = ((h1.runAll np2 w cs).arr oi).elem (sel j) := by
  have hw1 : Heap.WF h1 := by
    have := run_wf (np2 := np2) (w := w) (c := .view i k) hr.wf hk
    rwa [hrun] at this
  have hp := runAll_prims np2 w (fun _ => True) cs _ hw1 hc (fun _ _ _ _ => trivial) (fun _ _ => trivial)
  have hview : ((Except.ok v, h1) : Py Nat × Heap K) = (Except.ok (h.pushView i o o.kind s sel).1, (h.pushView i o o.kind s sel).2) := by
    rw [← hrun]
    simp only [run, ho]
    split
    · rename_i u hu
      simp only [run, ho, hu] at hrun
      cases hrun
    · simp only [hks]
  simp only [Prod.mk.injEq, Except.ok.injEq] at hview
  obtain ⟨rfl, rfl⟩ := hview
  have hnew := push_get_new h ⟨o.kind, s, fun j => o.addr (sel j), false,
      some (collapse h.objs o.kind h.objs.length i), o.writeable⟩
  obtain ⟨ov', hov', sv, _⟩ := hp.stable _ _ hnew
  have hold : (h.pushView i o o.kind s sel).2.objs[i]? = some o := push_get_old _ _ _ _ ho
  obtain ⟨oi', hoi', si, _⟩ := hp.stable _ _ hold
  rw [hoi] at hoi'; cases hoi'
  have : ov = ov' := by
    have := hov.symm.trans hov'
    simpa using this
  subst this
  refine ⟨sv.shape, fun j => ?_⟩
  simp only [arr, sv.addr, si.addr]

end inplace

/-- C83 is false of `*=` with numpy 2, which multiplies the elements but keeps the units:
`q = 1000*m; q *= 2*s` gives 2000 m. -/
theorem C83_np2_false :
    let h := (Heap.empty.runAll true exWorld [.newQuantity (NDArr.scalar 1000) dM])
    let r := h.run true exWorld (.inplace .mul 1 (.lit (.quantity ⟨NDArr.scalar 2, dS⟩)))
    r.1 = .ok 1 ∧ Sees r.2 1 (.quantity dM) (NDArr.scalar 2000) ∧
    ∃ q, Quantity.mul exWorld ⟨NDArr.scalar 1000, dM⟩ (.quantity ⟨NDArr.scalar 2, dS⟩) = .ok q ∧
      q.dim = [(uM, 1), (uS, 1)] := by
  refine ⟨rfl, ⟨_, rfl, rfl, rfl, fun j hj => ?_⟩, _, rfl, rfl⟩
  cases hj
  change (1000 : ℝ) * 2 = 2000
  norm_num

/-- `q = [1, 2, 3] * km; v = q[1:]; v += v` -/
example : (exHeap2.run false exWorld (.inplace .add 2 (.obj 2))).1 = .ok 2 := by
  have hd : exWorld.dne dKm dKm = false := by rw [dne_eq]; simp [World.deq, Dim.eq]
  have he : exWorld.deq dKm dKm = true := by simp [World.deq, Dim.eq]
  have hb : ∀ x : NDArr ℝ, x.shape = [2] →
      ∃ m, NDArr.bin (· + ·) x x = .ok m ∧ m.shape = [2] := by
    intro x hx
    unfold NDArr.bin
    rw [hx]
    exact ⟨_, rfl, rfl⟩
  obtain ⟨m, hm, hs⟩ := hb (exHeap2.arr ⟨.quantity dKm, [2], fun j => 0 + ravel [3] (j.map (· + 1)), false, some 1, true⟩) rfl
  refine C52_inplace_succeeds .add 2 ⟨.quantity dKm, [2], fun j => 0 + ravel [3] (j.map (· + 1)), false, some 1, true⟩ dKm _ _
    ⟨m, dKm⟩ rfl rfl rfl ?_ hs rfl (by simp)
  simp only [IOp.binary, Quantity.add, Quantity.scaleOther, operand, Heap.quantity, AKind.dim, Operand.toQuantity,
    AKind.isQuantity, if_true, hd, Bool.false_eq_true, if_false, applyUF2, ufunc2Dim, dCheckUniform, he, Operand.arr]
  exact congrArg (fun z : Py (NDArr ℝ) => match z with
    | .error e => (.error e : Py (Quantity ℝ))
    | .ok m => .ok ⟨m, dKm⟩) hm

example (h2 : Heap ℝ) (cs : List (Cmd ℝ)) (hc : ∀ c ∈ cs, c.Valid) (hh : h2 = exHeap2.runAll false exWorld cs)
    (ov oi : Obj) (hv : h2.objs[2]? = some ov) (hi : h2.objs[1]? = some oi) (n : Nat) :
    (h2.arr ov).elem [n] = (h2.arr oi).elem [n + 1] := by
  subst hh
  exact (C53_view_live exHeap1_reached 1 2 kTail kTail_basic _ exHeap2 _ _ rfl rfl rfl cs hc ov oi hv hi).2 [n]

end PQ
