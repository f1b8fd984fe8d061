import Verif.Props.ItemAssign
import Verif.Props.Out
import Verif.Props.UncertainMemory

/-!
# Properties C109, C110: an operation that raises changes nothing

`h` ranges over all states of memory a program can reach, `np2` over both behaviours of numpy.
-/

namespace PQ

open NDArr Heap

/-- `x.put(...)`. -/
def Cmd.IsPut {K : Type _} : Cmd K → Prop
  | .put _ _ _ => True
  | _ => False

/-- `j` is a position in an array of `size` elements; negative ones count from the end. -/
def InRange (size : Nat) (j : Int) : Prop := -(size : Int) ≤ j ∧ j < size

section
variable {K : Type _} [Zero K] [One K] [Add K] [Sub K] [Mul K] [Div K] [RPow K] [PyFloor K]
  [DecidableEq K] {np2 : Bool} {w : World K} {h : Heap K}

omit [Zero K] [Add K] [Sub K] [Mul K] [Div K] [RPow K] [PyFloor K] [DecidableEq K] in
theorem fill_error (hw : Heap.WF h) {i : Nat} {o : Obj} {x : Operand K} {e : PyErr} {h' : Heap K}
    (ho : h.objs[i]? = some o) (hq : o.kind.isQuantity = true) (hf : h.fill i o x = (some e, h')) :
    h' = h := by
  unfold fill at hf
  split at hf
  · split at hf
    · cases hf; rfl
    · rename_i hwr
      simp only at hf
      split at hf
      · cases hf
      · cases hf
      · rename_i hk
        exfalso
        cases hkk : o.kind with
        | ndarray => rw [hkk] at hq; cases hq
        | quantity d => rename_i a _ _; exact absurd hkk (by rename_i q hq' ; intro hc; exact hk d hc)
        | unit u => exact hwr (by rw [hw.unit_readonly ho hkk]; rfl)
  · cases hf; rfl

omit [Zero K] [One K] [Add K] [Sub K] [Mul K] [Div K] [PyFloor K] [DecidableEq K] in
theorem ipow_error {i : Nat} {o : Obj} {x : ExpArg} {e : PyErr} {h' : Heap K}
    (hf : h.ipow np2 i o x = (some e, h')) : h' = h := by
  unfold ipow at hf
  repeat' first
    | (cases hf; rfl)
    | (cases hf; done)
    | split at hf

omit [Add K] [Sub K] [PyFloor K] in
theorem setUnits_error {i : Nat} {o : Obj} {d : Dim} {e : PyErr} {h' : Heap K}
    (hf : h.setUnits w i o d = (some e, h')) : h' = h := by
  unfold setUnits at hf
  repeat' first
    | (cases hf; rfl)
    | (cases hf; done)
    | split at hf

omit [Zero K] [One K] [Add K] [Sub K] [Mul K] [Div K] [RPow K] [PyFloor K] [DecidableEq K] in
theorem assign_error {o : Obj} {k : Key} {m : NDArr K} {e : PyErr} {h' : Heap K}
    (hf : h.assign o k m = (some e, h')) : h' = h := by
  unfold assign at hf
  repeat' first
    | (cases hf; rfl)
    | (cases hf; done)
    | split at hf

omit [Zero K] [One K] [Add K] [Sub K] [Mul K] [Div K] [RPow K] [PyFloor K] [DecidableEq K] in
theorem result_error {i : Nat} {r : Option PyErr × Heap K} {e : PyErr} {h' : Heap K}
    (hr : result i r = (.error e, h')) : r = (some e, h') := by
  rcases r with ⟨e', h2⟩
  cases e' <;> simp only [result] at hr <;> cases hr
  rfl

theorem deepcopy_error {i : Nat} {e : PyErr} {h' : Heap K}
    (hrun : h.run np2 w (.deepcopy i) = (.error e, h')) : h' = h := by
  simp only [run] at hrun
  split at hrun
  · cases hrun; rfl
  · split at hrun
    · split at hrun
      · cases hrun; rfl
      · cases hrun
    · cases hrun

theorem squeeze_error {i : Nat} {k : Key} {e : PyErr} {h' : Heap K}
    (hrun : h.run np2 w (.squeeze i k) = (.error e, h')) : h' = h := by
  simp only [run] at hrun
  split at hrun
  · cases hrun; rfl
  · split at hrun
    · split at hrun
      · cases hrun; rfl
      · split at hrun
        · cases hrun; rfl
        · split at hrun
          · cases hrun; rfl
          · cases hrun
    · cases hrun; rfl

/-- C109: whatever a program has done before, an operation on arrays and quantities that raises an
exception (construction, views, item assignment, `fill`, in-place operators, `units = ...`, `out=`),
`put` excepted, leaves everything as it was: no object's elements or units, and no other
array, is changed. -/
theorem C109_unchanged (hr : Reached np2 w h) (c : Cmd K) (hc : ¬ c.IsPut) (e : PyErr) (h' : Heap K)
    (hrun : h.run np2 w c = (.error e, h')) : h' = h := by
  cases c with
  | newUnit u => simp only [run] at hrun; cases hrun
  | newArray a => simp only [run] at hrun; cases hrun
  | newQuantity a d => simp only [run] at hrun; cases hrun
  | wrap i d =>
    simp only [run] at hrun
    split at hrun
    · cases hrun; rfl
    · unfold wrap at hrun
      simp only at hrun
      repeat' first
        | (cases hrun; rfl)
        | (cases hrun; done)
        | split at hrun
  | magnitude i =>
    simp only [run] at hrun
    repeat' first
      | (cases hrun; rfl)
      | (cases hrun; done)
      | split at hrun
  | view i k =>
    simp only [run] at hrun
    repeat' first
      | (cases hrun; rfl)
      | (cases hrun; done)
      | split at hrun
  | item i idx =>
    simp only [run] at hrun
    repeat' first
      | (cases hrun; rfl)
      | (cases hrun; done)
      | split at hrun
  | copy i =>
    simp only [run] at hrun
    repeat' first
      | (cases hrun; rfl)
      | (cases hrun; done)
      | split at hrun
  | deepcopy i => exact deepcopy_error hrun
  | squeeze i k => exact squeeze_error hrun
  | setitem i k v =>
    simp only [run] at hrun
    split at hrun
    · split at hrun
      · have hf := result_error hrun
        unfold setitem at hf
        split at hf
        · cases hf; rfl
        · exact assign_error hf
      · cases hrun; rfl
    · cases hrun; rfl
  | put i idxs v => exact absurd trivial hc
  | fill i v =>
    simp only [run] at hrun
    split at hrun
    · rename_i o x ho hx
      split at hrun
      · rename_i hq
        exact fill_error hr.wf ho hq (result_error hrun)
      · cases hrun; rfl
    · cases hrun; rfl
  | inplace op i v => exact C52_inplace_error op i v e h' hrun
  | ipow i x =>
    simp only [run] at hrun
    split at hrun
    · cases hrun; rfl
    · exact ipow_error (result_error hrun)
  | setUnits i d =>
    simp only [run] at hrun
    split at hrun
    · cases hrun; rfl
    · exact setUnits_error (result_error hrun)
  | into f i out => exact C96_out_error hr f i out e h' hrun
  | rawWrite i k m =>
    simp only [run] at hrun
    split at hrun
    · cases hrun; rfl
    · split at hrun
      · exact assign_error (result_error hrun)
      · cases hrun; rfl

omit [Zero K] [One K] [Add K] [Sub K] [Mul K] [Div K] [RPow K] [PyFloor K] [DecidableEq K] in
theorem putLoop_error (o : Obj) (vals : List K) (e : PyErr) (mem' : Nat → K) : ∀ (idxs : List Int) (n : Nat)
    (mem : Nat → K), putLoop o vals n idxs mem = (some e, mem') →
    e = .indexError ∧ ∃ js j rest, idxs = js ++ j :: rest ∧ (∀ a ∈ js, InRange o.shape.prod a) ∧
      ¬ InRange o.shape.prod j ∧ putLoop o vals n js mem = (none, mem')
  | [], n, mem, hp => by simp only [putLoop] at hp; cases hp
  | j :: js, n, mem, hp => by
    unfold putLoop at hp
    simp only at hp
    by_cases hin : InRange o.shape.prod j
    · have hpos : 0 ≤ (if j < 0 then j + (o.shape.prod : Int) else j) ∧
          (if j < 0 then j + (o.shape.prod : Int) else j) < o.shape.prod := by
        obtain ⟨h1, h2⟩ := hin
        split <;> omega
      rw [if_pos hpos] at hp
      split at hp
      · rename_i i x hi hx
        obtain ⟨h1, js', j', rest, h2, h3, h4, h5⟩ := putLoop_error o vals e mem' js (n + 1) _ hp
        refine ⟨h1, j :: js', j', rest, by rw [h2]; rfl, ?_, h4, ?_⟩
        · intro a ha
          rcases List.mem_cons.1 ha with rfl | ha
          · exact hin
          · exact h3 a ha
        · unfold putLoop
          simp only
          rw [if_pos hpos, hi, hx]
          exact h5
      · cases hp
    · have hneg : ¬ (0 ≤ (if j < 0 then j + (o.shape.prod : Int) else j) ∧
          (if j < 0 then j + (o.shape.prod : Int) else j) < o.shape.prod) := by
        intro hc
        apply hin
        unfold InRange
        split at hc <;> omega
      rw [if_neg hneg] at hp
      cases hp
      exact ⟨rfl, [], j, js, rfl, (fun a ha => by cases ha), hin, rfl⟩

/-- C110: a failing `q.put(indices, v)` either changes nothing, or it is an `IndexError` and leaves behind
what `q.put` of the indices before the first one that is out of range does.  Partial: it should change
nothing, see `C110_put_false`. -/
theorem C110_put_partial (i : Nat) (idxs : List Int) (xs : Src K) (e : PyErr) (h' : Heap K)
    (hrun : h.run np2 w (.put i idxs xs) = (.error e, h')) :
    h' = h ∨ (e = .indexError ∧ ∃ o js j rest, h.objs[i]? = some o ∧ idxs = js ++ j :: rest ∧
      (∀ a ∈ js, InRange o.shape.prod a) ∧ ¬ InRange o.shape.prod j ∧
      h.run np2 w (.put i js xs) = (.ok i, h')) := by
  simp only [run] at hrun
  split at hrun
  · rename_i o x ho hx
    split at hrun
    · rename_i hq
      have hf := result_error hrun
      unfold put at hf
      split at hf
      · cases hf; exact .inl rfl
      · rename_i m hm
        split at hf
        · cases hf; exact .inl rfl
        · rename_i hwr
          rcases hp : putLoop o m.toList 0 idxs h.mem with ⟨e', mem'⟩
          rw [hp] at hf
          simp only [Prod.mk.injEq] at hf
          obtain ⟨rfl, rfl⟩ := hf
          obtain ⟨h1, js, j, rest, h2, h3, h4, h5⟩ := putLoop_error o _ e mem' idxs 0 h.mem hp
          refine .inr ⟨h1, o, js, j, rest, ho, h2, h3, h4, ?_⟩
          simp only [run, ho, hx, hq, if_true, put, hm, hwr, h5, result, Bool.false_eq_true, if_false]
    · cases hrun; exact .inl rfl
  · cases hrun; exact .inl rfl

/-! ## Uncertain quantities -/

/-- Objects are only added, memory in use is not written. -/
structure Ext (h h' : Heap K) : Prop where
  grows : ∀ (i : Nat) (o : Obj), h.objs[i]? = some o → h'.objs[i]? = some o
  next : h.next ≤ h'.next
  mem : ∀ a, a < h.next → h'.mem a = h.mem a

omit [Zero K] [One K] [Add K] [Sub K] [Mul K] [Div K] [RPow K] [PyFloor K] [DecidableEq K] in
theorem Ext.refl (h : Heap K) : Ext h h := ⟨fun _ _ h => h, le_rfl, fun _ _ => rfl⟩

omit [Zero K] [One K] [Add K] [Sub K] [Mul K] [Div K] [RPow K] [PyFloor K] [DecidableEq K] in
theorem Ext.trans {a b c : Heap K} (h : Ext a b) (k : Ext b c) : Ext a c :=
  ⟨fun i o ho => k.grows i o (h.grows i o ho), h.next.trans k.next,
    fun x hx => (k.mem x (lt_of_lt_of_le hx h.next)).trans (h.mem x hx)⟩

omit [Zero K] [One K] [Add K] [Sub K] [Mul K] [Div K] [RPow K] [PyFloor K] [DecidableEq K] in
theorem ext_pushView (h : Heap K) (i : Nat) (o : Obj) (k : AKind) (s : List Nat) (f : List Nat → List Nat) :
    Ext h (h.pushView i o k s f).2 := ⟨grows_pushView h i o k s f, le_rfl, fun _ _ => rfl⟩

omit [Zero K] [One K] [Add K] [Sub K] [Mul K] [Div K] [RPow K] [PyFloor K] [DecidableEq K] in
theorem ext_alloc (h : Heap K) (a : NDArr K) (k : AKind) (wr : Bool) : Ext h (h.alloc a k wr).2 :=
  ⟨grows_alloc h a k wr, Nat.le_add_right _ _, fun x hx => if_neg (Nat.not_le.2 hx)⟩

omit [Zero K] [One K] [Add K] [Sub K] [Mul K] [Div K] [RPow K] [PyFloor K] [DecidableEq K] in
theorem ext_allocQuantity (h : Heap K) (a : NDArr K) (d : Dim) : Ext h (h.allocQuantity a d).2 := by
  rw [allocQuantity_eq]
  exact (ext_alloc _ _ _ _).trans (ext_pushView _ _ _ _ _ _)

theorem ext_creates {c : Cmd K} (hc : c.creates = true) : Ext h (h.run np2 w c).2 := by
  cases c with
  | newQuantity a d => exact ext_allocQuantity h a d
  | wrap i d =>
    simp only [run]
    split
    · exact .refl _
    · unfold wrap
      simp only
      split
      · exact ext_pushView _ _ _ _ _ _
      · split
        · split
          · exact ext_allocQuantity _ _ _
          · exact ext_pushView _ _ _ _ _ _
        · split
          · exact .refl _
          · split
            · exact ext_allocQuantity _ _ _
            · exact (ext_allocQuantity _ _ _).trans (ext_pushView _ _ _ _ _ _)
  | magnitude i =>
    simp only [run]
    split
    · exact .refl _
    · split
      · exact ext_pushView _ _ _ _ _ _
      · exact .refl _
  | view i k =>
    simp only [run]
    split
    · exact .refl _
    · split
      · exact .refl _
      · split
        · exact .refl _
        · exact ext_pushView _ _ _ _ _ _
  | copy i =>
    simp only [run]
    split
    · exact .refl _
    · split
      · exact .refl _
      · exact ext_alloc _ _ _ _
  | item i idx =>
    simp only [run]
    split
    · exact .refl _
    · split
      · split
        · exact ext_allocQuantity _ _ _
        · exact ext_alloc _ _ _ _
      · exact .refl _
  | _ => cases hc

/-- The state after a command that raised: arrays are only added, no `_uncertainty` is replaced. -/
def Kept (s : UHeap K) (r : Py Nat × UHeap K) : Prop :=
  ∀ e s', r = (.error e, s') → Ext s.heap s'.heap ∧ s'.unc = s.unc

theorem Kept.andThen {s : UHeap K} {h1 : Heap K} {c : Cmd K} {f : Nat → Heap K → Py Nat × UHeap K}
    (h0 : Ext s.heap h1) (hc : c.creates = true)
    (hk : ∀ i h', Ext s.heap h' → Kept s (f i h')) :
    Kept s (UHeap.andThen s.unc (h1.run np2 w c) f) := by
  have hx := h0.trans (ext_creates (np2 := np2) (w := w) (h := h1) hc)
  rcases hr : h1.run np2 w c with ⟨r, h2⟩
  rw [hr] at hx
  cases r with
  | error e =>
    intro e' s' he
    simp only [UHeap.andThen] at he
    cases he
    exact ⟨hx, rfl⟩
  | ok i => exact hk i h2 hx

theorem Kept.attach {s : UHeap K} {h1 : Heap K} (h0 : Ext s.heap h1) (i j : Nat) :
    Kept s (UHeap.attach np2 w s.unc i j h1) := by
  unfold UHeap.attach
  split
  · split
    · split
      · split
        · intro e s' he; cases he; exact ⟨h0, rfl⟩
        · exact .andThen h0 rfl (fun i h' _ e s' he => by cases he)
      · intro e s' he; cases he
    · intro e s' he; cases he; exact ⟨h0, rfl⟩
  · intro e s' he; cases he; exact ⟨h0, rfl⟩

theorem Kept.self (s : UHeap K) (e : PyErr) : Kept s (.error e, s) :=
  fun e s' he => by cases he; exact ⟨.refl _, rfl⟩

omit [Zero K] [One K] [Add K] [Sub K] [Mul K] [Div K] [RPow K] [PyFloor K] [DecidableEq K] in
theorem Ext.sees [One K] {h h' : Heap K} (hx : Ext h h') (hw : Heap.WF h) {i : Nat} {k : AKind} {a : NDArr K}
    (hs : Sees h i k a) : Sees h' i k a := by
  obtain ⟨o, ho, hk, hsh, hel⟩ := hs.ex
  refine ⟨o, hx.grows i o ho, hk, hsh, fun j hj => ?_⟩
  rw [← hel j hj]
  exact hx.mem _ ((hw.ok i o ho).bound j hj)

/-- C109: an operation on uncertain quantities that raises (`put` excepted) leaves the elements and units
of every array as they were, and no quantity's uncertainty is replaced. -/
theorem C109_uncertain {s : UHeap K} (hr : UHeap.Reached np2 w s) (c : UCmd K)
    (hc : ∀ c', c = .plain c' → ¬ c'.IsPut) (e : PyErr) (s' : UHeap K)
    (hrun : s.run np2 w c = (.error e, s')) :
    (∀ i k a, Sees s.heap i k a → Sees s'.heap i k a) ∧ (∀ i, s'.unc i = s.unc i) ∧
    (∀ i q u, s.Shows i q u → s'.Shows i q u) := by
  have key : Ext s.heap s'.heap ∧ s'.unc = s.unc := by
    have hk : Kept s (s.run np2 w c) := by
      cases c with
      | plain c =>
        simp only [UHeap.run]
        split
        · intro e s' he
          simp only [Prod.mk.injEq] at he
          obtain ⟨h1, rfl⟩ := he
          have h2 : (s.heap.run np2 w c).2 = s.heap :=
            C109_unchanged hr.heap c (hc c rfl) e _ (Prod.ext h1 rfl)
          simp only [h2]
          exact ⟨.refl _, trivial⟩
        · split <;> exact .self _ _
      | new a d u =>
        simp only [UHeap.run]
        exact .andThen (.refl _) rfl fun i h1 e1 => .andThen e1 rfl fun j h2 e2 => .attach e2 _ _
      | index i k =>
        simp only [UHeap.run]
        split
        · exact .andThen (.refl _) rfl fun _ _ e => .andThen e rfl fun _ _ e => .andThen e rfl fun _ _ e =>
            .andThen e rfl fun _ _ e => .andThen e rfl fun _ _ e => .attach e _ _
        · exact .self _ _
      | item i idx =>
        simp only [UHeap.run]
        split
        · exact .andThen (.refl _) rfl fun _ _ e => .andThen e rfl fun _ _ e => .andThen e rfl fun _ _ e =>
            .attach e _ _
        · exact .self _ _
      | rearrange i k =>
        simp only [UHeap.run]
        split
        · exact .self _ _
        · exact .andThen (.refl _) rfl fun _ _ _ e s' he => by cases he
      | copy i =>
        simp only [UHeap.run]
        split
        · exact .self _ _
        · exact .andThen (.refl _) rfl fun _ _ _ e s' he => by cases he
      | setUncertainty i v =>
        simp only [UHeap.run]
        split
        · exact .self _ _
        · exact .andThen (.refl _) rfl fun _ _ e => .attach e _ _
        · split
          · split
            · exact .attach (.refl _) _ _
            · exact .andThen (.refl _) rfl fun _ _ e => .attach e _ _
          · exact .self _ _
    exact hk e s' hrun
  have hw := hr.heap.wf
  refine ⟨fun i k a hs => key.1.sees hw hs, fun i => by rw [key.2], fun i q u hs => ?_⟩
  obtain ⟨j, h1, h2, h3⟩ := hs.ex
  exact ⟨j, by rw [key.2]; exact h1, key.1.sees hw h2, key.1.sees hw h3⟩

end

/-! ## Examples -/

/-- C110 is false: with `q = [1, 2, 3] * km`, `q.put([0, 7], 9*km)` raises `IndexError`, but
the first element is 9 afterwards. -/
theorem C110_put_false :
    let r := exHeap1.run false exWorld (.put 1 [0, 7] (.lit (.quantity ⟨NDArr.scalar 9, dKm⟩)))
    r.1 = .error .indexError ∧ ∃ o, exHeap1.objs[1]? = some o ∧ r.2.objs[1]? = some o ∧
      (exHeap1.arr o).elem [0] = 1 ∧ (r.2.arr o).elem [0] = 9 := by
  have ha : assigned exWorld dKm (.quantity ⟨NDArr.scalar (9 : ℝ), dKm⟩) = .ok (NDArr.scalar 9) := by
    have hd : exWorld.dne dKm dKm = false := by rw [dne_eq, deq_self]; rfl
    simp only [assigned, Operand.toQuantity, hd, Bool.false_eq_true, if_false]
  have hx : exHeap1.run false exWorld (.put 1 [0, 7] (.lit (.quantity ⟨NDArr.scalar 9, dKm⟩))) =
      (.error .indexError, { exHeap1 with mem := Function.update exHeap1.mem 0 9 }) := by
    have h1 : exHeap1.objs[1]? =
        some ⟨.quantity dKm, [3], fun j => 0 + ravel [3] j, false, some 0, true⟩ := rfl
    simp only [run, h1, src, AKind.isQuantity, if_true, put, AKind.dim, ha]
    rfl
  simp only [hx]
  refine ⟨trivial, _, rfl, rfl, ?_, ?_⟩
  · change ((0 : Nat) : ℝ) + 1 = 1
    norm_num
  · change Function.update exHeap1.mem 0 (9 : ℝ) 0 = 9
    exact Function.update_self _ _ _

/-- `q = [1, 2, 3] * km; v = q[1:]; v.units = m` raises, as `v` is a view of a quantity. -/
example : Reached false exWorld exHeap2 ∧
    exHeap2.run false exWorld (.setUnits 2 dM) = (.error .valueError, exHeap2) :=
  ⟨exHeap2_reached, rfl⟩

/-- `x = 3 m ± 0.3 m; x.uncertainty = [1, 1]` raises: the shapes differ. -/
example : UHeap.Reached false exWorld exUS ∧
    (exUS.run false exWorld (.setUncertainty 1 (.lit (.array ⟨[2], fun _ => 1⟩)))).1 = .error .valueError := by
  refine ⟨exUS_reached, ?_⟩
  rw [exUS_eq]
  rfl

end PQ
