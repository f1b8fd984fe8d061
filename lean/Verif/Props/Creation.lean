import Verif.Spec.Creation
import Verif.Props.Memory

/-!
# C145: what a new array object shows, and what it shares

`Independent` and `Window` are in `Spec/Creation.lean`.
-/

namespace PQ

open NDArr Heap

section create
variable {K : Type _} [Zero K] [One K] [Add K] [Sub K] [Mul K] [Div K] [RPow K] [PyFloor K]
  [DecidableEq K] {np2 : Bool} {w : World K} {h h1 : Heap K}

/-- `h1` is `h` with new objects in new memory. -/
structure Ext1 (h h1 : Heap K) : Prop where
  old : ∀ (m : Nat) (p : Obj), h.objs[m]? = some p → h1.objs[m]? = some p
  cells : ∀ (m : Nat) (p : Obj), h.objs.length ≤ m → h1.objs[m]? = some p → ∀ c, p.Cell c → h.next ≤ c
  mem : ∀ c, c < h.next → h1.mem c = h.mem c

omit [Zero K] [One K] [Add K] [Sub K] [Mul K] [Div K] [RPow K] [PyFloor K] [DecidableEq K] in
theorem Ext1.alloc (h : Heap K) (a : NDArr K) (k : AKind) (wr : Bool) : Ext1 h (h.alloc a k wr).2 where
  old m p hp := alloc_get_old h a k wr m p hp
  cells m p hm hp c hc := by
    rcases alloc_get_cases h a k wr m p hp with h1 | ⟨_, rfl⟩
    · exact absurd (get_lt h1) (by omega)
    · exact allocObj_cell hc
  mem c hc := alloc_mem_old h a k wr c hc

omit [Zero K] [One K] [Add K] [Sub K] [Mul K] [Div K] [RPow K] [PyFloor K] [DecidableEq K] in
theorem Ext1.view (e : Ext1 h h1) {i : Nat} {o : Obj} (ho : h1.objs[i]? = some o) (hi : h.objs.length ≤ i) (k : AKind)
    (s : List Nat) (sel : List Nat → List Nat) (hs : ∀ j, InB s j → InB o.shape (sel j)) :
    Ext1 h (h1.pushView i o k s sel).2 where
  old m p hp := push_get_old _ _ _ _ (e.old m p hp)
  cells m p hm hp c hc := by
    rcases push_get_cases h1 _ m p hp with h2 | ⟨_, rfl⟩
    · exact e.cells m p hm h2 c hc
    · exact e.cells i o hi ho c (pushView_cell hs hc)
  mem c hc := e.mem c hc

/-- New memory, so nothing shared. -/
theorem Ext1.independent (hr : Reached np2 w h) (hr1 : Reached np2 w h1) (e : Ext1 h h1) {v : Nat} {k : AKind} {a : NDArr K}
    (hv : h.objs.length ≤ v) (hs : Sees h1 v k a) : Independent np2 w h h1 v k a := by
  have hoth : ∀ (m : Nat) (k' : AKind) (a' : NDArr K), Sees h m k' a' → Sees h1 m k' a' := by
    intro m k' a' hm
    obtain ⟨p, hp, hk', hsh, hel⟩ := hm.ex
    refine ⟨p, e.old _ _ hp, hk', hsh, fun x hx => ?_⟩
    rw [← hel x hx]
    exact e.mem _ ((hr.wf.ok m p hp).bound x hx)
  have hap : ∀ (m n : Nat) (p q : Obj), m < h.objs.length → h.objs.length ≤ n → h1.objs[m]? = some p →
      h1.objs[n]? = some q → p.Apart q := by
    intro m n p q hm hn hp hq c hc hc'
    have hp' := List.getElem?_eq_getElem hm
    have := e.old _ _ hp'
    rw [hp] at this
    obtain rfl := Option.some.inj this
    exact absurd ((hr.wf.ok m _ hp').cell_lt hc) (Nat.not_lt.2 (e.cells n q hn hq c hc'))
  refine ⟨hv, hs, hoth, fun cs hc ht => ?_, fun cs hc ht m k' a' hm => ?_⟩
  · obtain ⟨pv, hpv, -⟩ := hs.ex
    refine C30_separate_objects_independent hr1 (fun m => h.objs.length ≤ m ∧ m < h1.objs.length) (fun m hm => hm.2) ?_
      cs hc (fun c hcm m hm => ?_) v ⟨hv, get_lt hpv⟩ k a hs
    · intro m n hm hn p q hp hq c hc hc'
      have := get_lt hq
      exact hap n m q p (by omega) hm.1 hq hp c hc' hc
    · have := ht c hcm m hm
      omega
  · obtain ⟨pm, hpm, -⟩ := hm.ex
    have hl : h.objs.length ≤ h1.objs.length := by
      rcases Nat.lt_or_ge h1.objs.length h.objs.length with hlt | hge
      · have h2 := e.old _ _ (List.getElem?_eq_getElem (l := h.objs) hlt)
        exact absurd (get_lt h2) (by omega)
      · exact hge
    refine C30_separate_objects_independent hr1 (fun m => m < h.objs.length) (fun m hm => by omega) ?_ cs hc
      (fun c hcm m hm => not_lt.2 (ht c hcm m hm)) m (get_lt hpm) k' a' (hoth _ _ _ hm)
    intro x y hx hy p q hp hq
    exact hap x y p q hx (by omega) hp hq

theorem step_reached (hr : Reached np2 w h) {c : Cmd K} (hc : c.Valid) {x : Py Nat} (hrun : h.run np2 w c = (x, h1)) :
    Reached np2 w h1 := by
  have := Reached.step c hr hc
  rwa [hrun] at this

omit [Zero K] [One K] [Add K] [Sub K] [Mul K] [Div K] [RPow K] [PyFloor K] [DecidableEq K] in
theorem alloc_shows (h : Heap K) (a : NDArr K) (k : AKind) (wr : Bool) : Sees (h.alloc a k wr).2 (h.alloc a k wr).1 k a :=
  ⟨allocObj h a k wr, alloc_get_new _ _ _ _, rfl, rfl, fun j hj => alloc_mem_new h a k wr j hj⟩

omit [Zero K] [One K] [Add K] [Sub K] [Mul K] [Div K] [RPow K] [PyFloor K] [DecidableEq K] in
theorem allocQuantity_shows (h : Heap K) (a : NDArr K) (d : Dim) :
    Ext1 h (h.allocQuantity a d).2 ∧ Sees (h.allocQuantity a d).2 (h.allocQuantity a d).1 (.quantity d) a ∧
      h.objs.length ≤ (h.allocQuantity a d).1 := by
  rw [allocQuantity_eq]
  refine ⟨(Ext1.alloc h a .ndarray true).view (alloc_get_new h a .ndarray true) le_rfl _ _ _ (fun _ hj => hj),
    ⟨_, push_get_new _ _, rfl, rfl, fun j hj => alloc_mem_new h a .ndarray true j hj⟩, ?_⟩
  rw [pushView_fst_ge]
  simp [alloc, push]

/-- C145: a new plain array. -/
theorem C145_new_array (hr : Reached np2 w h) (a : NDArr K) :
    ∃ v h1, h.run np2 w (.newArray a) = (.ok v, h1) ∧ Independent np2 w h h1 v .ndarray a :=
  ⟨_, _, rfl, (Ext1.alloc h a .ndarray true).independent hr (step_reached hr (c := .newArray a) trivial rfl) le_rfl
    (alloc_shows h a .ndarray true)⟩

/-- C145: `Quantity(data, units)` for data that is not an array, and every operation that returns a new quantity. -/
theorem C145_new_quantity (hr : Reached np2 w h) (a : NDArr K) (d : Dim) :
    ∃ v h1, h.run np2 w (.newQuantity a d) = (.ok v, h1) ∧ Independent np2 w h h1 v (.quantity d) a := by
  obtain ⟨e1, e2, e3⟩ := allocQuantity_shows h a d
  exact ⟨_, _, rfl, e1.independent hr (step_reached hr (c := .newQuantity a d) trivial rfl) e3 e2⟩

/-- C145: a new unit. -/
theorem C145_new_unit (hr : Reached np2 w h) (u : UKey) :
    ∃ v h1, h.run np2 w (.newUnit u) = (.ok v, h1) ∧ Independent np2 w h h1 v (.unit u) (NDArr.scalar 1) :=
  ⟨_, _, rfl, (Ext1.alloc h _ (.unit u) false).independent hr (step_reached hr (c := .newUnit u) trivial rfl) le_rfl
    (alloc_shows h _ _ _)⟩

/-- C145: the copy of an array or quantity. -/
theorem C145_copy (hr : Reached np2 w h) {i : Nat} {k : AKind} {a : NDArr K} (hs : Sees h i k a) (hk : ∀ u, k ≠ .unit u) :
    ∃ v h1, h.run np2 w (.copy i) = (.ok v, h1) ∧ Independent np2 w h h1 v k a := by
  obtain ⟨o, ho, rfl, hsa⟩ := hs.ex
  have hrun : h.run np2 w (.copy i) = (.ok (h.alloc (h.arr o) o.kind true).1, (h.alloc (h.arr o) o.kind true).2) := by
    simp only [run, ho]
  refine ⟨_, _, hrun, (Ext1.alloc h _ o.kind true).independent hr (step_reached hr (c := .copy i) trivial hrun) le_rfl ?_⟩
  obtain ⟨p, p1, p2, p3⟩ := (alloc_shows h (h.arr o) o.kind true).ex
  exact ⟨p, p1, p2, p3.trans hsa⟩

/-- C145: one element `x[2, 3]`: a scalar of the units of `x`, cut off from `x`. -/
theorem C145_element (hr : Reached np2 w h) {i : Nat} {d : Dim} {a : NDArr K} (hs : Sees h i (.quantity d) a)
    {idx : List Nat} (hi : InB a.shape idx) :
    ∃ v h1, h.run np2 w (.item i idx) = (.ok v, h1) ∧
      Independent np2 w h h1 v (.quantity d) (NDArr.scalar (a.elem idx)) := by
  obtain ⟨o, ho, hk, hsh, hel⟩ := hs.ex
  have hsh' : o.shape = a.shape := hsh
  have hin : idx ∈ NDArr.indices o.shape := by rw [hsh']; exact mem_indices.2 hi
  have hval : h.mem (o.addr idx) = a.elem idx := hel idx (by rw [hsh]; exact hi)
  obtain ⟨e1, e2, e3⟩ := allocQuantity_shows h (NDArr.scalar (a.elem idx)) d
  have hrun : h.run np2 w (.item i idx) = (.ok (h.allocQuantity (NDArr.scalar (a.elem idx)) d).1,
      (h.allocQuantity (NDArr.scalar (a.elem idx)) d).2) := by
    simp only [run, ho, if_pos hin, hk, AKind.isQuantity, if_true, AKind.dim, hval]
  exact ⟨_, _, hrun, e1.independent hr (step_reached hr (c := .item i idx) trivial hrun) e3 e2⟩

/-- C145: `Quantity(u)` for a unit `u` is a new quantity `1 u`. -/
theorem C145_from_unit (hr : Reached np2 w h) {i : Nat} {u : UKey} {a : NDArr K} (hs : Sees h i (.unit u) a) :
    ∃ v h1, h.run np2 w (.wrap i []) = (.ok v, h1) ∧
      Independent np2 w h h1 v (.quantity (unitDim u)) (NDArr.scalar 1) := by
  obtain ⟨o, ho, hk, -⟩ := hs.ex
  obtain ⟨u1, u2⟩ := hr.wf.unit i o u ho hk
  obtain ⟨e1, e2, e3⟩ := allocQuantity_shows h (h.arr o) (unitDim u)
  have hrun : h.run np2 w (.wrap i []) = (.ok (h.allocQuantity (h.arr o) (unitDim u)).1,
      (h.allocQuantity (h.arr o) (unitDim u)).2) := by
    simp only [run, ho, wrap, hk]
    rfl
  refine ⟨_, _, hrun, e1.independent hr (step_reached hr (c := .wrap i []) trivial hrun) e3 ?_⟩
  obtain ⟨p, p1, p2, p3⟩ := e2.ex
  refine ⟨p, p1, p2, p3.trans ⟨u1, fun j hj => ?_⟩⟩
  have : j = [] := by
    have hj' : InB o.shape j := hj
    rw [u1] at hj'; cases hj'; rfl
  subst this
  exact u2

/-! ## Windows -/

/-- A window stays one. -/
theorem window_of (hr1 : Reached np2 w h1) {i v : Nat} {o p : Obj} (hi : h1.objs[i]? = some o) (hv : h1.objs[v]? = some p)
    (hnew : h.objs.length ≤ v) (hold : ∀ (m : Nat) (q : Obj), h.objs[m]? = some q → h1.objs[m]? = some q)
    (hmem : h1.mem = h.mem) {sel : List Nat → List Nat} (ha : ∀ j, InB p.shape j → p.addr j = o.addr (sel j)) :
    Window np2 w h h1 i v p.kind p.shape sel where
  new := hnew
  shows := ⟨h1.arr p, p, hv, rfl, rfl, fun _ _ => rfl⟩
  others m k' a' hm := by
    obtain ⟨q, hq, hk', hs⟩ := hm.ex
    refine ⟨q, hold _ _ hq, hk', ?_⟩
    have : h1.arr q = h.arr q := by unfold arr; rw [hmem]
    rw [this]; exact hs
  live cs hc := by
    have hp := runAll_prims np2 w (fun _ => True) cs h1 hr1.wf hc (fun _ _ _ _ => trivial) (fun _ _ => trivial)
    obtain ⟨oi, hoi, si, -⟩ := hp.stable _ _ hi
    obtain ⟨ov, hov, sv, -⟩ := hp.stable _ _ hv
    refine ⟨oi.kind, ov.kind, _, _, ⟨oi, hoi, rfl, rfl, fun _ _ => rfl⟩, ⟨ov, hov, rfl, rfl, fun _ _ => rfl⟩, sv.shape,
      fun j hj => ?_⟩
    simp only [arr, sv.addr, si.addr, ha j hj]

/-- C145: `x.magnitude` is a plain array that shows what `x` shows, for ever. -/
theorem C145_magnitude (hr : Reached np2 w h) {i : Nat} {d : Dim} {a : NDArr K} (hs : Sees h i (.quantity d) a) :
    ∃ v h1, h.run np2 w (.magnitude i) = (.ok v, h1) ∧ Window np2 w h h1 i v .ndarray a.shape id := by
  obtain ⟨o, ho, hk, hsa⟩ := hs.ex
  have hrun : h.run np2 w (.magnitude i) = (.ok (h.pushView i o .ndarray o.shape id).1,
      (h.pushView i o .ndarray o.shape id).2) := by
    simp only [run, ho, hk, AKind.isQuantity, if_true]
  refine ⟨_, _, hrun, ?_⟩
  have := window_of (h := h) (step_reached hr (c := .magnitude i) trivial hrun) (push_get_old h _ i o ho) (push_get_new h _)
    le_rfl (fun m q hq => push_get_old h _ m q hq) rfl (sel := id) (fun j _ => rfl)
  rw [← hsa.1]
  exact this

/-- C145: `x[key]` with slices, `x.T`, `x.reshape(…)` of an array or quantity: an object of the same type and units that
shows the selected elements of `x`, for ever. -/
theorem C145_view (hr : Reached np2 w h) {i : Nat} {k : AKind} {a : NDArr K} (hs : Sees h i k a) (hk : ∀ u, k ≠ .unit u)
    {key : Key} (hb : key.Basic) {s : List Nat} {sel : List Nat → List Nat} (hks : key a.shape = .ok (s, sel)) :
    ∃ v h1, h.run np2 w (.view i key) = (.ok v, h1) ∧ Window np2 w h h1 i v k s sel := by
  obtain ⟨o, ho, rfl, hsa⟩ := hs.ex
  have hsh : o.shape = a.shape := hsa.1
  have hrun : h.run np2 w (.view i key) = (.ok (h.pushView i o o.kind s sel).1, (h.pushView i o o.kind s sel).2) := by
    rcases hok : o.kind with _ | d0 | u
    · simp only [run, ho, hok, hsh, hks]
    · simp only [run, ho, hok, hsh, hks]
    · exact absurd hok (hk u)
  refine ⟨_, _, hrun, ?_⟩
  exact window_of (h := h) (step_reached hr (c := .view i key) hb hrun) (push_get_old h _ i o ho) (push_get_new h _)
    le_rfl (fun m q hq => push_get_old h _ m q hq) rfl (sel := sel) (fun j _ => rfl)

/-- C145: `Quantity(a, units)` for a plain array does not copy: it shows the numbers of `a` in the units given, for ever. -/
theorem C145_wrap_array (hr : Reached np2 w h) {i : Nat} {a : NDArr K} (hs : Sees h i .ndarray a) (d : Dim) :
    ∃ v h1, h.run np2 w (.wrap i d) = (.ok v, h1) ∧ Window np2 w h h1 i v (.quantity d) a.shape id := by
  obtain ⟨o, ho, hk, hsa⟩ := hs.ex
  have hrun : h.run np2 w (.wrap i d) = (.ok (h.pushView i o (.quantity d) o.shape id).1,
      (h.pushView i o (.quantity d) o.shape id).2) := by
    simp only [run, ho, wrap, hk]
  refine ⟨_, _, hrun, ?_⟩
  have := window_of (h := h) (step_reached hr (c := .wrap i d) trivial hrun) (push_get_old h _ i o ho) (push_get_new h _)
    le_rfl (fun m q hq => push_get_old h _ m q hq) rfl (sel := id) (fun j _ => rfl)
  rw [← hsa.1]
  exact this

/-- C145: `Quantity(q)` without units does not copy either: it shows what `q` shows, in its units. -/
theorem C145_wrap_quantity (hr : Reached np2 w h) {i : Nat} {d : Dim} {a : NDArr K} (hs : Sees h i (.quantity d) a) :
    ∃ v h1, h.run np2 w (.wrap i []) = (.ok v, h1) ∧ Window np2 w h h1 i v (.quantity d) a.shape id := by
  obtain ⟨o, ho, hk, hsa⟩ := hs.ex
  have hrun : h.run np2 w (.wrap i []) = (.ok (h.pushView i o (.quantity d) o.shape id).1,
      (h.pushView i o (.quantity d) o.shape id).2) := by
    simp only [run, ho, wrap, hk]
    rfl
  refine ⟨_, _, hrun, ?_⟩
  have := window_of (h := h) (step_reached hr (c := .wrap i []) trivial hrun) (push_get_old h _ i o ho) (push_get_new h _)
    le_rfl (fun m q hq => push_get_old h _ m q hq) rfl (sel := id) (fun j _ => rfl)
  rw [← hsa.1]
  exact this

/-- C145: `q.squeeze()` and `q.real`: the units of `q` and the selected elements, for ever. -/
theorem C145_squeeze (hr : Reached np2 w h) {i : Nat} {d : Dim} {a : NDArr K} (hs : Sees h i (.quantity d) a)
    {key : Key} (hb : key.Basic) {s : List Nat} {sel : List Nat → List Nat} (hks : key a.shape = .ok (s, sel)) :
    ∃ v h1, h.run np2 w (.squeeze i key) = (.ok v, h1) ∧ Window np2 w h h1 i v (.quantity d) s sel := by
  obtain ⟨o, ho, hk, hsa⟩ := hs.ex
  have hsh : o.shape = a.shape := hsa.1
  rcases hrun : h.run np2 w (.squeeze i key) with ⟨x, h1⟩
  have hr1 := step_reached hr (c := .squeeze i key) hb hrun
  simp only [run, ho, hk, AKind.isQuantity, if_true, pushView, push_get_new, hsh, hks, AKind.dim, Prod.mk.injEq] at hrun
  obtain ⟨rfl, rfl⟩ := hrun
  refine ⟨_, _, rfl, ?_⟩
  exact window_of (h := h) hr1 (push_get_old _ _ _ _ (push_get_old _ _ _ _ (push_get_old _ _ _ _ ho))) (push_get_new _ _)
    (by simp [push]) (fun m q hq => push_get_old _ _ _ _ (push_get_old _ _ _ _ (push_get_old _ _ _ _ hq))) rfl
    (sel := sel) (fun j _ => rfl)

end create

section convert
variable {K : Type _} [Field K] [LinearOrder K] [IsStrictOrderedRing K] [RPow K] [LawfulRPow K] [PyFloor K]
  {np2 : Bool} {w : World K} {h : Heap K} {hh : Hasher}

/-- C145: `Quantity(x, units)` for a quantity or unit `x` and compatible units is a new quantity of the same physical
values, cut off from `x`. -/
theorem C145_convert (hw : Reachable hh w) (hr : Reached np2 w h) {i : Nat} {k : AKind} {a : NDArr K} (hs : Sees h i k a)
    (hk : k.isQuantity = true) {d : Dim} (hd0 : d ≠ []) (hd : DimOK w d) (hkd : DimOK w k.dim) (hsafe : HashSafe w k.dim d)
    (hc : Compatible w k.dim d) :
    ∃ v h1 d' b, h.run np2 w (.wrap i d) = (.ok v, h1) ∧ Independent np2 w h h1 v (.quantity d') b ∧ SameContent d' d ∧
      b.shape = a.shape ∧ ∀ (V : Valuation w) (j : List Nat), InB a.shape j →
        b.elem j * V.size d = a.elem j * V.size k.dim := by
  obtain ⟨o, ho, rfl, hsa⟩ := hs.ex
  have hsh : o.shape = a.shape := hsa.1
  have hret := (rescale_returns hw.wf (q := h.quantity o) hkd hd hsafe).2 hc
  rcases hq : (h.quantity o).rescale w d with e | q
  · rw [hq] at hret; exact absurd hret (not_returns_error e)
  obtain ⟨r1, r2, -, r4, cf, -, r6, r7⟩ := rescale_ok hw.wf (q := h.quantity o) hkd hd hsafe hq
  obtain ⟨e1, e2, e3⟩ := allocQuantity_shows h q.mag q.dim
  obtain ⟨p, p1, p2, p3⟩ := e2.ex
  have hde : d.isEmpty = false := by cases d with
    | nil => exact absurd rfl hd0
    | cons _ _ => rfl
  have hrun : h.run np2 w (.wrap i d) = (.ok ((h.allocQuantity q.mag q.dim).2.pushView (h.allocQuantity q.mag q.dim).1 p
      (.quantity q.dim) p.shape id).1, ((h.allocQuantity q.mag q.dim).2.pushView (h.allocQuantity q.mag q.dim).1 p
      (.quantity q.dim) p.shape id).2) := by
    simp only [run, ho, wrap]
    rcases hok : o.kind with _ | d0 | u
    · rw [hok] at hk; cases hk
    · simp only [hde, Bool.false_eq_true, if_false, hq, p1]
    · simp only [hde, Bool.false_eq_true, if_false, hq, p1]
  refine ⟨_, _, q.dim, q.mag, hrun, (e1.view p1 e3 _ _ _ (fun _ hj => hj)).independent hr
    (step_reached hr (c := .wrap i d) trivial hrun) ?_ ?_, r2, r1.trans hsh, fun V j hj => ?_⟩
  · have := get_lt p1
    rw [pushView_fst_ge]; omega
  · exact ⟨_, push_get_new _ _, rfl, p3⟩
  · have hdim : V.size o.kind.dim = cf * V.size d := r7 V
    have hel : (h.arr o).elem j = a.elem j := hsa.2 j (by show InB o.shape j; rw [hsh]; exact hj)
    rw [r6, hdim]
    show cf * (h.arr o).elem j * V.size d = _
    rw [hel]; ring

end convert

/-! ## Concrete cases -/

/-- `a = np.array([1, 2])`, `q = Quantity(a, 'm')`: assigning to `a` changes `q`. -/
example : ∃ v h1, (Heap.empty.runAll false exWorld [.newArray ⟨[2], fun i => (i.headD 0 : ℝ) + 1⟩]).run false exWorld
    (.wrap 0 dM) = (.ok v, h1) ∧ Window false exWorld (Heap.empty.runAll false exWorld
      [.newArray ⟨[2], fun i => (i.headD 0 : ℝ) + 1⟩]) h1 0 v (.quantity dM) [2] id := by
  obtain ⟨v, h1, r1, r2⟩ := C145_new_array (K := ℝ) (np2 := false) (w := exWorld) Reached.empty
    ⟨[2], fun i => (i.headD 0 : ℝ) + 1⟩
  have hs := r2.shows
  have hv : v = 0 := by
    have : Heap.run false exWorld Heap.empty (.newArray ⟨[2], fun i => (i.headD 0 : ℝ) + 1⟩) = (.ok 0, _) := rfl
    rw [this] at r1
    cases r1; rfl
  subst hv
  have hr : Reached false exWorld (Heap.empty.runAll false exWorld [.newArray ⟨[2], fun i => (i.headD 0 : ℝ) + 1⟩]) :=
    .step _ .empty trivial
  have e : h1 = Heap.empty.runAll false exWorld [.newArray ⟨[2], fun i => (i.headD 0 : ℝ) + 1⟩] := by
    unfold runAll runAll
    rw [r1]
  rw [e] at hs
  exact C145_wrap_array hr hs dM

/-- `Quantity(km, 'm')` is a new quantity. -/
example : ∃ v h1 d' b, (Heap.empty.runAll false exWorld [.newUnit uKm]).run false exWorld (.wrap 0 dM) = (.ok v, h1) ∧
    Independent false exWorld (Heap.empty.runAll false exWorld [.newUnit uKm]) h1 v (.quantity d') b ∧ SameContent d' dM ∧
    b.shape = (NDArr.scalar (1 : ℝ)).shape ∧ ∀ (V : Valuation exWorld) (j : List Nat), InB (NDArr.scalar (1 : ℝ)).shape j →
      b.elem j * V.size dM = (NDArr.scalar (1 : ℝ)).elem j * V.size (AKind.unit uKm).dim := by
  have hr : Reached false exWorld (Heap.empty.runAll false exWorld [.newUnit uKm]) := .step _ .empty trivial
  refine C145_convert exWorld_reachable hr (i := 0) (k := .unit uKm) (a := NDArr.scalar 1)
    (alloc_shows Heap.empty (NDArr.scalar 1) (.unit uKm) false) rfl (by decide) (ex_dimOK dM (by simp)) (ex_dimOK dKm (by simp))
    ex_safe_km_m ex_compat

end PQ
