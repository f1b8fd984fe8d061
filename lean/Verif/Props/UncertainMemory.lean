import Verif.Lemmas.UncertainHeap2
import Verif.Props.ItemAssign
import Verif.Props.Views

/-!
# Properties C87-C89: uncertain quantities in memory

`s` ranges over all states reachable by any sequence of commands, `np2` over both behaviours of numpy.
`s.Shows i q u`: object `i` is an uncertain quantity with value `q` and uncertainty `u`.
-/

namespace PQ

open NDArr Heap

section
variable {K : Type _} [Zero K] [One K] [Add K] [Sub K] [Mul K] [Div K] [RPow K] [PyFloor K]
  [DecidableEq K] {np2 : Bool} {w : World K} {s : UHeap K}

/-! ## C87: in-place operators -/

/-- C87 (numpy before 2): if `x op= v` succeeds on an uncertain quantity `x`, its value is what the value
of `x op v` would be, and its uncertainty is the object it was before.  Partial: that object should hold
the uncertainty of `x op v`; it does not, see `C87_stale_false`. -/
theorem C87_value_partial (hr : UHeap.Reached false w s) (op : IOp) (i j : Nat) (q : Quantity K) (xs : Src K)
    (x : Operand K) (s' : UHeap K) (hu : s.unc i = some j) (hs : Sees s.heap i (.quantity q.dim) q.mag)
    (hx : s.heap.src xs = some x) (hrun : s.run false w (.plain (.inplace op i xs)) = (.ok i, s')) :
    s'.unc i = some j ∧ ∃ o r, s.heap.objs[i]? = some o ∧ (s.heap.quantity o).mag.Same q.mag ∧
      IOp.binary w op (s.heap.quantity o) x = .ok r ∧ Sees s'.heap i (.quantity r.dim) r.mag := by
  obtain ⟨o, ho, hk, hsa⟩ := hs.ex
  simp only [UHeap.run, UHeap.inherits, or_true, if_true, Prod.mk.injEq] at hrun
  obtain ⟨h1, rfl⟩ := hrun
  refine ⟨hu, o, ?_⟩
  obtain ⟨r, h2, h3⟩ := C52_inplace_agrees (h' := (s.heap.run false w (.inplace op i xs)).2) hr.heap op i o q.dim xs x
    ho hk hx (by rw [← h1])
  exact ⟨r, ho, hsa, h2, h3⟩

/-! ## C88: copies -/

/-- C88: `y = x.copy()` shows what `x` shows. -/
theorem C88_copy_equal (hr : UHeap.Reached np2 w s) (i y : Nat) (q u : Quantity K) (s' : UHeap K)
    (hs : s.Shows i q u) (hrun : s.run np2 w (.copy i) = (.ok y, s')) :
    s'.Shows y q u ∧ s'.Shows i q u ∧ y ≠ i := by
  obtain ⟨j, hj, hq, hu⟩ := hs.ex
  obtain ⟨o, ho, hk, hsa⟩ := hq.ex
  obtain ⟨p, hp, hkp, hsp⟩ := hu.ex
  simp only [UHeap.run, hj] at hrun
  rcases hc : s.heap.run np2 w (.copy i) with ⟨e, h1⟩
  rw [hc] at hrun
  cases e with
  | error e => simp only [UHeap.andThen] at hrun; cases hrun
  | ok x =>
    simp only [UHeap.andThen, Prod.mk.injEq, Except.ok.injEq] at hrun
    obtain ⟨rfl, rfl⟩ := hrun
    obtain ⟨rfl, hlen, _, _, hold⟩ := copy_spec hr.wf ho hc
    have hne : s.heap.objs.length ≠ i := fun e => absurd (get_lt ho) (by omega)
    have hcopy := C30_copy_equal hr.heap i _ _ _ h1 hq hc
    have hu' := hold j _ _ (get_lt hp) hu
    refine ⟨⟨j, Function.update_self _ _ _, hcopy.1, hu'⟩,
      ⟨j, ?_, hcopy.2, hu'⟩, hne⟩
    exact (Function.update_of_ne hne.symm _ _).trans hj

/-- C88: an uncertain quantity `y` keeps its value and its uncertainty under every sequence of commands
that works neither on objects sharing memory with `y` nor on objects sharing memory with
`y.uncertainty`; `S` is any set of objects closed under sharing of memory that contains both.  In
particular after `y = x.copy()` nothing done to the value of `x` is seen in `y`, not even in-place
operators.  Partial: working on `x.uncertainty` should be harmless for `y`, too; it is not, see
`C88_shared_false`. -/
theorem C88_independent_partial (hr : UHeap.Reached np2 w s) (y j : Nat) (q u : Quantity K)
    (hs : s.Shows y q u) (hj : s.unc y = some j) (S : Nat → Prop) (hy : S y) (hSj : S j)
    (hS : ∀ n, S n → n < s.heap.objs.length) (hap : ∀ m n, S m → ¬ S n → ApartIds s.heap m n)
    (cs : List (UCmd K)) (hc : ∀ c ∈ cs, c.Valid) (ha : UHeap.Avoids np2 w S s cs) :
    (s.runAll np2 w cs).Shows y q u := by
  have h := avoids_iso (np2 := np2) (w := w) S cs s hr.wf hS hc ha
  have iso := h.prims.iso (S := S) (fun i hi hn => hn hi) hr.wf hap
  obtain ⟨j', hj', hq, hu⟩ := hs.ex
  rw [hj] at hj'; cases hj'
  exact ⟨j, (h.keep y (fun hn => hn hy)).trans hj, sees_of_iso iso hy hq, sees_of_iso iso hSj hu⟩

/-- C88: right after `y = x.copy()`, `y` shares no memory with any other object: so a set `S` for
`C88_independent_partial` consists of `y` and the objects sharing memory with `x.uncertainty`. -/
theorem C88_copy_apart_partial (hr : UHeap.Reached np2 w s) (i y : Nat) (s' : UHeap K) (o : Obj)
    (ho : s.heap.objs[i]? = some o)
    (hrun : s.run np2 w (.copy i) = (.ok y, s')) (m : Nat) (hm : m ≠ y) : ApartIds s'.heap y m := by
  simp only [UHeap.run] at hrun
  split at hrun
  · cases hrun
  · rcases hc : s.heap.run np2 w (.copy i) with ⟨e, h1⟩
    rw [hc] at hrun
    cases e with
    | error e => simp only [UHeap.andThen] at hrun; cases hrun
    | ok x =>
      simp only [UHeap.andThen, Prod.mk.injEq, Except.ok.injEq] at hrun
      obtain ⟨rfl, rfl⟩ := hrun
      obtain ⟨rfl, _, _, hap, _⟩ := copy_spec hr.wf ho hc
      exact hap m hm

/-! ## C89: values and uncertainties stay aligned -/

theorem uinv_runAll : ∀ (cs : List (UCmd K)) (s : UHeap K), Heap.WF s.heap → UInv w s →
    (∀ c ∈ cs, c.Valid) → UHeap.AllCareful np2 w s cs → UInv w (s.runAll np2 w cs)
  | [], _, _, hi, _, _ => hi
  | c :: cs, s, hw, hi, hv, hca =>
    uinv_runAll cs _ ((urun_step hw (hv c (by simp))).prims.wf hw)
      (uinv_run hw (hv c (by simp)) hca.1 hi) (fun x hx => hv x (by simp [hx])) hca.2

/-- C89: after any sequence of commands that does not change the units of uncertain quantities in place
and takes views by subscripts only (`UCmd.Careful`), the uncertainty of every uncertain quantity has the
shape and the units of the value.  Partial: the full claim has no such condition; it is false then, see
the witnesses below. -/
theorem C89_aligned_partial (cs : List (UCmd K)) (hv : ∀ c ∈ cs, c.Valid)
    (hca : UHeap.AllCareful np2 w UHeap.empty cs) :
    ((UHeap.empty : UHeap K).runAll np2 w cs).Aligned w := by
  have h := uinv_runAll (np2 := np2) (w := w) cs UHeap.empty empty_wf (fun i j hj => by cases hj) hv hca
  intro i j hj
  obtain ⟨o, p, d, h1, h2, h3, h4, h5, h6⟩ := h i j hj
  exact ⟨o, p, h1, h2, h5, by rw [h3]; exact h6⟩

end

/-! ## Concrete cases -/

/-- `x = UncertainQuantity(3, 'm', 0.3)` (object 1, its uncertainty is object 3). -/
noncomputable def exUC : List (UCmd ℝ) := [.new (NDArr.scalar 3) dM (NDArr.scalar (3/10))]

/-- The state after that. -/
noncomputable def exUS : UHeap ℝ := UHeap.empty.runAll false exWorld exUC

theorem ex_dne_m_m : exWorld.dne dM dM = false := by rw [dne_eq, deq_self]; rfl

/-- Its arrays. -/
noncomputable def exUH : Heap ℝ := Heap.empty.runAll false exWorld
  [.newQuantity (NDArr.scalar 3) dM, .newQuantity (NDArr.scalar (3/10)) dM]

theorem attach_same {K : Type _} [Zero K] [One K] [Add K] [Sub K] [Mul K] [Div K] [RPow K] [PyFloor K]
    [DecidableEq K] {np2 : Bool} {w : World K} {unc : Nat → Option Nat} {h : Heap K} {i j : Nat} {o p : Obj}
    (ho : h.objs[i]? = some o) (hp : h.objs[j]? = some p) (hs : o.shape = p.shape)
    (hd : w.dne p.kind.dim o.kind.dim = false) :
    UHeap.attach np2 w unc i j h = (.ok i, UHeap.link ⟨h, unc⟩ i j) := by
  simp only [UHeap.attach, ho, hp, hs, hd, if_true, Bool.false_eq_true, if_false]

theorem exUS_eq : exUS = UHeap.link ⟨exUH, fun _ => none⟩ 1 3 := by
  have h : exUS = (UHeap.attach false exWorld (fun _ => none) 1 3 exUH).2 := rfl
  rw [h, attach_same (o := ⟨.quantity dM, [], fun j => 0 + ravel [] j, false, some 0, true⟩)
    (p := ⟨.quantity dM, [], fun j => 1 + ravel [] j, false, some 2, true⟩) rfl rfl rfl ex_dne_m_m]

theorem exUS_reached : UHeap.Reached false exWorld exUS := .step _ .empty trivial

/-- `x` is 3 m with uncertainty 0.3 m. -/
theorem exUS_shows : exUS.Shows 1 ⟨NDArr.scalar 3, dM⟩ ⟨NDArr.scalar (3/10), dM⟩ := by
  rw [exUS_eq]
  exact ⟨3, rfl, sees_scalar rfl rfl rfl rfl, sees_scalar rfl rfl rfl rfl⟩

/-- `x += 4*m`, item assignment and a copy are careful. -/
example : UHeap.AllCareful false exWorld UHeap.empty
    (exUC ++ [.plain (.inplace .add 1 (.lit (.quantity ⟨NDArr.scalar 4, dM⟩))), .copy 1]) :=
  ⟨trivial, fun _ _ _ => trivial, trivial, trivial⟩

/-- `y = UncertainQuantity(4, 'm', 0.4)` (object 5) -/
noncomputable def exUS2 : UHeap ℝ := (exUS.run false exWorld (.new (NDArr.scalar 4) dM (NDArr.scalar (4/10)))).2

/-- The arrays of that state. -/
noncomputable def exUH2 : Heap ℝ := exUH.runAll false exWorld
  [.newQuantity (NDArr.scalar 4) dM, .newQuantity (NDArr.scalar (4/10)) dM]

theorem exUS2_eq : exUS2 = UHeap.link ⟨exUH2, Function.update (fun _ => none) 1 (some 3)⟩ 5 7 := by
  have h : exUS2 = (UHeap.attach false exWorld exUS.unc 5 7
      (exUS.heap.runAll false exWorld [.newQuantity (NDArr.scalar 4) dM, .newQuantity (NDArr.scalar (4/10)) dM])).2 := by
    rw [exUS2, exUS_eq]; rfl
  rw [h, exUS_eq, attach_same (o := ⟨.quantity dM, [], fun j => 2 + ravel [] j, false, some 4, true⟩)
    (p := ⟨.quantity dM, [], fun j => 3 + ravel [] j, false, some 6, true⟩) rfl rfl rfl ex_dne_m_m]
  rfl

/-- `x += y` for a quantity `y` in the units of `x`. -/
theorem inplace_add_same {K : Type _} [Zero K] [One K] [Add K] [Sub K] [Mul K] [Div K] [RPow K] [PyFloor K]
    [DecidableEq K] {w : World K} {h : Heap K} {i : Nat} {o : Obj} {d : Dim} {y : Quantity K} {m : NDArr K}
    (hk : o.kind = .quantity d) (hwr : o.writeable = true) (hy : y.dim = d)
    (hm : NDArr.bin (· + ·) (h.arr o) y.mag = .ok m) (hsh : m.shape = o.shape) :
    Heap.inplace false w h .add i o (.quantity y) = (none, (h.store o m).setDim i o d) := by
  have hd : (h.quantity o).dim = d := by rw [show (h.quantity o).dim = o.kind.dim from rfl, hk]; rfl
  have h1 : Quantity.scaleOther w (h.quantity o) (.quantity y) = .ok y := by
    simp only [Quantity.scaleOther, Operand.toQuantity, hy, hd, dne_eq, deq_self, Bool.not_true,
      Bool.false_eq_true, if_false]
  have h2 : ufunc2Dim w .add (h.operand o) (.quantity y) = .ok d := by
    rw [operand_quantity hk]
    simp only [ufunc2Dim, dCheckUniform, hy, deq_self, if_true]
  simp only [Heap.inplace, hk, h1, ufuncInto, Operand.arr, hm, hsh, ne_eq, not_true_eq_false, if_false, hwr,
    Bool.not_true, Bool.false_eq_true, h2]

/-- The object `x`. -/
def exUO1 : Obj := ⟨.quantity dM, [], fun j => 0 + ravel [] j, false, some 0, true⟩

/-- The object `y`. -/
def exUO5 : Obj := ⟨.quantity dM, [], fun j => 2 + ravel [] j, false, some 4, true⟩

/-- C87 is false: with `x = 3 m ± 0.3 m` and `y = 4 m ± 0.4 m`, after `x += y` the quantity `x` is
7 m ± 0.3 m, which is not the sum of the measurements. -/
theorem C87_stale_false :
    exUS2.Shows 1 ⟨NDArr.scalar 3, dM⟩ ⟨NDArr.scalar (3/10), dM⟩ ∧
    exUS2.Shows 5 ⟨NDArr.scalar 4, dM⟩ ⟨NDArr.scalar (4/10), dM⟩ ∧
    (exUS2.run false exWorld (.plain (.inplace .add 1 (.obj 5)))).1 = .ok 1 ∧
    (exUS2.run false exWorld (.plain (.inplace .add 1 (.obj 5)))).2.Shows 1 ⟨NDArr.scalar 7, dM⟩
      ⟨NDArr.scalar (3/10), dM⟩ ∧
    ¬ IsSum (⟨3, 3/10⟩ : Meas ℝ) ⟨4, 4/10⟩ ⟨7, 3/10⟩ := by
  refine ⟨?_, ?_, ?_⟩
  · rw [exUS2_eq]
    exact ⟨3, rfl, sees_scalar rfl rfl rfl rfl, sees_scalar rfl rfl rfl rfl⟩
  · rw [exUS2_eq]
    exact ⟨7, rfl, sees_scalar rfl rfl rfl rfl, sees_scalar rfl rfl rfl rfl⟩
  · have hx : exUS2.run false exWorld (.plain (.inplace .add 1 (.obj 5)))
        = ((result 1 (exUH2.inplace false exWorld .add 1 exUO1 (.quantity (exUH2.quantity exUO5)))).1,
          ⟨(result 1 (exUH2.inplace false exWorld .add 1 exUO1 (.quantity (exUH2.quantity exUO5)))).2,
            exUS2.unc⟩) := by
      rw [exUS2_eq]; rfl
    have hi : exUH2.inplace false exWorld .add 1 exUO1 (.quantity (exUH2.quantity exUO5)) = _ :=
      inplace_add_same (d := dM) (m := NDArr.scalar (3 + 4)) rfl rfl rfl rfl rfl
    rw [hx, hi, exUS2_eq]
    refine ⟨rfl, ⟨3, rfl, sees_scalar rfl rfl rfl ?_, sees_scalar rfl rfl rfl rfl⟩, ?_⟩
    · change (3 : ℝ) + 4 = 7
      norm_num
    · rintro ⟨_, _, h⟩
      norm_num at h

/-- `y = x.copy()` (object 4) -/
noncomputable def exUS3 : UHeap ℝ := (exUS.run false exWorld (.copy 1)).2

theorem exUS3_eq : exUS3 = UHeap.link ⟨exUH.runAll false exWorld [.copy 1], Function.update (fun _ => none) 1 (some 3)⟩
    4 3 := by
  rw [exUS3, exUS_eq]; rfl

/-- The object `x.uncertainty`. -/
def exUO3 : Obj := ⟨.quantity dM, [], fun j => 1 + ravel [] j, false, some 2, true⟩

/-- C88 is false of uncertainties, which `x.copy()` shares with `x`: with `x = 3 m ± 0.3 m`,
`y = x.copy(); x.uncertainty[...] = 5*m` makes `y` 3 m ± 5 m. -/
theorem C88_shared_false :
    exUS3.Shows 4 ⟨NDArr.scalar 3, dM⟩ ⟨NDArr.scalar (3/10), dM⟩ ∧ exUS3.unc 1 = some 3 ∧
    (exUS3.run false exWorld (.plain (.setitem 3 kAll (.lit (.quantity ⟨NDArr.scalar 5, dM⟩))))).1 = .ok 3 ∧
    (exUS3.run false exWorld (.plain (.setitem 3 kAll (.lit (.quantity ⟨NDArr.scalar 5, dM⟩))))).2.Shows 4
      ⟨NDArr.scalar 3, dM⟩ ⟨NDArr.scalar 5, dM⟩ := by
  have hx : exUS3.run false exWorld (.plain (.setitem 3 kAll (.lit (.quantity ⟨NDArr.scalar 5, dM⟩))))
      = ((result 3 ((exUH.runAll false exWorld [.copy 1]).setitem exWorld exUO3 kAll
            (.quantity ⟨NDArr.scalar 5, dM⟩))).1,
        ⟨(result 3 ((exUH.runAll false exWorld [.copy 1]).setitem exWorld exUO3 kAll
            (.quantity ⟨NDArr.scalar 5, dM⟩))).2, exUS3.unc⟩) := by
    rw [exUS3_eq]; rfl
  have hs : (exUH.runAll false exWorld [.copy 1]).setitem exWorld exUO3 kAll (.quantity ⟨NDArr.scalar 5, dM⟩)
      = (exUH.runAll false exWorld [.copy 1]).assign exUO3 kAll (NDArr.scalar 5) := by
    unfold setitem assigned
    simp only [exUO3, AKind.dim, Operand.toQuantity, ex_dne_m_m, Bool.false_eq_true, if_false]
  rw [hx, hs, exUS3_eq]
  exact ⟨⟨3, rfl, sees_scalar rfl rfl rfl rfl, sees_scalar rfl rfl rfl rfl⟩, rfl, rfl,
    ⟨3, rfl, sees_scalar rfl rfl rfl rfl, sees_scalar rfl rfl rfl rfl⟩⟩

/-- C88 is false of `copy.deepcopy`: the deep copy of `x = 3 m ± 0.3 m` is 3 m without uncertainty. -/
theorem C88_deepcopy_false :
    (exUS.run false exWorld (.plain (.deepcopy 1))).1 = .ok 5 ∧
    Sees (exUS.run false exWorld (.plain (.deepcopy 1))).2.heap 5 (.quantity dM) (NDArr.scalar 3) ∧
    (exUS.run false exWorld (.plain (.deepcopy 1))).2.unc 5 = none := by
  rw [exUS_eq]
  exact ⟨rfl, sees_scalar rfl rfl rfl rfl, rfl⟩

/-- The hypotheses of `C88_independent_partial` are met: `S` is `y`, and `x.uncertainty` with the array
that owns its memory; `x += 4*m` and a new quantity avoid it. -/
example : UHeap.Avoids false exWorld (fun n => n = 4 ∨ n = 3 ∨ n = 2) exUS3
    [.plain (.inplace .add 1 (.lit (.quantity ⟨NDArr.scalar 4, dM⟩))), .new (NDArr.scalar 4) dM (NDArr.scalar 1)] ∧
    (∀ m n, (m = 4 ∨ m = 3 ∨ m = 2) → ¬ (n = 4 ∨ n = 3 ∨ n = 2) → ApartIds exUS3.heap m n) := by
  refine ⟨⟨?_, fun n _ h => h, trivial⟩, ?_⟩
  · rintro n (rfl | rfl | rfl) h <;> exact absurd h (by simp [UHeap.touches, Cmd.touches])
  · rw [exUS3_eq]
    intro m n hm hn o p ho hp a ha hb
    have e0 : ∀ (s : List Nat), InB [] s → s = [] := fun s hs => by cases hs; rfl
    have hcell : ∀ (k : Nat) (q : Obj), q = ⟨q.kind, [], fun j => k + ravel [] j, q.owns, q.base, q.writeable⟩ →
        ∀ a, q.Cell a → a = k := by
      rintro k q hq a ⟨i, hi, rfl⟩
      rw [hq] at hi ⊢
      rw [e0 i hi]; rfl
    have hobjs : ∀ (k : Nat) (q : Obj), (exUH.runAll false exWorld [.copy 1]).objs[k]? = some q →
        (k = 0 ∨ k = 1) ∧ (∀ a, q.Cell a → a = 0) ∨ (k = 2 ∨ k = 3) ∧ (∀ a, q.Cell a → a = 1) ∨
        k = 4 ∧ (∀ a, q.Cell a → a = 2) := by
      intro k q hq
      match k, hq with
      | 0, hq => cases hq; exact .inl ⟨.inl rfl, hcell 0 _ rfl⟩
      | 1, hq => cases hq; exact .inl ⟨.inr rfl, hcell 0 _ rfl⟩
      | 2, hq => cases hq; exact .inr (.inl ⟨.inl rfl, hcell 1 _ rfl⟩)
      | 3, hq => cases hq; exact .inr (.inl ⟨.inr rfl, hcell 1 _ rfl⟩)
      | 4, hq => cases hq; exact .inr (.inr ⟨rfl, hcell 2 _ rfl⟩)
      | n + 5, hq => cases hq
    rcases hobjs m o ho with ⟨h1, h2⟩ | ⟨h1, h2⟩ | ⟨h1, h2⟩ <;>
      rcases hobjs n p hp with ⟨h3, h4⟩ | ⟨h3, h4⟩ | ⟨h3, h4⟩ <;>
      first | omega | (have e1 := h2 a ha; have e2 := h4 a hb; omega)

/-- C89 is false of `*=` with units (numpy before 2): with `x = 3 m ± 0.3 m`, after `x *= 2*s` the value is
6 m*s, but the uncertainty is still in metres. -/
theorem C89_imul_false :
    (exUS.run false exWorld (.plain (.inplace .mul 1 (.lit (.quantity ⟨NDArr.scalar 2, dS⟩))))).1 = .ok 1 ∧
    (exUS.run false exWorld (.plain (.inplace .mul 1 (.lit (.quantity ⟨NDArr.scalar 2, dS⟩))))).2.Shows 1
      ⟨NDArr.scalar 6, [(uM, 1), (uS, 1)]⟩ ⟨NDArr.scalar (3/10), dM⟩ := by
  rw [exUS_eq]
  refine ⟨rfl, ⟨3, rfl, sees_scalar rfl rfl rfl ?_, sees_scalar rfl rfl rfl rfl⟩⟩
  change (3 : ℝ) * 2 = 6
  norm_num

/-- The subscript of `x.reshape(1)` for a scalar `x`. -/
def kUp : Key := fun s =>
  match s with
  | [] => .ok ([1], fun _ => [])
  | _ => .error .indexError

theorem kUp_basic : kUp.Basic := by
  have key : ∀ s s' f, kUp s = .ok (s', f) → s = [] ∧ s' = [1] ∧ f = fun _ => [] := by
    intro s s' f h
    unfold kUp at h
    split at h
    · cases h; exact ⟨rfl, rfl, rfl⟩
    · cases h
  have one : ∀ i, InB [1] i → i = [0] := by
    intro i hi
    cases hi with
    | cons h1 h2 => cases h2; rename_i n; have : n = 0 := by omega
                    rw [this]
  constructor
  · intro s s' f h i hi
    obtain ⟨rfl, rfl, rfl⟩ := key s s' f h
    exact .nil
  · intro s s' f h i j hi hj _
    obtain ⟨rfl, rfl, rfl⟩ := key s s' f h
    rw [one i hi, one j hj]

/-- C89 is false of `reshape` and the other inherited methods that rearrange elements: with the scalar
`x = 3 m ± 0.3 m`, `x.reshape(1)` has shape `(1,)` and an uncertainty of shape `()`. -/
theorem C89_reshape_false :
    let s := (exUS.run false exWorld (.rearrange 1 kUp)).2
    (exUS.run false exWorld (.rearrange 1 kUp)).1 = .ok 4 ∧
    (∃ o, s.heap.objs[4]? = some o ∧ o.shape = [1]) ∧ s.unc 4 = some 3 ∧
    (∃ o, s.heap.objs[3]? = some o ∧ o.shape = []) := by
  rw [exUS_eq]
  exact ⟨rfl, ⟨_, rfl, rfl⟩, rfl, ⟨_, rfl, rfl⟩⟩

end PQ
