import Verif.Model.Elements
import Verif.Spec.Construct
import Verif.Lemmas.ExampleHeap

/-!
# Property C49: elements keep their units

Indexing, iterating and `tolist` give quantities in the units of the array with the stored
magnitudes.
-/

namespace PQ

open NDArr

variable {K : Type _}

theorem tolistAux_map (d : Dim) : ∀ l : List (Nested K),
    Quantity.tolistAux d l = l.map (Quantity.tolistEntry d)
  | [] => by simp [Quantity.tolistAux]
  | x :: xs => by simp [Quantity.tolistAux, tolistAux_map d xs]

theorem tolist_eq (q : Quantity K) :
    q.tolist = Quantity.tolistEntry q.dim (nest q.mag.shape q.mag.elem) := by
  unfold Quantity.tolist
  split
  · rename_i l h; rw [h, Quantity.tolistEntry]
  · rename_i x h; rw [h, Quantity.tolistEntry]

theorem nest_get (d : Dim) : ∀ (s i : List Nat) (f : List Nat → K), InB s i →
    (Quantity.tolistEntry d (nest s f)).get i = some (.leaf ⟨NDArr.scalar (f i), d⟩)
  | [], i, f, h => by
      cases h
      simp [nest, Quantity.tolistEntry, Nested.get, Quantity.ofNumber]
  | n :: s, i, f, h => by
      cases h with
      | cons h1 h2 =>
        rename_i a r
        simp only [nest, Quantity.tolistEntry, tolistAux_map, Nested.get, List.map_map,
          List.getElem?_map, List.getElem?_range h1, Option.map_some, Function.comp]
        exact nest_get d s r (fun r => f (a :: r)) h2

/-- C49: `q.tolist()[i][j]...` is the scalar quantity with the magnitude stored at `[i, j, ...]` and the
units of `q`, for every valid index. -/
theorem C49_tolist (q : Quantity K) (i : List Nat) (hi : InB q.mag.shape i) :
    q.tolist.get i = some (.leaf ⟨NDArr.scalar (q.mag.elem i), q.dim⟩) := by
  rw [tolist_eq]
  exact nest_get q.dim q.mag.shape i q.mag.elem hi

/-- The nested lists have exactly the lengths given by the shape. -/
theorem nest_length (d : Dim) : ∀ (s t i : List Nat) (n : Nat) (f : List Nat → K), InB s i →
    ∃ x, (Quantity.tolistEntry d (nest (s ++ n :: t) f)).get i = some x ∧ x.length? = some n
  | [], t, i, n, f, h => by
      cases h
      exact ⟨_, by simp only [Nested.get]; rfl, by
        simp [nest, Quantity.tolistEntry, tolistAux_map, Nested.length?]⟩
  | m :: s, t, i, n, f, h => by
      cases h with
      | cons h1 h2 =>
        rename_i a r
        obtain ⟨x, hx, hl⟩ := nest_length d s t r n (fun r => f (a :: r)) h2
        refine ⟨x, ?_, hl⟩
        simp only [List.cons_append, nest, Quantity.tolistEntry, tolistAux_map, Nested.get, List.map_map,
          List.getElem?_map, List.getElem?_range h1, Option.map_some, Function.comp]
        exact hx

/-- C49: the list found at a partial index `i` has as many entries as the array has along the next
axis: nothing is lost or added. -/
theorem C49_tolist_length (q : Quantity K) (s t i : List Nat) (n : Nat)
    (hs : q.mag.shape = s ++ n :: t) (hi : InB s i) :
    ∃ x, q.tolist.get i = some x ∧ x.length? = some n := by
  rw [tolist_eq, hs]
  exact nest_length q.dim s t i n q.mag.elem hi

/-- C49: `q[i]` with an integer: an `IndexError` outside of the first axis, otherwise the sub-array at
`i`, in the units of `q`. -/
theorem C49_getitem_int (q : Quantity K) (n : Nat) (s : List Nat) (hs : q.mag.shape = n :: s) (i : Int) :
    ((i < -n ∨ (n : Int) ≤ i) → q.getitem (Key.int i) = .error .indexError) ∧
    (∀ k : Nat, k < n → (i = k ∨ i = k - n) → ∃ r, q.getitem (Key.int i) = .ok r ∧ r.dim = q.dim ∧
      r.mag.shape = s ∧ ∀ j, r.mag.elem j = q.mag.elem (k :: j)) := by
  constructor
  · intro h
    unfold Quantity.getitem NDArr.select Key.int
    simp only [hs]
    rw [if_neg (by split <;> omega)]
  · intro k hk hi
    unfold Quantity.getitem NDArr.select Key.int
    simp only [hs]
    have hp : (if i < 0 then i + (n : Int) else i) = k := by split <;> omega
    rw [hp, if_pos (by omega)]
    exact ⟨_, rfl, rfl, rfl, fun j => by simp⟩

/-- C49: any subscript gives a quantity in the units of `q` whose elements are elements of `q`. -/
theorem C49_getitem (q r : Quantity K) (k : Key) (h : q.getitem k = .ok r) :
    r.dim = q.dim ∧ ∃ sel, k q.mag.shape = .ok (r.mag.shape, sel) ∧
      ∀ j, r.mag.elem j = q.mag.elem (sel j) := by
  unfold Quantity.getitem NDArr.select at h
  split at h
  · cases h
  · rename_i m hm
    cases h
    split at hm
    · cases hm
    · rename_i s f hf
      cases hm
      exact ⟨rfl, f, hf, fun _ => rfl⟩

theorem mapM_ok {α β : Type _} (f : α → Py β) (g : α → β) : ∀ (l : List α), (∀ x ∈ l, f x = .ok (g x)) →
    l.mapM f = .ok (l.map g)
  | [], _ => rfl
  | x :: xs, h => by
      rw [List.mapM_cons, h x (by simp), mapM_ok f g xs (fun y hy => h y (by simp [hy]))]
      rfl

/-- C49: iterating over `q` gives its sub-arrays along the first axis, in order, each in the units of `q`;
a scalar quantity is not iterable. -/
theorem C49_iter (q : Quantity K) :
    (q.mag.shape = [] → q.iter = .error .typeError) ∧
    (∀ n s, q.mag.shape = n :: s → ∃ l, q.iter = .ok l ∧ l.length = n ∧
      ∀ k x, l[k]? = some x → x.dim = q.dim ∧ x.mag.shape = s ∧ ∀ j, x.mag.elem j = q.mag.elem (k :: j)) := by
  constructor
  · intro h
    unfold Quantity.iter
    rw [h]
  · intro n s h
    refine ⟨(List.range n).map (fun k => ⟨⟨s, fun j => q.mag.elem (k :: j)⟩, q.dim⟩), ?_, by simp, ?_⟩
    · unfold Quantity.iter
      rw [h]
      refine mapM_ok _ _ _ (fun k hk => ?_)
      have hk' : k < n := List.mem_range.1 hk
      unfold Quantity.getitem NDArr.select Key.int
      simp only [h]
      have hp : (if (k : Int) < 0 then (k : Int) + (n : Int) else k) = k := by split <;> omega
      rw [hp, if_pos (by omega)]
      simp
    · intro k x hx
      rw [List.getElem?_map] at hx
      rcases hr : (List.range n)[k]? with _ | y
      · rw [hr] at hx; cases hx
      · rw [hr] at hx
        simp only [Option.map_some, Option.some.injEq] at hx
        have : y = k := by
          obtain ⟨hl, e⟩ := List.getElem?_eq_some_iff.1 hr
          rw [← e]; simp
        subst this
        subst hx
        exact ⟨rfl, rfl, fun _ => rfl⟩

/-- C49: putting the iterated sub-arrays back together (`np.stack`, here by its meaning: the element at
`[k, ...]` of the whole is the element at `[...]` of the `k`-th part) gives `q` back. -/
theorem C49_iter_rebuild (q : Quantity K) (n : Nat) (s : List Nat) (hs : q.mag.shape = n :: s) :
    ∃ l, q.iter = .ok l ∧ ∀ (a : NDArr K), a.shape = n :: s →
      (∀ k x j, l[k]? = some x → a.elem (k :: j) = x.mag.elem j) → a.Same q.mag := by
  obtain ⟨l, hl, hn, hx⟩ := (C49_iter q).2 n s hs
  refine ⟨l, hl, fun a ha h => ⟨ha.trans hs.symm, fun i hi => ?_⟩⟩
  rw [ha] at hi
  cases hi with
  | cons h1 h2 =>
    rename_i k r
    have hk : k < l.length := by omega
    have hg := List.getElem?_eq_getElem hk
    rw [h k _ r hg, (hx k _ hg).2.2 r]

/-- The 2-by-1 array `[[1], [2]] * km` and its element `[1, 0]`. -/
example : (⟨⟨[2, 1], fun i => (i.headD 0 : ℝ) + 1⟩, dKm⟩ : Quantity ℝ).tolist.get [1, 0]
    = some (.leaf ⟨NDArr.scalar (((1 : Nat) : ℝ) + 1), dKm⟩) :=
  C49_tolist _ [1, 0] (.cons (by decide) (.cons (by decide) .nil))

example : ∃ l, (⟨exArr, dKm⟩ : Quantity ℝ).iter = .ok l ∧ l.length = 3 := by
  obtain ⟨l, h1, h2, _⟩ := (C49_iter (⟨exArr, dKm⟩ : Quantity ℝ)).2 3 [] rfl
  exact ⟨l, h1, h2⟩

section heap
variable [Zero K] [One K] [Add K] [Sub K] [Mul K] [Div K] [RPow K] [PyFloor K]
  [DecidableEq K] {np2 : Bool} {w : World K} {h : Heap K}

/-- C49: picking one element out of an array gives a new scalar quantity in the units of the array, which
shares no memory with anything that existed. -/
theorem C49_item_fresh (hr : Heap.Reached np2 w h) (i : Nat) (o : Obj) (d : Dim) (idx : List Nat)
    (ho : h.objs[i]? = some o) (hk : o.kind = .quantity d) (hi : InB o.shape idx) :
    ∃ j h1, h.run np2 w (.item i idx) = (.ok j, h1) ∧ h.objs.length ≤ j ∧
      Sees h1 j (.quantity d) (NDArr.scalar ((h.arr o).elem idx)) ∧
      ∀ m, m < h.objs.length → ApartIds h1 j m := by
  have hq : o.kind.isQuantity = true := by rw [hk]; rfl
  have hd : o.kind.dim = d := by rw [hk]; rfl
  simp only [Heap.run, ho]
  rw [if_pos (mem_indices.2 hi), if_pos hq, hd, Heap.allocQuantity_eq]
  refine ⟨_, _, rfl, ?_, ?_, ?_⟩
  · simp [Heap.pushView, Heap.push, Heap.alloc]
  · refine ⟨_, Heap.push_get_new _ _, rfl, rfl, fun x hx => ?_⟩
    cases hx
    exact Heap.alloc_mem_new h (NDArr.scalar (h.mem (o.addr idx))) .ndarray true [] .nil
  · intro m hm p q hp hq' c hc hc'
    have hp' := Heap.push_get_new (h.alloc (NDArr.scalar (h.mem (o.addr idx))) .ndarray true).2
      ⟨.quantity d, (NDArr.scalar (h.mem (o.addr idx))).shape,
        fun j => (Heap.allocObj h (NDArr.scalar (h.mem (o.addr idx))) .ndarray true).addr (id j), false,
        some (Heap.collapse (h.alloc (NDArr.scalar (h.mem (o.addr idx))) .ndarray true).2.objs (.quantity d)
          (h.alloc (NDArr.scalar (h.mem (o.addr idx))) .ndarray true).2.objs.length h.objs.length),
        (Heap.allocObj h (NDArr.scalar (h.mem (o.addr idx))) .ndarray true).writeable⟩
    have e := hp.symm.trans hp'
    simp only [Option.some.injEq] at e
    subst e
    have hq2 : h.objs[m]? = some q := by
      rcases Heap.push_get_cases _ _ _ _ hq' with h1 | ⟨e, _⟩
      · rcases Heap.alloc_get_cases _ _ _ _ _ _ h1 with h2 | ⟨e, _⟩
        · exact h2
        · omega
      · simp [Heap.alloc, Heap.push] at e; omega
    have hlt := (hr.wf.ok m q hq2).cell_lt hc'
    obtain ⟨x, hx, rfl⟩ := hc
    exact absurd hlt (Nat.not_lt.2 (Heap.allocObj_cell (h := h) (a := NDArr.scalar (h.mem (o.addr idx)))
      (kind := .ndarray) (wr := true) ⟨x, hx, rfl⟩))

end heap

end PQ
