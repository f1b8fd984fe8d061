import Verif.Lemmas.Subscript
import Verif.Props.ItemAssign
import Verif.Props.Compare
import Verif.Props.Elements

/-!
# C130: subscripts

The properties of views and of item assignment (C28-C31, C49, C53, C70, C117) hold for any subscript that selects
existing elements, none twice for a view. Here: which elements the subscripts programs write select,
and that they are of that kind.
-/

namespace PQ

open NDArr Heap

section read
variable {K : Type _}

/-- `q[k1, k2, ...]` with integers, slices, `...` and `np.newaxis` returns exactly when there is at most one
`...`, there are enough axes, the integers are in range and no step is 0. The result has the units of
`q`; at every place it has the element that the rules of subscripts say, and every element of `q` that the
rules select is there. -/
theorem C130_getitem (q : Quantity K) (ks : List Sub) :
    (Returns (q.getitem (Key.basic ks)) ↔ Fits ks q.mag.shape) ∧
    ∀ r, q.getitem (Key.basic ks) = .ok r → r.dim = q.dim ∧
      (∀ i, InB r.mag.shape i → ∃ j, Picks ks q.mag.shape i j ∧ InB q.mag.shape j ∧ r.mag.elem i = q.mag.elem j) ∧
      (∀ i j, Picks ks q.mag.shape i j → InB q.mag.shape j → InB r.mag.shape i ∧ r.mag.elem i = q.mag.elem j) := by
  constructor
  · rw [← basic_fits]
    unfold Quantity.getitem select
    rcases Key.basic ks q.mag.shape with e | ⟨t, f⟩
    · exact ⟨fun h => absurd h (not_returns_error _), fun h => absurd h (not_returns_error _)⟩
    · exact ⟨fun _ => ⟨_, rfl⟩, fun _ => ⟨_, rfl⟩⟩
  · intro r hr
    obtain ⟨hd, f, hk, hel⟩ := C49_getitem q r _ hr
    obtain ⟨h1, h2⟩ := entries_spec (basic_entries hk)
    exact ⟨hd, fun i hi => ⟨f i, (h1 i hi).1, (h1 i hi).2, hel i⟩,
      fun i j hp hj => ⟨(h2 i j hp hj).1, by rw [hel, (h2 i j hp hj).2]⟩⟩

private theorem entries_error : ∀ (ks : List Sub) (s : List Nat) (e : PyErr), Key.entries ks s = .error e →
    e = .indexError ∨ (e = .valueError ∧ ∃ a b, Sub.slice a b (some 0) ∈ ks)
  | [], s, e, h => by simp [Key.entries] at h
  | .newaxis :: ks, s, e, h => by
    rw [Key.entries] at h
    cases hk : Key.entries ks s with
    | ok r => simp [hk] at h
    | error e' =>
      simp only [hk, Except.error.injEq] at h
      subst h
      rcases entries_error ks s _ hk with h1 | ⟨h1, a, b, h2⟩
      · exact Or.inl h1
      · exact Or.inr ⟨h1, a, b, List.mem_cons_of_mem _ h2⟩
  | .ellipsis :: ks, s, e, h => by
    rw [Key.entries] at h
    cases hk : Key.entries ks (s.drop (s.length - (ks.map Sub.uses).sum)) with
    | ok r => simp [hk] at h
    | error e' =>
      simp only [hk, Except.error.injEq] at h
      subst h
      rcases entries_error ks _ _ hk with h1 | ⟨h1, a, b, h2⟩
      · exact Or.inl h1
      · exact Or.inr ⟨h1, a, b, List.mem_cons_of_mem _ h2⟩
  | .int x :: ks, [], e, h => by
    simp only [Key.entries, Except.error.injEq] at h
    exact Or.inl h.symm
  | .int x :: ks, n :: s, e, h => by
    rw [Key.entries] at h
    by_cases hp : 0 ≤ (if x < 0 then x + (n : Int) else x) ∧ (if x < 0 then x + (n : Int) else x) < n
    · rw [if_pos hp] at h
      cases hk : Key.entries ks s with
      | ok r => rw [hk] at h; cases h
      | error e' =>
        rw [hk] at h
        simp only [Except.error.injEq] at h
        subst h
        rcases entries_error ks s _ hk with h1 | ⟨h1, a, b, h2⟩
        · exact Or.inl h1
        · exact Or.inr ⟨h1, a, b, List.mem_cons_of_mem _ h2⟩
    · rw [if_neg hp] at h
      simp only [Except.error.injEq] at h
      exact Or.inl h.symm
  | .slice a b c :: ks, [], e, h => by
    simp only [Key.entries, Except.error.injEq] at h
    exact Or.inl h.symm
  | .slice a b c :: ks, n :: s, e, h => by
    rw [Key.entries] at h
    by_cases hc : c = some 0
    · rw [(sliceIndices_returns n a b c).2 hc] at h
      simp only [Except.error.injEq] at h
      exact Or.inr ⟨h.symm, a, b, by rw [hc]; exact List.mem_cons_self ..⟩
    · obtain ⟨⟨f, k, len⟩, hs⟩ := (sliceIndices_returns n a b c).1 hc
      rw [hs] at h
      simp only at h
      cases hk : Key.entries ks s with
      | ok r => simp [hk] at h
      | error e' =>
        simp only [hk, Except.error.injEq] at h
        subst h
        rcases entries_error ks s _ hk with h1 | ⟨h1, a', b', h2⟩
        · exact Or.inl h1
        · exact Or.inr ⟨h1, a', b', List.mem_cons_of_mem _ h2⟩

/-- What `q[k1, k2, ...]` raises: `IndexError`, or `ValueError` if one of the slices has step 0. -/
theorem C130_errors (q : Quantity K) (ks : List Sub) (e : PyErr) (h : q.getitem (Key.basic ks) = .error e) :
    e = .indexError ∨ (e = .valueError ∧ ∃ start stop, Sub.slice start stop (some 0) ∈ ks) := by
  unfold Quantity.getitem select at h
  cases hb : Key.basic ks q.mag.shape with
  | ok r => simp [hb] at h
  | error e' =>
    simp only [hb, Except.error.injEq] at h
    subst h
    unfold Key.basic at hb
    split at hb
    · simp only [Except.error.injEq] at hb
      exact Or.inl hb.symm
    · exact entries_error ks _ _ hb

example : (⟨⟨[3], fun _ => (0 : ℤ)⟩, []⟩ : Quantity ℤ).getitem (Key.basic [.int 0, .int 0]) = .error .indexError ∧
    (⟨⟨[3], fun _ => (0 : ℤ)⟩, []⟩ : Quantity ℤ).getitem (Key.basic [.slice none none (some 0)]) =
      .error .valueError := ⟨rfl, rfl⟩

/-- A slice of a one-dimensional quantity: `ValueError` for step 0; otherwise the items of the slice, in
order and without gaps. -/
theorem C130_slice (q : Quantity K) (n : Nat) (hn : q.mag.shape = [n]) (start stop step : Option Int) :
    (step = some 0 → q.getitem (Key.basic [.slice start stop step]) = .error .valueError) ∧
    (step ≠ some 0 → ∃ r len, q.getitem (Key.basic [.slice start stop step]) = .ok r ∧ r.mag.shape = [len] ∧
      r.dim = q.dim ∧ (∀ m, m < len ↔ ∃ x, SliceItem n start stop step m x) ∧
      ∀ m x, SliceItem n start stop step m x → r.mag.elem [m] = q.mag.elem [x]) := by
  have hb : ¬ (1 < [Sub.slice start stop step].count .ellipsis ∨
      [n].length < ([Sub.slice start stop step].map Sub.uses).sum) := by
    simp [Sub.uses, List.count_cons]
  constructor
  · intro h0
    unfold Quantity.getitem select
    rw [hn]
    unfold Key.basic
    rw [if_neg hb, Key.entries, (sliceIndices_returns n start stop step).2 h0]
  · intro h0
    obtain ⟨⟨a, k, len⟩, hs⟩ := (sliceIndices_returns n start stop step).1 h0
    obtain ⟨-, h2⟩ := sliceIndices_spec hs
    have hk : Key.basic [.slice start stop step] q.mag.shape = .ok ([len],
        fun i => (a + k * i.headD 0).toNat :: i.tail) := by
      rw [hn]
      unfold Key.basic
      rw [if_neg hb, Key.entries, hs]
      rfl
    refine ⟨⟨⟨[len], fun i => q.mag.elem ((a + k * i.headD 0).toNat :: i.tail)⟩, q.dim⟩, len, ?_, rfl, rfl, ?_, ?_⟩
    · unfold Quantity.getitem select
      rw [hk]
    · intro m
      constructor
      · intro hm; exact ⟨_, (h2 m _).mpr ⟨hm, rfl⟩⟩
      · rintro ⟨x, hx⟩; exact ((h2 m x).mp hx).1
    · intro m x hx
      simp only [List.headD_cons, List.tail_cons]
      rw [((h2 m x).mp hx).2]

/-- `q[positions]` with an integer array: `IndexError` unless all of them are items of the first axis;
the result has the units of `q`, the shape of the array of positions followed by the remaining axes, and the sub-arrays
named. -/
theorem C130_positions (q : Quantity K) (n : Nat) (s : List Nat) (hs : q.mag.shape = n :: s) (p : NDArr Int) :
    ((∃ i, InB p.shape i ∧ ∀ x, ¬ AxisItem n (p.elem i) x) → q.getitem (Key.positions p) = .error .indexError) ∧
    ((∀ i, InB p.shape i → ∃ x, AxisItem n (p.elem i) x) →
      ∃ r, q.getitem (Key.positions p) = .ok r ∧ r.dim = q.dim ∧ r.mag.shape = p.shape ++ s ∧
        ∀ i j x, InB p.shape i → AxisItem n (p.elem i) x → r.mag.elem (i ++ j) = q.mag.elem (x :: j)) := by
  have hrange : ∀ z : Int, (∃ x, AxisItem n z x) ↔ (-(n : Int) ≤ z ∧ z < n) := by
    intro z
    constructor
    · rintro ⟨x, h1, h2⟩; omega
    · rintro ⟨h1, h2⟩
      by_cases h : z < 0
      · exact ⟨(z + n).toNat, by omega, by omega⟩
      · exact ⟨z.toNat, by omega, by omega⟩
  constructor
  · rintro ⟨i, hi, hx⟩
    unfold Quantity.getitem select
    rw [hs]
    unfold Key.positions
    simp only
    rw [if_neg]
    intro ha
    have := List.all_eq_true.mp ha _ (mem_toList.mpr ⟨i, hi, rfl⟩)
    simp only [decide_eq_true_eq] at this
    obtain ⟨x, hx'⟩ := (hrange _).mpr this
    exact hx x hx'
  · intro hall
    have ha : p.toList.all (fun x => decide (-(n : Int) ≤ x ∧ x < n)) = true := by
      rw [List.all_eq_true]
      intro z hz
      obtain ⟨i, hi, rfl⟩ := mem_toList.mp hz
      simpa using (hrange _).mp (hall i hi)
    have hk : Key.positions p q.mag.shape = .ok (p.shape ++ s, fun i =>
        wrapPos n (p.elem (i.take p.shape.length)) :: i.drop p.shape.length) := by
      rw [hs]
      unfold Key.positions
      simp only
      rw [if_pos ha]
    refine ⟨⟨⟨p.shape ++ s, fun i => q.mag.elem (wrapPos n (p.elem (i.take p.shape.length)) ::
      i.drop p.shape.length)⟩, q.dim⟩, ?_, rfl, rfl, ?_⟩
    · unfold Quantity.getitem select
      rw [hk]
    · intro i j x hi hx
      simp only
      rw [← hi.length, List.take_left, List.drop_left]
      have : wrapPos n (p.elem i) = x := by
        unfold wrapPos
        obtain ⟨h1, h2⟩ := hx
        split <;> omega
      rw [this]

/-- `q[mask]`: `IndexError` for a mask of another shape; otherwise the elements at the places where the mask
is true, in row-major order, in the units of `q`. -/
theorem C130_mask (q : Quantity K) (m : NDArr Bool) :
    (m.shape ≠ q.mag.shape → q.getitem (Key.mask m) = .error .indexError) ∧
    (m.shape = q.mag.shape → ∃ r, q.getitem (Key.mask m) = .ok r ∧ r.dim = q.dim ∧
      r.mag.toList = ((indices q.mag.shape).filter m.elem).map q.mag.elem) := by
  constructor
  · intro h
    unfold Quantity.getitem select Key.mask
    rw [if_neg h]
  · intro h
    refine ⟨⟨⟨[((indices q.mag.shape).filter m.elem).length], fun i =>
      q.mag.elem ((((indices q.mag.shape).filter m.elem)[i.headD 0]?).getD [])⟩, q.dim⟩, ?_, rfl, ?_⟩
    · unfold Quantity.getitem select Key.mask
      rw [if_pos h]
    · exact mask_toList _ _

/-- Every subscript written with integers, slices, `...` and `np.newaxis` gives a view to which C29, C53, C70 and C117
apply; integer arrays and masks are subscripts to which C31 applies. -/
theorem C130_subscripts_valid (ks : List Sub) (p : NDArr Int) (m : NDArr Bool) :
    (Key.basic ks).Basic ∧ (Key.positions p).Sound ∧ (Key.mask m).Sound :=
  ⟨Key.basic_basic ks, Key.positions_sound p, Key.mask_sound m⟩

end read

section ordered
variable {K : Type _} [Field K] [LinearOrder K] [IsStrictOrderedRing K] [RPow K] [LawfulRPow K]
  {hh : Hasher} {w : World K}

/-- Selecting with the mask that a comparison with a scalar gives. -/
private theorem where_of {q b : Quantity K} {rel : K → K → Bool} {m : NDArr Bool} (hsc : b.mag.shape = [])
    (h : ∀ v : Valuation w, NDArr.bin rel (v.phys q) (v.phys b) = .ok m) (hw : Reachable hh w) :
    ∃ r, q.getitem (Key.mask m) = .ok r ∧ r.dim = q.dim ∧
      ∀ v : Valuation w, (v.phys r).toList = (v.phys q).toList.filter (fun x => rel x ((v.phys b).elem [])) := by
  have hbin : ∀ v : Valuation w, m.shape = q.mag.shape ∧
      ∀ i, InB q.mag.shape i → m.elem i = rel ((v.phys q).elem i) ((v.phys b).elem []) := by
    intro v
    have := h v
    unfold NDArr.bin at this
    rw [show (v.phys b).shape = [] from hsc, bshape_nil_right] at this
    injection this with this
    rw [← this]
    refine ⟨rfl, fun i hi => ?_⟩
    show rel ((v.phys q).elem (bidx q.mag.shape i)) _ = _
    rw [bidx_self hi]
    rfl
  obtain ⟨v₀⟩ := exists_valuation hw.wf
  obtain ⟨r, hr, hd, hl⟩ := (C130_mask q m).2 (hbin v₀).1
  refine ⟨r, hr, hd, fun v => ?_⟩
  have e1 : (v.phys r).toList = r.mag.toList.map (fun x => x * v.size r.dim) := by
    rw [← toList_map]; rfl
  rw [e1, hl, hd, List.map_map]
  show _ = ((indices q.mag.shape).map (v.phys q).elem).filter _
  rw [List.filter_map]
  have e2 : (indices q.mag.shape).filter m.elem =
      (indices q.mag.shape).filter ((fun x => rel x ((v.phys b).elem [])) ∘ (v.phys q).elem) := by
    apply List.filter_congr
    intro i hi
    exact (hbin v).2 i (mem_indices.mp hi)
  rw [e2]
  rfl

/-- `q[q > b]` for a scalar `b` in any compatible units keeps exactly the elements that are physically greater
than `b`, in order, in the units of `q`; and so for the other comparisons. -/
theorem C130_where (hw : Reachable hh w) (q b : Quantity K) (hq : DimOK w q.dim) (hb : DimOK w b.dim)
    (hs : HashSafe w b.dim q.dim) (hsc : b.mag.shape = []) :
    (∀ m, q.gt w (.quantity b) = .ok m → ∃ r, q.getitem (Key.mask m) = .ok r ∧ r.dim = q.dim ∧
      ∀ v : Valuation w, (v.phys r).toList = (v.phys q).toList.filter (fun x => decide (x > (v.phys b).elem []))) ∧
    (∀ m, q.ge w (.quantity b) = .ok m → ∃ r, q.getitem (Key.mask m) = .ok r ∧ r.dim = q.dim ∧
      ∀ v : Valuation w, (v.phys r).toList = (v.phys q).toList.filter (fun x => decide (x ≥ (v.phys b).elem []))) ∧
    (∀ m, q.lt w (.quantity b) = .ok m → ∃ r, q.getitem (Key.mask m) = .ok r ∧ r.dim = q.dim ∧
      ∀ v : Valuation w, (v.phys r).toList = (v.phys q).toList.filter (fun x => decide (x < (v.phys b).elem []))) ∧
    (∀ m, q.le w (.quantity b) = .ok m → ∃ r, q.getitem (Key.mask m) = .ok r ∧ r.dim = q.dim ∧
      ∀ v : Valuation w, (v.phys r).toList = (v.phys q).toList.filter (fun x => decide (x ≤ (v.phys b).elem []))) :=
  ⟨fun m hm => where_of hsc (fun v => (C17_gt hw q b hq hb hs).2.2 m hm v) hw,
   fun m hm => where_of hsc (fun v => (C17_ge hw q b hq hb hs).2.2 m hm v) hw,
   fun m hm => where_of hsc (fun v => (C17_lt hw q b hq hb hs).2.2 m hm v) hw,
   fun m hm => where_of hsc (fun v => (C17_le hw q b hq hb hs).2.2 m hm v) hw⟩

end ordered

section write
variable {K : Type _} [Field K] [LinearOrder K] [IsStrictOrderedRing K] [RPow K] [LawfulRPow K] [PyFloor K]
  {np2 : Bool} {w : World K} {h : Heap K} {hh : Hasher}

/-- `q[k1, k2, ...] = x` for a scalar `x`: the places the subscript selects get the physical value of `x`, all
others keep theirs, and the units stay. -/
theorem C130_setitem (hw : Reachable hh w) (hr : Reached np2 w h) (i : Nat) (o : Obj) (ks : List Sub)
    (xs : Src K) (x : Operand K) (h' : Heap K) (ho : h.objs[i]? = some o) (hx : h.src xs = some x)
    (hrun : h.run np2 w (.setitem i (Key.basic ks) xs) = (.ok i, h'))
    (hdo : DimOK w o.kind.dim) (hdx : DimOK w x.dim) (hs : HashSafe w x.dim o.kind.dim)
    (v : Valuation w) (hsc : (v.physOp x).shape = []) :
    h'.objs = h.objs ∧ Fits ks o.shape ∧ ∀ idx, InB o.shape idx →
      ((∃ j, Picks ks o.shape j idx) → (v.phys (h'.quantity o)).elem idx = (v.physOp x).elem []) ∧
      ((¬ ∃ j, Picks ks o.shape j idx) →
        (v.phys (h'.quantity o)).elem idx = (v.phys (h.quantity o)).elem idx) := by
  obtain ⟨hobj, s, sel, m, hk, -, hel⟩ := C31_setitem_stores hw hr i o (Key.basic ks) (Key.basic_basic ks).sound
    xs x h' ho hx hrun hdo hdx hs v
  have hsp := entries_spec (basic_entries hk)
  refine ⟨hobj, (basic_fits ks o.shape).mp ⟨_, hk⟩, fun idx hidx => ⟨?_, ?_⟩⟩
  · rintro ⟨j, hj⟩
    obtain ⟨hin, rfl⟩ := hsp.2 j idx hj hidx
    exact C31_setitem_scalar hw hr i o _ (Key.basic_basic ks).sound xs x h' ho hx hrun hdo hdx hs v hsc s sel hk j hin
  · intro hn
    rcases hel idx hidx with ⟨j, hj, rfl, -⟩ | ⟨-, e⟩
    · exact absurd ⟨j, (hsp.1 j hj).1⟩ hn
    · exact e

/-- `q[mask] = x` for a scalar `x`: the places where the mask is true get the physical value of `x`, all
others keep theirs. -/
theorem C130_setmask (hw : Reachable hh w) (hr : Reached np2 w h) (i : Nat) (o : Obj) (mask : NDArr Bool)
    (xs : Src K) (x : Operand K) (h' : Heap K) (ho : h.objs[i]? = some o) (hx : h.src xs = some x)
    (hrun : h.run np2 w (.setitem i (Key.mask mask) xs) = (.ok i, h'))
    (hdo : DimOK w o.kind.dim) (hdx : DimOK w x.dim) (hs : HashSafe w x.dim o.kind.dim)
    (v : Valuation w) (hsc : (v.physOp x).shape = []) :
    h'.objs = h.objs ∧ mask.shape = o.shape ∧ ∀ idx, InB o.shape idx →
      (v.phys (h'.quantity o)).elem idx =
        if mask.elem idx then (v.physOp x).elem [] else (v.phys (h.quantity o)).elem idx := by
  obtain ⟨hobj, s, sel, m, hk, -, hel⟩ := C31_setitem_stores hw hr i o (Key.mask mask) (Key.mask_sound mask)
    xs x h' ho hx hrun hdo hdx hs v
  have hk' := hk
  unfold Key.mask at hk'
  split at hk'
  swap
  · cases hk'
  rename_i hsh
  injection hk' with hk'
  injection hk' with e1 e2
  refine ⟨hobj, hsh, fun idx hidx => ?_⟩
  split
  · rename_i ht
    have hmem : idx ∈ (indices o.shape).filter mask.elem := List.mem_filter.mpr ⟨mem_indices.mpr hidx, ht⟩
    obtain ⟨k, hklt, hkx⟩ := List.mem_iff_getElem.mp hmem
    have hs1 : sel [k] = idx := by
      rw [← e2]
      simp only [List.headD_cons]
      rw [List.getElem?_eq_getElem hklt, Option.getD_some, hkx]
    rw [← hs1]
    refine C31_setitem_scalar hw hr i o _ (Key.mask_sound mask) xs x h' ho hx hrun hdo hdx hs v hsc s sel hk [k] ?_
    rw [← e1]
    exact .cons hklt .nil
  · rename_i hf
    rcases hel idx hidx with ⟨j, hj, hjs, -⟩ | ⟨-, e⟩
    · exfalso
      rw [← e1] at hj
      cases hj with
      | @cons k _ _ _ hk h2 =>
        cases h2
        rw [← e2] at hjs
        simp only [List.headD_cons] at hjs
        rw [List.getElem?_eq_getElem hk, Option.getD_some] at hjs
        have := (List.mem_filter.mp (List.getElem_mem hk)).2
        rw [hjs] at this
        exact hf this
    · exact e

end write

/-- `x[::-1]` of five items begins with the last; `x[-4:-1:2]` has the items 1 and 3; `x[1:100]` stops at the end;
`x[..., 0]` of a 2 by 3 matrix is its first column. -/
example : SliceItem 5 none none (some (-1)) 0 4 ∧ SliceItem 5 (some (-4)) (some (-1)) (some 2) 1 3 ∧
    ¬ SliceItem 5 (some 1) (some 100) none 4 5 ∧ Fits [.ellipsis, .int 0] [2, 3] ∧
    Picks [.ellipsis, .int 0] [2, 3] [1] [1, 0] ∧ ¬ Fits [.int 2] [2, 3] := by
  refine ⟨⟨by decide, by decide, by decide, trivial⟩, ⟨by decide, by decide, by decide, by unfold BeforeEnd fromStart; decide⟩, ?_, ?_, ?_, ?_⟩
  · rintro ⟨-, -, h, -⟩; omega
  · exact .ellipsis (s₀ := [2]) (s := [3]) (by decide) rfl (.int (p := 0) ⟨by decide, by decide⟩ .nil)
  · exact .ellipsis (s₀ := [2]) (s := [3]) (i₀ := [1]) (i := []) (j := [0]) rfl rfl
      (.int ⟨by decide, by decide⟩ .nil)
  · intro h
    cases h with
    | int hx _ => obtain ⟨h1, h2⟩ := hx; omega

/-- `q[1:]` and `q[::-1]` of `[1, 2, 3] * km`. -/
example : Returns ((⟨⟨[3], fun i => (i.headD 0 : ℝ) + 1⟩, dKm⟩ : Quantity ℝ).getitem
    (Key.basic [.slice (some 1) none none])) ∧
    Returns ((⟨⟨[3], fun i => (i.headD 0 : ℝ) + 1⟩, dKm⟩ : Quantity ℝ).getitem
      (Key.basic [.slice none none (some (-1))])) :=
  ⟨(C130_getitem _ _).1.mpr (.slice (by decide) .nil), (C130_getitem _ _).1.mpr (.slice (by decide) .nil)⟩

/-- `q[1:] = 5*m` on a quantity in kilometres that a program has made. -/
example : ((Heap.empty.runAll false exWorld [.newQuantity ⟨[3], fun i => (i.headD 0 : ℝ)⟩ dKm]).run false exWorld
    (.setitem 1 (Key.basic [.slice (some 1) none none]) (.lit (.quantity ⟨NDArr.scalar 5, dM⟩)))).1 = .ok 1 :=
  C31_compatible exWorld_reachable 1 _ _ (.lit (.quantity ⟨NDArr.scalar 5, dM⟩)) _ rfl rfl rfl (ex_dimOK _ (by simp [AKind.dim]))
    (ex_dimOK _ (by simp [Operand.dim])) ex_safe_m_km (compatible_symm exWorld_wf ex_compat) rfl [2] _ rfl _ rfl

end PQ
