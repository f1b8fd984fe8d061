import Verif.Lemmas.Rearrange
import Verif.Props.Calculus
import Verif.Props.Uncertain

/-!
# C148: methods that rearrange or select elements
-/

namespace PQ

open NDArr Heap

section read
variable {K : Type _}

private theorem getitem_ok {q : Quantity K} {k : Key} {s : List Nat} {f : List Nat → List Nat}
    (h : k q.mag.shape = .ok (s, f)) : q.getitem k = .ok ⟨⟨s, fun i => q.mag.elem (f i)⟩, q.dim⟩ := by
  unfold Quantity.getitem NDArr.select
  rw [h]

private theorem getitem_error {q : Quantity K} {k : Key} {e : PyErr} (h : k q.mag.shape = .error e) :
    q.getitem k = .error e := by
  unfold Quantity.getitem NDArr.select
  rw [h]

private theorem getitem_inv {q r : Quantity K} {k : Key} (h : q.getitem k = .ok r) :
    ∃ s f, k q.mag.shape = .ok (s, f) ∧ r = ⟨⟨s, fun i => q.mag.elem (f i)⟩, q.dim⟩ := by
  unfold Quantity.getitem NDArr.select at h
  rcases hk : k q.mag.shape with e | ⟨s, f⟩
  · rw [hk] at h; cases h
  · rw [hk] at h; cases h
    exact ⟨s, f, rfl, rfl⟩

/-- `q.reshape(t)`: the elements stay in row-major order; the lengths are those of `t`, with a length for
`-1` (`none`) if exactly one makes the number of elements right; otherwise `ValueError`. -/
theorem C148_reshape (q : Quantity K) (t : List (Option Nat)) :
    (∀ u, (t.count none ≤ 1 ∧ FillsIn q.mag.size t u ∧ ∀ u', FillsIn q.mag.size t u' → u' = u) →
      ∃ r, q.getitem (Key.reshape t) = .ok r ∧ r.dim = q.dim ∧ r.mag.shape = u ∧ r.mag.toList = q.mag.toList) ∧
    ((¬ ∃ u, t.count none ≤ 1 ∧ FillsIn q.mag.size t u ∧ ∀ u', FillsIn q.mag.size t u' → u' = u) →
      q.getitem (Key.reshape t) = .error .valueError) := by
  constructor
  · intro u hu
    have h : reshapeTo q.mag.shape.prod t = .ok u := reshapeTo_ok.mpr hu
    refine ⟨_, getitem_ok (s := u) (f := fun i => unflat q.mag.shape (ravel u i)) (by unfold Key.reshape; rw [h]), rfl, rfl, ?_⟩
    exact reshape_toList hu.2.1.2 q.mag.elem
  · intro hu
    refine getitem_error ?_
    unfold Key.reshape
    rcases h : reshapeTo q.mag.shape.prod t with e | u
    · rw [reshapeTo_error h]
    · exact absurd ⟨u, reshapeTo_ok.mp h⟩ hu

/-- `q.flatten()`: the elements in row-major order. -/
theorem C148_flatten (q : Quantity K) :
    ∃ r, q.getitem Key.flatten = .ok r ∧ r.dim = q.dim ∧ r.mag.shape = [q.mag.size] ∧ r.mag.toList = q.mag.toList := by
  refine ⟨_, getitem_ok rfl, rfl, rfl, ?_⟩
  rw [toList_flat]
  unfold NDArr.toList
  rw [indices_eq_range, List.map_map]
  rfl

/-- `q.transpose()`, `q.T`: the axes in reverse order. -/
theorem C148_transpose (q : Quantity K) :
    ∃ r, q.getitem (Key.transpose none) = .ok r ∧ r.dim = q.dim ∧ r.mag.shape = q.mag.shape.reverse ∧
      ∀ j, r.mag.elem j.reverse = q.mag.elem j := by
  refine ⟨_, getitem_ok rfl, rfl, rfl, fun j => ?_⟩
  simp only [List.reverse_reverse]

/-- `q.transpose(axes)`: `ValueError` unless `axes` names every axis once; the axis number `k` of the result is the axis
of `q` named by entry number `k`. -/
theorem C148_transpose_axes (q : Quantity K) (axes : List Int) :
    (¬ (axes.length = q.mag.shape.length ∧ ∃ S, NamesAxes q.mag.shape.length (.many axes) S) →
      q.getitem (Key.transpose (some axes)) = .error .valueError) ∧
    ∀ S, axes.length = q.mag.shape.length → NamesAxes q.mag.shape.length (.many axes) S →
      ∃ r, q.getitem (Key.transpose (some axes)) = .ok r ∧ r.dim = q.dim ∧
        r.mag.shape = S.map (fun n => q.mag.shape.getD n 0) ∧
        (∀ j, InB q.mag.shape j → InB r.mag.shape (S.map (fun n => j.getD n 0)) ∧
          r.mag.elem (S.map (fun n => j.getD n 0)) = q.mag.elem j) ∧
        (∀ i, InB r.mag.shape i → ∃ j, InB q.mag.shape j ∧ i = S.map (fun n => j.getD n 0)) := by
  constructor
  · intro h
    refine getitem_error ?_
    unfold Key.transpose
    by_cases hl : axes.length = q.mag.shape.length
    · simp only
      rw [if_neg (by simpa using hl)]
      rcases hn : normAxes q.mag.shape.length axes with e | S
      · have : axisMask q.mag.shape.length (.many axes) = .error e := by simp only [axisMask, hn]
        rw [axisMask_error this]
      · exact absurd ⟨hl, S, normAxes_ok.mp hn⟩ h
    · simp only
      rw [if_pos hl]
  · intro S hl hS
    obtain ⟨p1, p2, p3, p4⟩ := axes_perm hl hS
    have hk : Key.transpose (some axes) q.mag.shape = .ok (S.map (fun n => q.mag.shape.getD n 0),
        fun i => (List.range q.mag.shape.length).map (fun m => i.getD (S.idxOf m) 0)) := by
      unfold Key.transpose
      simp only
      rw [if_neg (by simpa using hl), normAxes_ok.mpr hS]
    refine ⟨_, getitem_ok hk, rfl, rfl, fun j hj => ⟨?_, ?_⟩, fun i hi => ?_⟩
    · refine inB_of_getD (by simp) (fun k hk => ?_)
      have hk : k < S.length := by simpa using hk
      simp only
      rw [getD_map_lt hk, getD_map_lt hk]
      exact inB_getD hj (p2 k (by omega))
    · simp only
      congr 1
      refine ext_getD (by simp [hj.length]) (fun m hm => ?_)
      have hm : m < q.mag.shape.length := by simpa using hm
      rw [getD_map_range _ _ _ hm, getD_map_lt (by rw [p1]; exact (p3 m hm).1), (p3 m hm).2]
    · have hil : i.length = S.length := by rw [hi.length]; simp
      refine ⟨(List.range q.mag.shape.length).map (fun m => i.getD (S.idxOf m) 0), ?_, ?_⟩
      · refine inB_of_getD (by simp) (fun m hm => ?_)
        rw [getD_map_range _ _ _ hm]
        have h1 := inB_getD hi (n := S.idxOf m) (by simp only [List.length_map]; rw [p1]; exact (p3 m hm).1)
        simp only at h1
        rw [getD_map_lt (by rw [p1]; exact (p3 m hm).1), (p3 m hm).2] at h1
        exact h1
      · refine ext_getD (by simp [hil]) (fun k hk => ?_)
        have hk' : k < q.mag.shape.length := by omega
        rw [getD_map_lt (by omega), getD_map_range _ _ _ (p2 k hk'), p4 k hk']

/-- `q.swapaxes(a, b)`. -/
theorem C148_swapaxes (q : Quantity K) (a b : Int) :
    (¬ (∃ n m, NamesAxis q.mag.shape.length a n ∧ NamesAxis q.mag.shape.length b m) →
      q.getitem (Key.swapaxes a b) = .error .valueError) ∧
    ∀ n m, NamesAxis q.mag.shape.length a n → NamesAxis q.mag.shape.length b m →
      ∃ r, q.getitem (Key.swapaxes a b) = .ok r ∧ r.dim = q.dim ∧ Swapped n m q.mag.shape r.mag.shape ∧
        ∀ i j, Swapped n m j i → InB q.mag.shape j → InB r.mag.shape i ∧ r.mag.elem i = q.mag.elem j := by
  constructor
  · intro h
    refine getitem_error ?_
    unfold Key.swapaxes
    rcases ha : normAxis q.mag.shape.length a with e | n
    · rfl
    · rcases hb : normAxis q.mag.shape.length b with e | m
      · rfl
      · exact absurd ⟨n, m, normAxis_ok.mp ha, normAxis_ok.mp hb⟩ h
  · intro n m ha hb
    have hk : Key.swapaxes a b q.mag.shape = .ok (exchange n m q.mag.shape, exchange n m) := by
      unfold Key.swapaxes
      rw [normAxis_ok.mpr ha, normAxis_ok.mpr hb]
    have sw : ∀ l : List Nat, l.length = q.mag.shape.length → Swapped n m l (exchange n m l) := by
      intro l hl
      have hn : n < l.length := by rw [hl]; exact ha.1
      have hm : m < l.length := by rw [hl]; exact hb.1
      refine ⟨exchange_length _ _ _, ?_, ?_, fun k h1 h2 => ?_⟩
      · rw [exchange_getD hn hm, if_pos rfl]
      · rw [exchange_getD hn hm]
        by_cases h : m = n
        · rw [if_pos h, h]
        · rw [if_neg h, if_pos rfl]
      · rw [exchange_getD hn hm, if_neg h1, if_neg h2]
    refine ⟨_, getitem_ok hk, rfl, sw _ rfl, fun i j hs hj => ?_⟩
    obtain ⟨s1, s2, s3, s4⟩ := hs
    have hl := hj.length
    have hil : i.length = q.mag.shape.length := by rw [s1, hl]
    have he : exchange n m i = j := by
      refine ext_getD (by rw [exchange_length, s1]) (fun k hk => ?_)
      rw [exchange_getD (by rw [hil]; exact ha.1) (by rw [hil]; exact hb.1)]
      by_cases h1 : k = n
      · subst h1; rw [if_pos rfl, s3]
      · by_cases h2 : k = m
        · subst h2; rw [if_neg h1, if_pos rfl, s2]
        · rw [if_neg h1, if_neg h2, s4 k h1 h2]
    refine ⟨?_, by simp only [he]⟩
    refine inB_of_getD (by rw [hil]; simp only [exchange_length]) (fun k hk => ?_)
    have hk : k < q.mag.shape.length := by simpa [exchange_length] using hk
    simp only
    rw [exchange_getD ha.1 hb.1]
    by_cases h1 : k = n
    · subst h1; rw [if_pos rfl, s2]; exact inB_getD hj hb.1
    · by_cases h2 : k = m
      · subst h2; rw [if_neg h1, if_pos rfl, s3]; exact inB_getD hj ha.1
      · rw [if_neg h1, if_neg h2, s4 k h1 h2]; exact inB_getD hj hk

/-- `q.repeat(k)`: the elements in row-major order, each `k` times. -/
theorem C148_repeat (q : Quantity K) (k : Nat) :
    ∃ r, q.getitem (Key.repeat k .all) = .ok r ∧ r.dim = q.dim ∧ r.mag.shape = [q.mag.size * k] ∧
      r.mag.toList = q.mag.toList.flatMap (List.replicate k) := by
  refine ⟨_, getitem_ok rfl, rfl, rfl, ?_⟩
  rw [toList_flat]
  apply List.ext_getElem?
  intro p
  rcases Nat.eq_zero_or_pos k with rfl | hk
  · simp [NDArr.toList, Function.comp_def]
  · have hp : p = p / k * k + p % k := by rw [Nat.mul_comm]; exact (Nat.div_add_mod p k).symm
    have hm := Nat.mod_lt p hk
    conv_rhs => rw [hp]
    rw [flatMap_getElem? (List.replicate k) (c := k) (fun a => List.length_replicate) _ _ _ hm]
    rw [List.getElem?_map]
    unfold NDArr.toList
    rw [List.getElem?_map]
    by_cases hlt : p < q.mag.shape.prod * k
    · have hd : p / k < q.mag.shape.prod := Nat.div_lt_of_lt_mul (by rwa [Nat.mul_comm] at hlt)
      rw [List.getElem?_range hlt, getElem?_indices hd]
      simp [hm]
    · have hd : ¬ p / k < q.mag.shape.prod := by
        intro h
        exact hlt ((Nat.div_lt_iff_lt_mul hk).mp h)
      rw [List.getElem?_eq_none (by simp; omega), List.getElem?_eq_none (by rw [indices_length]; omega)]
      rfl

/-- `q.repeat(k, axis)`: along the axis, every element `k` times. -/
theorem C148_repeat_axis (q : Quantity K) (k : Nat) (a : Int) :
    ((¬ ∃ n, NamesAxis q.mag.shape.length a n) → q.getitem (Key.repeat k (.one a)) = .error .valueError) ∧
    ∀ n, NamesAxis q.mag.shape.length a n → ∃ r, q.getitem (Key.repeat k (.one a)) = .ok r ∧ r.dim = q.dim ∧
      r.mag.shape = q.mag.shape.set n (q.mag.shape.getD n 0 * k) ∧
      ∀ j x, InB q.mag.shape j → x < k → r.mag.elem (j.set n (j.getD n 0 * k + x)) = q.mag.elem j := by
  constructor
  · intro h
    refine getitem_error ?_
    unfold Key.repeat
    rcases ha : normAxis q.mag.shape.length a with e | n
    · simp only [ha]; rw [(normAxis_error ha).1]
    · exact absurd ⟨n, normAxis_ok.mp ha⟩ h
  · intro n hn
    have hk : Key.repeat k (.one a) q.mag.shape = .ok (q.mag.shape.set n (q.mag.shape.getD n 0 * k),
        fun i => i.set n (i.getD n 0 / k)) := by
      unfold Key.repeat
      simp only [normAxis_ok.mpr hn]
    refine ⟨_, getitem_ok hk, rfl, rfl, fun j x hj hx => ?_⟩
    simp only
    congr 1
    rw [getD_set (by rw [hj.length]; exact hn.1), List.set_set]
    have : (j.getD n 0 * k + x) / k = j.getD n 0 := by
      rw [Nat.mul_comm, Nat.mul_add_div (by omega), Nat.div_eq_of_lt hx, Nat.add_zero]
    rw [this, set_getD]

/-- `q.take(p)`: the elements with the row-major numbers `p` (negative numbers count from the end); `IndexError` if
one does not exist. -/
theorem C148_take (q : Quantity K) (p : NDArr Int) :
    ((∃ i, InB p.shape i ∧ ∀ x, ¬ AxisItem q.mag.size (p.elem i) x) →
      q.getitem (Key.take p .all) = .error .indexError) ∧
    ((∀ i, InB p.shape i → ∃ x, AxisItem q.mag.size (p.elem i) x) →
      ∃ r, q.getitem (Key.take p .all) = .ok r ∧ r.dim = q.dim ∧ r.mag.shape = p.shape ∧
        ∀ i j, InB p.shape i → InB q.mag.shape j → AxisItem q.mag.size (p.elem i) (rowMajor q.mag.shape j) →
          r.mag.elem i = q.mag.elem j) := by
  constructor
  · rintro ⟨i, hi, hx⟩
    refine getitem_error ?_
    unfold Key.take
    simp only
    rw [if_neg]
    intro h
    obtain ⟨x, h⟩ := (all_positions.mp h) i hi
    exact hx x h
  · intro h
    have hk : Key.take p .all q.mag.shape = .ok (p.shape, fun i =>
        unflat q.mag.shape (wrapPos q.mag.shape.prod (p.elem i))) := by
      unfold Key.take
      simp only
      rw [if_pos ((all_positions (n := q.mag.shape.prod)).mpr h)]
    refine ⟨_, getitem_ok hk, rfl, rfl, fun i j hi hj hx => ?_⟩
    simp only
    rw [wrapPos_spec (show AxisItem q.mag.shape.prod _ _ from hx), unflat_rowMajor hj]

/-- `q.take(p, axis)`: along the axis, the elements at the positions `p`. -/
theorem C148_take_axis (q : Quantity K) (p : NDArr Int) (a : Int) :
    ((¬ ∃ n, NamesAxis q.mag.shape.length a n) → q.getitem (Key.take p (.one a)) = .error .valueError) ∧
    ∀ n, NamesAxis q.mag.shape.length a n →
      ((∃ i, InB p.shape i ∧ ∀ x, ¬ AxisItem (q.mag.shape.getD n 0) (p.elem i) x) →
        q.getitem (Key.take p (.one a)) = .error .indexError) ∧
      ((∀ i, InB p.shape i → ∃ x, AxisItem (q.mag.shape.getD n 0) (p.elem i) x) →
        ∃ r, q.getitem (Key.take p (.one a)) = .ok r ∧ r.dim = q.dim ∧
          r.mag.shape = q.mag.shape.take n ++ p.shape ++ q.mag.shape.drop (n + 1) ∧
          ∀ i₀ i i₁ x, i₀.length = n → InB p.shape i → AxisItem (q.mag.shape.getD n 0) (p.elem i) x →
            r.mag.elem (i₀ ++ i ++ i₁) = q.mag.elem (i₀ ++ x :: i₁)) := by
  constructor
  · intro h
    refine getitem_error ?_
    unfold Key.take
    rcases ha : normAxis q.mag.shape.length a with e | n
    · simp only [ha]; rw [(normAxis_error ha).1]
    · exact absurd ⟨n, normAxis_ok.mp ha⟩ h
  · intro n hn
    constructor
    · rintro ⟨i, hi, hx⟩
      refine getitem_error ?_
      unfold Key.take
      simp only [normAxis_ok.mpr hn]
      rw [if_neg]
      intro h
      obtain ⟨x, h⟩ := (all_positions.mp h) i hi
      exact hx x h
    · intro h
      have hk : Key.take p (.one a) q.mag.shape = .ok (q.mag.shape.take n ++ p.shape ++ q.mag.shape.drop (n + 1),
          fun i => i.take n ++ wrapPos (q.mag.shape.getD n 0) (p.elem ((i.drop n).take p.shape.length)) ::
            i.drop (n + p.shape.length)) := by
        unfold Key.take
        simp only [normAxis_ok.mpr hn]
        rw [if_pos (all_positions.mpr h)]
      refine ⟨_, getitem_ok hk, rfl, rfl, fun i₀ i i₁ x h0 hi hx => ?_⟩
      simp only
      have hil := hi.length
      have e1 : (i₀ ++ i ++ i₁).take n = i₀ := by
        rw [List.append_assoc, List.take_append_of_le_length (by omega), List.take_of_length_le (by omega)]
      have e2 : ((i₀ ++ i ++ i₁).drop n).take p.shape.length = i := by
        rw [List.append_assoc, ← h0, List.drop_left, ← hil, List.take_left]
      have e3 : (i₀ ++ i ++ i₁).drop (n + p.shape.length) = i₁ := by
        rw [show n + p.shape.length = (i₀ ++ i).length by simp [h0, hil], List.drop_left]
      rw [e1, e2, e3, wrapPos_spec hx]

/-- The condition of `compress` as positions. -/
private theorem true_item {c : List Bool} {N m x : Nat} (h : NthTrue c m x) (hx : x < N) :
    m < c.count true ∧ AxisItem N (((truePositions c).getD m 0 : Nat) : Int) x := by
  obtain ⟨h1, h2⟩ := filter_range_true c
  have := (h2 m x).mpr h
  refine ⟨?_, hx, .inl ?_⟩
  · rw [← h1]
    by_contra hc
    rw [List.getElem?_eq_none (by omega)] at this
    cases this
  · unfold truePositions
    rw [List.getD_eq_getElem?_getD, this]; rfl

private theorem true_all {c : List Bool} {N : Nat} :
    (∀ i, InB [(truePositions c).length] i → ∃ x, AxisItem N (((truePositions c).getD (i.headD 0) 0 : Nat) : Int) x) ↔
      ∀ x, c[x]? = some true → x < N := by
  obtain ⟨h1, h2⟩ := filter_range_true c
  constructor
  · intro h x hx
    have hm := (h2 _ x).mpr ⟨hx, rfl⟩
    have hlt : (c.take x).count true < (truePositions c).length := by
      by_contra hc
      unfold truePositions at hc
      rw [List.getElem?_eq_none (by omega)] at hm
      cases hm
    obtain ⟨y, hy, hz⟩ := h [(c.take x).count true] (.cons hlt .nil)
    simp only [List.headD_cons] at hz
    have e : (truePositions c).getD ((c.take x).count true) 0 = x := by
      unfold truePositions
      rw [List.getD_eq_getElem?_getD, hm]; rfl
    rw [e] at hz
    omega
  · intro h i hi
    cases hi with
    | @cons m _ _ _ hm _ =>
      simp only [List.headD_cons]
      have hg : (truePositions c)[m]? = some ((truePositions c)[m]'hm) := List.getElem?_eq_getElem hm
      have hx := (h2 m _).mp hg
      refine ⟨(truePositions c)[m]'hm, h _ hx.1, .inl ?_⟩
      rw [List.getD_eq_getElem?_getD, hg]; rfl

/-- `q.compress(c)`: the elements, in row-major order, at which the condition holds; `IndexError` if it holds beyond
the end. -/
theorem C148_compress (q : Quantity K) (c : List Bool) :
    ((∃ x, c[x]? = some true ∧ q.mag.size ≤ x) → q.getitem (Key.compress c .all) = .error .indexError) ∧
    ((∀ x, c[x]? = some true → x < q.mag.size) →
      ∃ r, q.getitem (Key.compress c .all) = .ok r ∧ r.dim = q.dim ∧ r.mag.shape = [c.count true] ∧
        ∀ m j, InB q.mag.shape j → NthTrue c m (rowMajor q.mag.shape j) → r.mag.elem [m] = q.mag.elem j) := by
  obtain ⟨t1, t2⟩ := C148_take q ⟨[(truePositions c).length], fun i => ((truePositions c).getD (i.headD 0) 0 : Nat)⟩
  constructor
  · rintro ⟨x, hx, hle⟩
    refine t1 ?_
    by_contra hc
    push Not at hc
    have := true_all.mp hc x hx
    omega
  · intro h
    obtain ⟨r, r1, r2, r3, r4⟩ := t2 (true_all.mpr h)
    refine ⟨r, r1, r2, ?_, fun m j hj hm => ?_⟩
    · rw [r3]; simp only; rw [← (filter_range_true c).1]; rfl
    · obtain ⟨i1, i2⟩ := true_item hm (rowMajor_lt hj)
      refine r4 [m] j (.cons ?_ .nil) hj i2
      rw [← (filter_range_true c).1] at i1
      exact i1

/-- `q.compress(c, axis)`: along the axis, the positions at which the condition holds. -/
theorem C148_compress_axis (q : Quantity K) (c : List Bool) (a : Int) (n : Nat)
    (hn : NamesAxis q.mag.shape.length a n) :
    ((∃ x, c[x]? = some true ∧ q.mag.shape.getD n 0 ≤ x) → q.getitem (Key.compress c (.one a)) = .error .indexError) ∧
    ((∀ x, c[x]? = some true → x < q.mag.shape.getD n 0) →
      ∃ r, q.getitem (Key.compress c (.one a)) = .ok r ∧ r.dim = q.dim ∧
        r.mag.shape = q.mag.shape.take n ++ c.count true :: q.mag.shape.drop (n + 1) ∧
        ∀ i₀ i₁ m x, i₀.length = n → NthTrue c m x → r.mag.elem (i₀ ++ m :: i₁) = q.mag.elem (i₀ ++ x :: i₁)) := by
  obtain ⟨t1, t2⟩ := (C148_take_axis q ⟨[(truePositions c).length],
    fun i => ((truePositions c).getD (i.headD 0) 0 : Nat)⟩ a).2 n hn
  constructor
  · rintro ⟨x, hx, hle⟩
    refine t1 ?_
    by_contra hc
    push Not at hc
    have := true_all.mp hc x hx
    omega
  · intro h
    obtain ⟨r, r1, r2, r3, r4⟩ := t2 (true_all.mpr h)
    refine ⟨r, r1, r2, ?_, fun i₀ i₁ m x h0 hm => ?_⟩
    · rw [r3]; simp only [List.append_assoc, List.singleton_append]; rw [← (filter_range_true c).1]; rfl
    · obtain ⟨i1, i2⟩ := true_item hm (h x hm.1)
      have := r4 i₀ [m] i₁ x h0 (.cons (by rw [← (filter_range_true c).1] at i1; exact i1) .nil) i2
      simpa using this

/-- `q.diagonal(offset, axis1, axis2)`: the last axis of the result runs along the diagonal of the plane of the two
axes on which the second coordinate exceeds the first by `offset`. -/
theorem C148_diagonal (q : Quantity K) (offset axis1 axis2 : Int) :
    ((¬ ∃ n1 n2, NamesAxis q.mag.shape.length axis1 n1 ∧ NamesAxis q.mag.shape.length axis2 n2 ∧ n1 ≠ n2) →
      q.getitem (Key.diagonal offset axis1 axis2) = .error .valueError) ∧
    ∀ n1 n2, NamesAxis q.mag.shape.length axis1 n1 → NamesAxis q.mag.shape.length axis2 n2 → n1 ≠ n2 →
      ∃ r len, q.getitem (Key.diagonal offset axis1 axis2) = .ok r ∧ r.dim = q.dim ∧
        r.mag.shape = without [n1, n2] q.mag.shape ++ [len] ∧
        (∀ k : Nat, k < len ↔ k + max (-offset) 0 < (q.mag.shape.getD n1 0 : Int) ∧
          k + max offset 0 < (q.mag.shape.getD n2 0 : Int)) ∧
        ∀ (k : Nat) j, InB q.mag.shape j → (j.getD n1 0 : Int) = k + max (-offset) 0 →
          (j.getD n2 0 : Int) = k + max offset 0 → r.mag.elem (without [n1, n2] j ++ [k]) = q.mag.elem j := by
  constructor
  · intro h
    refine getitem_error ?_
    unfold Key.diagonal
    by_cases hl : q.mag.shape.length < 2
    · rw [if_pos hl]
    · rw [if_neg hl]
      rcases h1 : normAxis q.mag.shape.length axis1 with e | n1
      · rfl
      · rcases h2 : normAxis q.mag.shape.length axis2 with e | n2
        · rfl
        · simp only
          by_cases he : n1 = n2
          · rw [if_pos he]
          · exact absurd ⟨n1, n2, normAxis_ok.mp h1, normAxis_ok.mp h2, he⟩ h
  · intro n1 n2 h1 h2 hne
    have l1 := h1.1
    have l2 := h2.1
    have hk : Key.diagonal offset axis1 axis2 q.mag.shape = .ok
        (pick false (two q.mag.shape.length n1 n2) q.mag.shape ++
          [diagLen (q.mag.shape.getD n1 0) (q.mag.shape.getD n2 0) offset], fun i =>
          merge (two q.mag.shape.length n1 n2) i.dropLast
            (if n1 < n2 then [i.getLastD 0 + (max (-offset) 0).toNat, i.getLastD 0 + (max offset 0).toNat]
              else [i.getLastD 0 + (max offset 0).toNat, i.getLastD 0 + (max (-offset) 0).toNat])) := by
      unfold Key.diagonal
      rw [if_neg (by omega), normAxis_ok.mpr h1, normAxis_ok.mpr h2]
      simp only
      rw [if_neg hne]
      rfl
    refine ⟨_, diagLen (q.mag.shape.getD n1 0) (q.mag.shape.getD n2 0) offset, getitem_ok hk, rfl, ?_, ?_, ?_⟩
    · simp only
      rw [two_flags, pick_flags rfl]
    · intro k; unfold diagLen; omega
    · intro k j hj e1 e2
      simp only
      congr 1
      have hjl := hj.length
      rw [List.dropLast_concat]
      have hlast : (without [n1, n2] j ++ [k]).getLastD 0 = k := by simp
      rw [hlast]
      have hw : without [n1, n2] j = pick false (two q.mag.shape.length n1 n2) j := by
        rw [two_flags, pick_flags hjl]
      have hc1 : k + (max (-offset) 0).toNat = j.getD n1 0 := by omega
      have hc2 : k + (max offset 0).toNat = j.getD n2 0 := by omega
      rw [hw, hc1, hc2]
      have hp : (if n1 < n2 then [j.getD n1 0, j.getD n2 0] else [j.getD n2 0, j.getD n1 0]) =
          pick true (two q.mag.shape.length n1 n2) j := by
        by_cases hlt : n1 < n2
        · rw [if_pos hlt, pick_two hjl hlt l2]
        · rw [if_neg hlt, two_comm, pick_two hjl (by omega) l1]
      rw [hp]
      exact merge_picks (by simp [two, hjl])

/-- Rearranging and selecting commutes with changing the units. -/
theorem C148_rescale [Field K] [RPow K] (w : World K) (q q' r : Quantity K) (k : Key) (u : Dim)
    (hr : q.getitem k = .ok r) (hq : q.rescale w u = .ok q') :
    ∃ r', r.rescale w u = .ok r' ∧ q'.getitem k = .ok r' := by
  obtain ⟨s, f, hk, rfl⟩ := getitem_inv hr
  unfold Quantity.rescale at hq ⊢
  simp only
  split at hq
  · rename_i he
    rw [if_pos he]
    cases hq
    exact ⟨_, rfl, hr⟩
  · rename_i he
    rw [if_neg he]
    rcases hc : w.convFactor q.dim u with e | cf
    · rw [hc] at hq
      cases e <;> cases hq
    · rw [hc] at hq
      cases hq
      exact ⟨_, rfl, getitem_ok hk⟩

end read

section views

/-- `reshape`, `flatten`, `ravel`, `transpose`, `swapaxes` and `diagonal` select elements that exist, none of them
twice: what the theorems about views (C28, C29, C30, C53, C70) ask of a subscript. -/
theorem C148_views (t : List (Option Nat)) (axes : Option (List Int)) (a b offset : Int) :
    (Key.reshape t).Basic ∧ Key.flatten.Basic ∧ (Key.transpose axes).Basic ∧ (Key.swapaxes a b).Basic ∧
      (Key.diagonal offset a b).Basic :=
  ⟨reshape_basic t, flatten_basic, transpose_basic axes, swapaxes_basic a b, diagonal_basic offset a b⟩

/-- `repeat`, `take` and `compress` select elements that exist. -/
theorem C148_copies (k : Nat) (p : NDArr Int) (c : List Bool) (ax : Axis) :
    (Key.repeat k ax).Sound ∧ (Key.take p ax).Sound ∧ (Key.compress c ax).Sound :=
  ⟨repeat_sound k ax, take_sound p ax, take_sound _ ax⟩

end views

section sort
variable {K : Type _} [Field K] [LinearOrder K] [IsStrictOrderedRing K] [RPow K] [LawfulRPow K] {w : World K}

/-- `q.sort(axis)` and `numpy.sort(q, axis)` with any correct comparison sort: every line along the axis has the
elements it had, each as often, in ascending order of physical value; the units are those of `q`. -/
theorem C148_sort (alg : SortAlg) (halg : CorrectSort K alg) (q : Quantity K) (ax : Int) :
    ((¬ ∃ n, NamesAxis q.mag.shape.length ax n) → q.sort alg ax = .error .valueError) ∧
    ∀ n, NamesAxis q.mag.shape.length ax n → ∃ r, q.sort alg ax = .ok r ∧ r.dim = q.dim ∧
      r.mag.shape = q.mag.shape ∧ ∀ i, InB q.mag.shape i →
        ((List.range (q.mag.shape.getD n 0)).map (fun j => r.mag.elem (i.set n j))).Perm
          ((List.range (q.mag.shape.getD n 0)).map (fun j => q.mag.elem (i.set n j))) ∧
        ∀ (v : Valuation w) j k, j < k → k < q.mag.shape.getD n 0 →
          (v.phys r).elem (i.set n j) ≤ (v.phys r).elem (i.set n k) := by
  constructor
  · intro h
    unfold Quantity.sort NDArr.sortAxis
    rcases ha : normAxis q.mag.shape.length ax with e | n
    · simp only [ha]; rw [(normAxis_error ha).1]
    · exact absurd ⟨n, normAxis_ok.mp ha⟩ h
  · intro n hn
    unfold Quantity.sort NDArr.sortAxis
    simp only [normAxis_ok.mpr hn]
    refine ⟨_, rfl, rfl, rfl, fun i hi => ?_⟩
    have hli : n < i.length := by rw [hi.length_eq]; exact hn.1
    have hset : ∀ j, (i.set n j).getD n 0 = j := fun j => getD_set hli
    simp only [List.set_set, hset]
    obtain ⟨s1, s2, s3⟩ := sorted_positions halg (n := q.mag.shape.getD n 0)
      (t := fun j k => decide (q.mag.elem (i.set n j) < q.mag.elem (i.set n k)))
      (f := fun j => q.mag.elem (i.set n j)) (fun _ _ _ _ => rfl)
    constructor
    · obtain ⟨h1, -⟩ := halg (q.mag.shape.getD n 0) (fun j k => decide (q.mag.elem (i.set n j) < q.mag.elem (i.set n k)))
        (fun j => q.mag.elem (i.set n j)) (fun _ _ _ _ => rfl)
      have e : ∀ l : List Nat, (List.range l.length).map (fun j => l.getD j 0) = l := by
        intro l
        apply List.ext_getElem?
        intro p
        rw [List.getElem?_map]
        by_cases hp : p < l.length
        · rw [List.getElem?_range hp, List.getElem?_eq_getElem hp]; simp [hp]
        · rw [List.getElem?_eq_none (by simp; omega), List.getElem?_eq_none (by omega)]; rfl
      have h2 := h1.map (fun j => q.mag.elem (i.set n j))
      rw [← e (alg _ _), List.map_map, h1.length_eq, List.length_range] at h2
      exact h2
    · intro v j k hjk hk
      have := s2 j k hjk hk
      refine mul_le_mul_of_nonneg_right ?_ (v.size_pos q.dim).le
      simp only [hset, List.set_set]
      exact this

end sort

/-- `[2, 1] m ± [10, 20] m`. -/
noncomputable def exUD : UQ ℝ :=
  ⟨⟨⟨[2], fun i => if i = [0] then 2 else 1⟩, dM⟩, ⟨⟨[2], fun i => if i = [0] then 10 else 20⟩, dM⟩⟩

theorem exUD_built : UQ.Built exWorld exUD := by
  refine UQ.Built.new (data := .array exUD.val.mag) (units := dM) (unc := some (.array exUD.unc.mag))
    (DimOK.nil _) (ex_dimOK _ (by simp)) ⟨fun h => ?_, fun h => ?_⟩ ?_ ?_ ?_
  · exact absurd h (by decide +kernel)
  · exact absurd h (by decide +kernel)
  · intro o ho; simp only [Option.some.injEq] at ho; subst ho; exact DimOK.nil _
  · intro o ho; simp only [Option.some.injEq] at ho; subst ho
    exact ⟨fun h => absurd h (by decide +kernel), fun h => absurd h (by decide +kernel)⟩
  · rw [new_arrays]; rfl

/-- `x.sort()` on an uncertain quantity leaves the uncertainties where they were: with any correct comparison sort
there is an uncertain quantity in whose sorted state a value comes with an uncertainty it did not have. -/
theorem C148_uncertain_sort_false (alg : SortAlg) (halg : CorrectSort ℝ alg) :
    ∃ a r : UQ ℝ, UQ.Built exWorld a ∧ a.sort alg 0 = .ok r ∧ ∃ x s, r.Has x s ∧ ¬ a.Has x s := by
  refine ⟨exUD, _, exUD_built, rfl, 1, 10, ⟨[0], .cons (by decide) .nil, ?_, rfl⟩, ?_⟩
  · obtain ⟨s1, s2, s3⟩ := sorted_positions halg (n := 2)
      (t := fun j k => decide ((if [j] = [0] then (2 : ℝ) else 1) < if [k] = [0] then 2 else 1))
      (f := fun j => if [j] = [0] then 2 else 1) (fun _ _ _ _ => rfl)
    have h := s2 0 1 (by omega) (by omega)
    have h0 := s1 0 (by omega)
    have h1 := s1 1 (by omega)
    have hne := s3 0 1 (by omega) (by omega)
    change (if [(alg 2 fun j k => decide ((if [j] = [0] then (2 : ℝ) else 1) < if [k] = [0] then 2 else 1)).getD 0 0] = [0]
      then (2 : ℝ) else 1) = 1
    revert h h0 h1 hne
    generalize (alg 2 fun j k => decide ((if [j] = [0] then (2 : ℝ) else 1) < if [k] = [0] then 2 else 1)).getD 0 0 = x
    generalize (alg 2 fun j k => decide ((if [j] = [0] then (2 : ℝ) else 1) < if [k] = [0] then 2 else 1)).getD 1 0 = y
    intro h h0 h1 hne
    by_cases hx : x = 0
    · have hy : y = 1 := by
        have : x ≠ y := fun e => absurd (hne e) (by omega)
        omega
      subst hx hy
      norm_num at h
    · rw [if_neg (by simpa using hx)]
  · rintro ⟨i, hi, e1, e2⟩
    change (if i = [0] then (2 : ℝ) else 1) = 1 at e1
    change (if i = [0] then (10 : ℝ) else 20) = 10 at e2
    by_cases h : i = [0]
    · rw [if_pos h] at e1; norm_num at e1
    · rw [if_neg h] at e2; norm_num at e2

/-! Concrete cases -/

/-- A matrix of two rows and three columns has the elements 0, …, 5 in row-major order. -/
noncomputable def exRows : Quantity ℝ := ⟨⟨[2, 3], fun i => rowMajor [2, 3] i⟩, dM⟩

example : (∃ r, exRows.getitem (Key.reshape [some 3, none]) = .ok r ∧ r.mag.shape = [3, 2] ∧ r.mag.elem [2, 1] = 5) ∧
    exRows.getitem (Key.reshape [some 4, none]) = .error .valueError ∧
    (∃ r, exRows.getitem (Key.transpose (some [-1, 0])) = .ok r ∧ r.mag.shape = [3, 2] ∧ r.mag.elem [2, 0] = 2) ∧
    (∃ r, exRows.getitem (Key.repeat 2 (.one 0)) = .ok r ∧ r.mag.shape = [4, 3] ∧ r.mag.elem [1, 2] = 2) ∧
    (∃ r, exRows.getitem (Key.take ⟨[2], fun i => -1 - (i.headD 0 : Int)⟩ .all) = .ok r ∧ r.mag.shape = [2] ∧
      r.mag.elem [1] = 4) ∧
    (∃ r, exRows.getitem (Key.compress [true, false, true] (.one 1)) = .ok r ∧ r.mag.shape = [2, 2] ∧
      r.mag.elem [1, 1] = 5) ∧
    (∃ r, exRows.getitem (Key.diagonal 1 0 1) = .ok r ∧ r.mag.shape = [2] ∧ r.mag.elem [1] = 5) := by
  refine ⟨⟨_, rfl, rfl, ?_⟩, rfl, ⟨_, rfl, rfl, ?_⟩, ⟨_, rfl, rfl, ?_⟩, ⟨_, rfl, rfl, ?_⟩, ⟨_, rfl, rfl, ?_⟩,
    ⟨_, rfl, rfl, ?_⟩⟩ <;> first | exact Nat.cast_ofNat | rfl

example : ∃ r, exRows.sort exSort 1 = .ok r ∧ r.dim = dM :=
  let ⟨r, h1, h2, _⟩ := (C148_sort (w := exWorld) exSort exSort_correct exRows 1).2 1 ⟨by decide, .inl rfl⟩
  ⟨r, h1, h2⟩

end PQ
