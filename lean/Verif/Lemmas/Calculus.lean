import Verif.Spec.Calculus
import Verif.Model.NumpyLib
import Verif.Lemmas.Along2
import Verif.Lemmas.NumpyLib
import Mathlib.Tactic.Linarith
import Verif.Lemmas.Broadcast
import Verif.Lemmas.Uncertain
import Mathlib.Algebra.Group.ForwardDiff
import Mathlib.Tactic.FieldSimp
import Mathlib.Tactic.LinearCombination

/-! # The library functions compute the textbook formulas -/

namespace PQ.NDArr

variable {K : Type _}

theorem inB_set {s i : List Nat} {n m x : Nat} (h : InB s i) (hx : x < m) : InB (s.set n m) (i.set n x) := by
  induction h generalizing n with
  | nil => exact .nil
  | cons h1 h2 ih =>
    cases n with
    | zero => exact .cons hx h2
    | succ n => exact .cons h1 ih

theorem inB_getD {s i : List Nat} {n : Nat} (h : InB s i) (hn : n < s.length) : i.getD n 0 < s.getD n 0 := by
  induction h generalizing n with
  | nil => simp at hn
  | cons h1 h2 ih =>
    cases n with
    | zero => exact h1
    | succ n => exact ih (by simpa using hn)

theorem getD_set {i : List Nat} {n x : Nat} (h : n < i.length) : (i.set n x).getD n 0 = x := by
  simp [List.getD_eq_getElem?_getD, h]

theorem set_getD {i : List Nat} {n : Nat} : i.set n (i.getD n 0) = i := by
  induction i generalizing n with
  | nil => rfl
  | cons a i ih =>
    cases n with
    | zero => rfl
    | succ n => simp only [List.set_cons_succ, List.getD_cons_succ, ih]

/-! ## Differences -/

theorem diff_once [Sub K] {a b : NDArr K} {n : Nat} (hn : n < a.shape.length)
    (h : bin (· - ·) (tailAx n a) (initAx n a) = .ok b) :
    b.shape = shortened n 1 a.shape ∧ ∀ i, InB b.shape i → b.elem i = a.elem (moved n 1 i) - a.elem i := by
  obtain ⟨h1, h2⟩ := bin_elim_same h rfl
  exact ⟨h1, fun i hi => h2 i (h1 ▸ hi)⟩

theorem diffLoop_spec [CommRing K] (n m : Nat) (a : NDArr K) (hn : n < a.shape.length) :
    ∃ r, diffLoop n m a = .ok r ∧ r.shape = shortened n m a.shape ∧
      ∀ i, InB r.shape i → r.elem i = ∑ j ∈ Finset.range (m + 1),
        (-1) ^ (m - j) * (m.choose j : K) * a.elem (moved n j i) := by
  induction m generalizing a with
  | zero =>
    refine ⟨a, rfl, ?_, fun i _ => ?_⟩
    · unfold shortened; rw [Nat.sub_zero, set_getD]
    · simp only [zero_add, Finset.range_one, Finset.sum_singleton, Nat.sub_self, pow_zero, Nat.choose_self,
        Nat.cast_one, mul_one, one_mul, moved, Nat.add_zero, set_getD]
  | succ m ih =>
    obtain ⟨b, hb⟩ := bin_same_shape_ok (fun x y : K => x - y) (a := tailAx n a) (b := initAx n a) rfl
    obtain ⟨b1, b2⟩ := diff_once hn hb
    have hnb : n < b.shape.length := by rw [b1]; simpa [shortened] using hn
    obtain ⟨r, r1, r2, r3⟩ := ih b hnb
    have hsh : r.shape = shortened n (m + 1) a.shape := by
      rw [r2, b1]
      unfold shortened
      rw [List.set_set, getD_set hn, Nat.sub_sub, Nat.add_comm 1 m]
    refine ⟨r, ?_, hsh, fun i hi => ?_⟩
    · simp only [diffLoop, hb, r1]
    · rw [r3 i hi]
      have hli : n < i.length := by rw [hi.length_eq, r2]; simpa [shortened] using hnb
      have hlt : i.getD n 0 < a.shape.getD n 0 - (m + 1) := by
        have := inB_getD hi (by rw [r2]; simpa [shortened] using hnb)
        rw [hsh] at this
        unfold shortened at this
        rwa [getD_set hn] at this
      have key : ∀ j ∈ Finset.range (m + 1), b.elem (moved n j i) =
          a.elem (moved n (j + 1) i) - a.elem (moved n j i) := by
        intro j hj
        have hj' : j < m + 1 := Finset.mem_range.mp hj
        have hib : InB b.shape (moved n j i) := by
          have := inB_set (n := n) (m := b.shape.getD n 0) (x := i.getD n 0 + j) hi (by
            rw [b1]; unfold shortened; rw [getD_set hn]; omega)
          rw [r2] at this
          unfold shortened at this
          rwa [List.set_set, set_getD] at this
        rw [b2 _ hib]
        have : moved n 1 (moved n j i) = moved n (j + 1) i := by
          unfold moved
          rw [List.set_set, getD_set hli, Nat.add_assoc]
        rw [this]
      rw [Finset.sum_congr rfl (fun j hj => by rw [key j hj])]
      have f1 := fwdDiff_iter_eq_sum_shift (1 : ℕ) (fwdDiff 1 (fun y : ℕ => a.elem (moved n y i))) m 0
      have f2 := fwdDiff_iter_eq_sum_shift (1 : ℕ) (fun y : ℕ => a.elem (moved n y i)) (m + 1) 0
      rw [Function.iterate_succ_apply, f1] at f2
      simp only [fwdDiff, zero_add, smul_eq_mul, mul_one, zsmul_eq_mul, Int.cast_mul, Int.cast_pow, Int.cast_neg,
        Int.cast_one, Int.cast_natCast] at f2
      exact f2

theorem diff_spec [CommRing K] (m : Nat) (ax : Int) (n : Nat) (a : NDArr K) (hn : NamesAxis a.shape.length ax n) :
    ∃ r, diff m ax a = .ok r ∧ r.shape = shortened n m a.shape ∧
      ∀ i, InB r.shape i → r.elem i = ∑ j ∈ Finset.range (m + 1),
        (-1) ^ (m - j) * (m.choose j : K) * a.elem (moved n j i) := by
  obtain ⟨r, r1, r2⟩ := diffLoop_spec n m a hn.1
  refine ⟨r, ?_, r2⟩
  unfold diff
  rcases m with _ | m
  · rw [if_pos (by rfl)]; exact r1
  · rw [if_neg (by push_cast; omega), if_neg (by push_cast; omega), if_neg (by
      intro h; rw [h] at hn; exact absurd hn.1 (by simp)), normAxis_ok.mpr hn]
    simpa using r1

/-! ## Differences of the flattened array -/

theorem toList_at (a : NDArr K) {i : List Nat} (hi : InB a.shape i) :
    a.toList[rowMajor a.shape i]? = some (a.elem i) := by
  unfold toList
  rw [List.getElem?_map, indices_rowMajor hi]; rfl

theorem ediff1d_spec [Field K] (a : NDArr K) (e b : Option (NDArr K)) :
    let nb := (b.map size).getD 0
    let ne := (e.map size).getD 0
    let r := ediff1d a e b
    r.shape = [nb + (a.size - 1) + ne] ∧
    (∀ c i, b = some c → InB c.shape i → r.elem [rowMajor c.shape i] = c.elem i) ∧
    (∀ i j, InB a.shape i → InB a.shape j → rowMajor a.shape j = rowMajor a.shape i + 1 →
      r.elem [nb + rowMajor a.shape i] = a.elem j - a.elem i) ∧
    (∀ c i, e = some c → InB c.shape i →
      r.elem [nb + (a.size - 1) + rowMajor c.shape i] = c.elem i) := by
  have hb : (b.elim [] toList).length = (b.map size).getD 0 := by
    cases b <;> simp [toList_length]
  have he : (e.elim [] toList).length = (e.map size).getD 0 := by
    cases e <;> simp [toList_length]
  have hd : (List.zipWith (· - ·) a.toList.tail a.toList).length = a.size - 1 := by
    simp [toList_length]
  refine ⟨?_, ?_, ?_, ?_⟩
  · simp only [ediff1d, ofList, List.length_append, hb, he, hd]
  · rintro c i rfl hi
    have hlt := rowMajor_lt hi
    have := toList_at c hi
    simp only [ediff1d, ofList, List.headD_cons, Option.elim_some, List.getD_eq_getElem?_getD, List.append_assoc]
    rw [List.getElem?_append_left (by rw [toList_length]; exact hlt), this]; rfl
  · intro i j hi hj hij
    have h1 := toList_at a hi
    have h2 := toList_at a hj
    have hlt := rowMajor_lt hj
    simp only [ediff1d, ofList, List.headD_cons, List.getD_eq_getElem?_getD, List.append_assoc]
    rw [List.getElem?_append_right (by rw [hb]; omega), hb, Nat.add_sub_cancel_left,
      List.getElem?_append_left (by rw [hd]; unfold size; omega), List.getElem?_zipWith, List.getElem?_tail, h1,
      ← hij, h2]; rfl
  · rintro c i rfl hi
    have := toList_at c hi
    simp only [ediff1d, ofList, List.headD_cons, Option.elim_some, List.getD_eq_getElem?_getD]
    rw [List.getElem?_append_right (by rw [List.length_append, hb, hd]; omega), List.length_append, hb, hd,
      Nat.add_sub_cancel_left, this]; rfl

theorem ofList_elem [Zero K] (l : List K) (k : Nat) : (ofList l).elem [k] = l.getD k 0 := rfl

/-! ## The cross product -/

theorem cross3_eq [CommRing K] (x y : Nat → K) (c : Fin 3) :
    cross3 x y c = crossProduct (fun c : Fin 3 => x c) (fun c : Fin 3 => y c) c := by
  rw [cross_apply]
  fin_cases c <;> rfl

theorem comps_vector [Zero K] (a : NDArr K) (i : List Nat) : (fun c : Fin 3 => (comps a).elem i c) = vector a i := rfl

theorem cross_spec [CommRing K] (a b : NDArr K) :
    let ok := (a.shape.getLastD 0 = 2 ∨ a.shape.getLastD 0 = 3) ∧ (b.shape.getLastD 0 = 2 ∨ b.shape.getLastD 0 = 3)
    (Returns (cross a b) ↔ ok ∧ Broadcastable a.shape.dropLast b.shape.dropLast) ∧
    (∀ e, cross a b = .error e → e = .valueError) ∧
    (∀ r, cross a b = .ok r → ∃ s, BroadcastShape a.shape.dropLast b.shape.dropLast s ∧
      (a.shape.getLastD 0 = 2 ∧ b.shape.getLastD 0 = 2 → r.shape = s) ∧
      (¬ (a.shape.getLastD 0 = 2 ∧ b.shape.getLastD 0 = 2) → r.shape = s ++ [3]) ∧
      ∀ i, InB s i → ∃ j k, Under a.shape.dropLast i j ∧ Under b.shape.dropLast i k ∧
        (a.shape.getLastD 0 = 2 ∧ b.shape.getLastD 0 = 2 →
          r.elem i = crossProduct (vector a j) (vector b k) 2) ∧
        (¬ (a.shape.getLastD 0 = 2 ∧ b.shape.getLastD 0 = 2) →
          ∀ c : Fin 3, r.elem (i ++ [(c : Nat)]) = crossProduct (vector a j) (vector b k) c)) := by
  intro ok
  by_cases hok : ok
  · have hb := bin_ok_iff (f := cross3) (a := comps a) (b := comps b)
    have hsome : (bshape a.shape.dropLast b.shape.dropLast).isSome ↔ _ := bshape_isSome_iff _ _
    unfold cross
    simp only
    rw [if_pos hok]
    rcases hc : bin cross3 (comps a) (comps b) with e | c
    · have hnb : ¬ Broadcastable a.shape.dropLast b.shape.dropLast := by
        intro h
        obtain ⟨r, hr⟩ := hb.mpr (hsome.mpr h)
        rw [hc] at hr; cases hr
      refine ⟨⟨fun h => absurd h (not_returns_error _), fun h => absurd h.2 hnb⟩, ?_, fun r hr => by cases hr⟩
      rintro e' he; cases he; exact bin_error hc
    · have hyes : Broadcastable a.shape.dropLast b.shape.dropLast := hsome.mp (hb.mp ⟨c, hc⟩)
      have B := bin_broadcast hc
      refine ⟨?_, ?_, ?_⟩
      · refine ⟨fun _ => ⟨hok, hyes⟩, fun _ => ?_⟩
        by_cases h2 : a.shape.getLastD 0 = 2 ∧ b.shape.getLastD 0 = 2
        · simp only [if_pos h2]; exact ⟨_, rfl⟩
        · simp only [if_neg h2]; exact ⟨_, rfl⟩
      · intro e he
        by_cases h2 : a.shape.getLastD 0 = 2 ∧ b.shape.getLastD 0 = 2
        · simp only [if_pos h2] at he; cases he
        · simp only [if_neg h2] at he; cases he
      · intro r hr
        refine ⟨c.shape, B.shape, ?_, ?_, fun i hi => ?_⟩
        · intro h22
          simp only [if_pos h22] at hr
          cases hr; rfl
        · intro h22
          simp only [if_neg h22] at hr
          cases hr; rfl
        obtain ⟨j, k, h1, h2, h3⟩ := B.elem i hi
        refine ⟨j, k, h1, h2, ?_, ?_⟩
        · intro h22
          simp only [if_pos h22] at hr
          cases hr
          simp only [map, h3]
          exact cross3_eq _ _ 2
        · intro h22
          simp only [if_neg h22] at hr
          cases hr
          intro x
          simp only [List.dropLast_concat, List.getLastD_concat, h3]
          exact cross3_eq _ _ x
  · unfold cross
    simp only
    rw [if_neg hok]
    refine ⟨⟨fun h => absurd h (not_returns_error _), fun h => absurd h.1 hok⟩, ?_, fun r hr => by cases hr⟩
    rintro e he; cases he; rfl

/-! ## The trapezoidal rule -/

theorem range_map_sum [AddCommMonoid K] (f : Nat → K) (n : Nat) :
    ((List.range n).map f).sum = ∑ j ∈ Finset.range n, f j := by
  rw [Finset.sum_range]
  rw [← List.sum_ofFn]
  congr 1
  apply List.ext_getElem <;> simp

theorem bshape_ones {s t : List Nat} (h : List.Forall₂ (fun a b => a = 1 ∨ a = b) s t) : bshape s t = some t := by
  have key : ∀ {s t : List Nat}, List.Forall₂ (fun a b => a = 1 ∨ a = b) s t → bshapeRev s t = some t := by
    intro s t h
    induction h with
    | nil => rfl
    | cons h1 h2 ih =>
      rw [bshapeRev, ih]
      unfold baxis
      rename_i a b _ _
      by_cases hab : a = b
      · rw [if_pos hab, hab]
      · rw [if_neg hab, if_pos (h1.resolve_right hab)]
  unfold bshape
  rw [key (List.forall₂_reverse_iff.mpr h)]; simp

theorem ones_forall {s : List Nat} {n m : Nat} (hm : s.getD n 0 = m) :
    List.Forall₂ (fun a b => a = 1 ∨ a = b) ((List.replicate s.length 1).set n m) s := by
  induction s generalizing n with
  | nil => exact .nil
  | cons a s ih =>
    cases n with
    | zero =>
      refine .cons (.inr hm.symm) ?_
      clear ih hm
      induction s with
      | nil => exact .nil
      | cons b s ih => exact .cons (.inl rfl) ih
    | succ n => exact .cons (.inl rfl) (ih hm)

theorem bidx_getD {s i : List Nat} {n : Nat} (hl : i.length = s.length) (h1 : i.getD n 0 < s.getD n 0) :
    (bidx s i).getD n 0 = i.getD n 0 := by
  unfold bidx
  rw [hl, Nat.sub_self, List.drop_zero]
  simp only [List.getD_eq_getElem?_getD, List.getElem?_zipWith] at h1 ⊢
  rcases hs : s[n]? with _ | a
  · rw [hs] at h1; simp at h1
  · rcases hi : i[n]? with _ | b
    · rfl
    · rw [hs, hi] at h1
      simp only [Option.getD_some] at h1 ⊢
      split <;> omega

theorem set_insertIdx {i : List Nat} {n x y : Nat} (h : n ≤ i.length) :
    (i.insertIdx n x).set n y = i.insertIdx n y := by
  induction i generalizing n with
  | nil =>
    have : n = 0 := by simpa using h
    subst this; rfl
  | cons a i ih =>
    cases n with
    | zero => rfl
    | succ n => simp only [List.insertIdx_succ_cons, List.set_cons_succ, ih (by simpa using h)]

theorem getD_insertIdx {i : List Nat} {n x : Nat} (h : n ≤ i.length) : (i.insertIdx n x).getD n 0 = x := by
  induction i generalizing n with
  | nil =>
    have : n = 0 := by simpa using h
    subst this; rfl
  | cons a i ih =>
    cases n with
    | zero => rfl
    | succ n => simp only [List.insertIdx_succ_cons, List.getD_cons_succ, ih (by simpa using h)]

theorem inB_insertIdx {s i : List Nat} {n x : Nat} (hn : n < s.length) (h : InB (s.eraseIdx n) i)
    (hx : x < s.getD n 0) : InB s (i.insertIdx n x) := by
  induction s generalizing i n with
  | nil => simp at hn
  | cons a s ih =>
    cases n with
    | zero => exact .cons hx h
    | succ n =>
      cases h with
      | cons h1 h2 => exact .cons h1 (ih (by simpa using hn) h2 hx)

theorem eraseIdx_set (s : List Nat) (n m : Nat) : (s.set n m).eraseIdx n = s.eraseIdx n := by
  induction s generalizing n with
  | nil => rfl
  | cons a s ih =>
    cases n with
    | zero => rfl
    | succ n => simp only [List.set_cons_succ, List.eraseIdx_cons_succ, ih]

/-- The trapezoidal rule with widths `d` that are constant across the other axes. -/
theorem trapz_core [Field K] {y d : NDArr K} {ax : Int} {n : Nat} (hn : NamesAxis y.shape.length ax n)
    (g : Nat → K) (hd : ∀ i, InB (shortened n 1 y.shape) i → d.elem (bidx d.shape i) = g (i.getD n 0))
    (hbs : bshape d.shape (shortened n 1 y.shape) = some (shortened n 1 y.shape)) :
    ∃ r, (match listAxis y.shape.length ax with
      | .error e => .error e
      | .ok k =>
        match bin (· + ·) (tailAx k y) (initAx k y) with
        | .error e => .error e
        | .ok s =>
          match bin (· * ·) d s with
          | .error e => .error e
          | .ok p => (p.map (fun t => t / 2)).reduce List.sum (.one ax) : Py (NDArr K)) = .ok r ∧
      r.shape = y.shape.eraseIdx n ∧
      ∀ i, InB r.shape i → r.elem i = ∑ j ∈ Finset.range (y.shape.getD n 0 - 1),
        g j * ((y.elem (i.insertIdx n j) + y.elem (i.insertIdx n (j + 1))) / 2) := by
  have hla : listAxis y.shape.length ax = .ok n := by
    unfold listAxis; rw [normAxis_ok.mpr hn]
  rw [hla]
  simp only
  obtain ⟨s, hs⟩ := bin_same_shape_ok (fun x z : K => x + z) (a := tailAx n y) (b := initAx n y) rfl
  obtain ⟨s1, s2⟩ := bin_elim_same hs rfl
  have s1' : s.shape = shortened n 1 y.shape := s1
  rw [hs]
  simp only
  have hbs' : bshape d.shape s.shape = some s.shape := by rw [s1']; exact hbs
  have hp := bin_intro (fun x z : K => x * z) hbs'
  rw [hp]
  simp only [reduce, axisMask]
  have hlen : s.shape.length = y.shape.length := by rw [s1']; simp [shortened]
  simp only [map]
  rw [hlen, normAxis_ok.mpr hn]
  simp only
  rw [← hlen]
  have hns : n < s.shape.length := by rw [hlen]; exact hn.1
  have R := reduceMask_one (List.sum : List K → K)
    (a := ⟨s.shape, fun i => d.elem (bidx d.shape i) * s.elem (bidx s.shape i) / 2⟩) hns
  have hsn : s.shape[n] = y.shape.getD n 0 - 1 := by
    have : s.shape.getD n 0 = y.shape.getD n 0 - 1 := by rw [s1']; exact getD_set hn.1
    rw [List.getD_eq_getElem?_getD, List.getElem?_eq_getElem hns] at this
    exact this
  have her : s.shape.eraseIdx n = y.shape.eraseIdx n := by rw [s1']; exact eraseIdx_set _ _ _
  refine ⟨_, rfl, R.1.trans her, fun i hi => ?_⟩
  rw [R.1] at hi
  rw [R.2 i hi]
  simp only [hsn]
  rw [range_map_sum]
  refine Finset.sum_congr rfl fun j hj => ?_
  have hj' : j < s.shape.getD n 0 := by
    rw [s1']; unfold shortened; rw [getD_set hn.1]; exact Finset.mem_range.mp hj
  have hli : n ≤ i.length := by
    rw [hi.length_eq, List.length_eraseIdx_of_lt hns]; omega
  have hib := inB_insertIdx hns hi hj'
  rw [hd _ (s1' ▸ hib), bidx_self hib, s2 _ (by rw [← s1]; exact hib), getD_insertIdx hli]
  simp only [tailAx, initAx, set_insertIdx hli, getD_insertIdx hli]
  ring

theorem trapz_points [Field K] (y x dx : NDArr K) (ax : Int) (n : Nat) (hn : NamesAxis y.shape.length ax n)
    (hx : x.shape = [y.shape.getD n 0]) :
    ∃ r, trapz y (some x) dx ax = .ok r ∧ r.shape = y.shape.eraseIdx n ∧
      ∀ i, InB r.shape i → r.elem i =
        trapezoids (fun j => x.elem [j]) (fun j => y.elem (i.insertIdx n j)) (y.shape.getD n 0 - 1) := by
  obtain ⟨d, d1, d2, d3⟩ := diff_spec 1 (-1) 0 x (by rw [hx]; exact ⟨by simp, by simp⟩)
  have d2' : d.shape = [y.shape.getD n 0 - 1] := by rw [d2, hx]; rfl
  unfold trapz trapzWidths widths
  simp only [hx, List.length_singleton, if_true]
  rw [show diff 1 (-1) x = .ok d from d1]
  have hla : listAxis y.shape.length ax = .ok n := by
    unfold listAxis; rw [normAxis_ok.mpr hn]
  simp only [hla]
  have hsh : (List.replicate y.shape.length 1).set n (d.shape.headD 0) =
      (List.replicate (shortened n 1 y.shape).length 1).set n ((shortened n 1 y.shape).getD n 0) := by
    rw [d2']
    unfold shortened
    rw [getD_set hn.1, List.length_set]; rfl
  have C := trapz_core (y := y) (d := ⟨(List.replicate y.shape.length 1).set n (d.shape.headD 0),
      fun i => d.elem [i.getD n 0]⟩) hn (fun j => x.elem [j + 1] - x.elem [j]) ?_ ?_
  · rw [hla] at C
    exact C
  · intro i hi
    have hlt : i.getD n 0 < y.shape.getD n 0 - 1 := by
      have := inB_getD hi (by simpa [shortened] using hn.1)
      unfold shortened at this; rwa [getD_set hn.1] at this
    simp only
    rw [bidx_getD]
    · have := d3 [i.getD n 0] (by rw [d2']; exact .cons hlt .nil)
      rw [this]
      simp [Finset.sum_range_succ, moved]
      ring
    · rw [hi.length_eq]; simp [shortened]
    · rw [hsh, getD_set (by simpa [shortened] using hn.1)]
      unfold shortened; rw [getD_set hn.1]; exact hlt
  · simp only
    rw [hsh]
    exact bshape_ones (ones_forall rfl)

theorem trapz_uniform [Field K] (y dx : NDArr K) (ax : Int) (n : Nat) (hn : NamesAxis y.shape.length ax n)
    (hx : dx.shape = []) :
    ∃ r, trapz y none dx ax = .ok r ∧ r.shape = y.shape.eraseIdx n ∧
      ∀ i, InB r.shape i → r.elem i =
        trapezoids (fun j => (j : K) * dx.elem []) (fun j => y.elem (i.insertIdx n j)) (y.shape.getD n 0 - 1) := by
  unfold trapz trapzWidths
  simp only
  obtain ⟨r, r1, r2, r3⟩ := trapz_core (y := y) (d := dx) hn (fun _ => dx.elem []) (by
      intro i _; rw [hx]; rfl) (by rw [hx]; simp [bshape, bshapeRev])
  refine ⟨r, r1, r2, fun i hi => ?_⟩
  rw [r3 i hi]
  unfold trapezoids
  refine Finset.sum_congr rfl fun j _ => ?_
  push_cast
  ring

/-! ## Slopes -/

theorem gradEl_slope [Field K] [CharZero K] (x f : Nat → K) (len j : Nat) (s : Spacing K) (hj : j < len) (hl : 2 ≤ len)
    (hs : match s with
      | .uniform h => ∀ t, t + 1 < len → x (t + 1) - x t = h
      | .widths d => ∀ t, t + 1 < len → x (t + 1) - x t = d t)
    (hx : ∀ t u, t < len → u < len → t ≠ u → x t ≠ x u) :
    SlopeAt x f len j (gradEl f len j s) := by
  have hgap : ∀ t, t + 1 < len → x (t + 1) - x t ≠ 0 := fun t ht =>
    sub_ne_zero.mpr (hx _ _ ht (by omega) (by omega))
  cases s with
  | uniform h =>
    simp only at hs
    refine ⟨?_, ?_, ?_⟩
    · rintro rfl
      have h0 := hgap 0 (by omega)
      rw [hs 0 (by omega)] at h0
      rw [gradEl, if_pos rfl, hs 0 (by omega), div_mul_cancel₀ _ h0]
    · intro h0 h1
      obtain ⟨t, rfl⟩ : ∃ t, j = t + 1 := ⟨j - 1, by omega⟩
      subst h1
      have h2 := hgap t (by omega)
      rw [hs t (by omega)] at h2
      simp only [gradEl, if_neg h0, if_true, Nat.add_sub_cancel, hs t (by omega),
        show t + 1 + 1 - 2 = t by omega, div_mul_cancel₀ _ h2]
    · intro h0 h1 a b c hp
      obtain ⟨t, rfl⟩ : ∃ t, j = t + 1 := ⟨j - 1, by omega⟩
      have p0 := hp t (by simp)
      have p2 := hp (t + 1 + 1) (by simp)
      have g1 := hs t (by omega)
      have g2 := hs (t + 1) (by omega)
      have hne := hgap t (by omega)
      rw [g1] at hne
      rw [gradEl, if_neg h0, if_neg (by omega), ← p2, Nat.add_sub_cancel, ← p0, div_eq_iff (by
        exact mul_ne_zero two_ne_zero hne)]
      have e0 : x t = x (t + 1) - h := by rw [← g1]; ring
      have e2 : x (t + 1 + 1) = x (t + 1) + h := by rw [← g2]; ring
      rw [e0, e2]; ring
  | widths d =>
    simp only at hs
    refine ⟨?_, ?_, ?_⟩
    · rintro rfl
      have h0 := hgap 0 (by omega)
      rw [hs 0 (by omega)] at h0
      rw [gradEl, if_pos rfl, hs 0 (by omega), div_mul_cancel₀ _ h0]
    · intro h0 h1
      obtain ⟨t, rfl⟩ : ∃ t, j = t + 1 := ⟨j - 1, by omega⟩
      subst h1
      have h2 := hgap t (by omega)
      rw [hs t (by omega)] at h2
      simp only [gradEl, if_neg h0, if_true, Nat.add_sub_cancel, hs t (by omega),
        show t + 1 + 1 - 2 = t by omega, div_mul_cancel₀ _ h2]
    · intro h0 h1 a b c hp
      obtain ⟨t, rfl⟩ : ∃ t, j = t + 1 := ⟨j - 1, by omega⟩
      have p0 := hp t (by simp)
      have p1 := hp (t + 1) (by simp)
      have p2 := hp (t + 1 + 1) (by simp)
      have g1 := hs t (by omega)
      have g2 := hs (t + 1) (by omega)
      have n1 := hgap t (by omega)
      have n2 := hgap (t + 1) (by omega)
      have n3 : x (t + 1 + 1) - x t ≠ 0 := sub_ne_zero.mpr (hx _ _ (by omega) (by omega) (by omega))
      rw [g1] at n1
      rw [g2] at n2
      have e0 : x t = x (t + 1) - d t := by rw [← g1]; ring
      have e2 : x (t + 1 + 1) = x (t + 1) + d (t + 1) := by rw [← g2]; ring
      have n3' : d t + d (t + 1) ≠ 0 := by rw [← g1, ← g2]; intro h; apply n3; rw [← h]; ring
      rw [gradEl, if_neg h0, if_neg (by omega), Nat.add_sub_cancel, ← p2, ← p1, ← p0, e0, e2]
      field_simp
      ring


/-- The spacing numpy derives from a distance argument describes the coordinates it stands for. -/
def Spacing.Of [Field K] (x : Nat → K) (len : Nat) : Spacing K → Prop
  | .uniform h => ∀ t, t + 1 < len → x (t + 1) - x t = h
  | .widths d => ∀ t, t + 1 < len → x (t + 1) - x t = d t

theorem spacing_uniform [Field K] (h : NDArr K) (hs : h.shape = []) (len : Nat) :
    Spacing.Of (coordinate h) len (.uniform (h.elem [])) := by
  intro t _
  unfold coordinate
  rw [if_pos hs, if_pos hs]
  push_cast; ring

theorem spacing_spec [Field K] [DecidableEq K] {len : Nat} {h : NDArr K} {s : Spacing K}
    (hs : spacing len h = .ok s) : Spacing.Of (coordinate h) len s := by
  unfold spacing at hs
  split at hs
  · rename_i hsh
    cases hs
    exact spacing_uniform h hsh len
  · rename_i n hsh
    have hc : ∀ t, coordinate h (t + 1) - coordinate h t = gaps h t := by
      intro t; unfold coordinate gaps
      rw [if_neg (by rw [hsh]; simp), if_neg (by rw [hsh]; simp)]
    by_cases h1 : n ≠ len
    · rw [if_pos h1] at hs; cases hs
    · rw [if_neg h1] at hs
      have h1' : n = len := not_not.mp h1
      by_cases h2 : n < 2
      · rw [if_pos h2] at hs; cases hs
      · rw [if_neg h2] at hs
        by_cases h3 : allEq (n - 1) h.gaps
        · rw [if_pos h3] at hs
          cases hs
          intro t ht
          rw [hc]
          unfold allEq at h3
          rw [List.all_eq_true] at h3
          exact of_decide_eq_true (h3 t (List.mem_range.mpr (by omega)))
        · rw [if_neg h3] at hs
          cases hs
          intro t _
          exact hc t
  · cases hs

theorem spacings_at [Field K] [DecidableEq K] {s : List Nat} {hs : List (NDArr K)} {xs : List (Spacing K)}
    (h : spacings s hs = .ok xs) (k : Nat) (x : Spacing K) (hk : xs[k]? = some x) :
    ∃ d, hs[k]? = some d ∧ Spacing.Of (coordinate d) (s.getD k 0) x := by
  induction s generalizing hs xs k with
  | nil => simp only [spacings, Except.ok.injEq] at h; subst h; simp at hk
  | cons len s ih =>
    cases hs with
    | nil => simp only [spacings, Except.ok.injEq] at h; subst h; simp at hk
    | cons d hs =>
      unfold spacings at h
      rcases h1 : spacing len d with e | y
      · rw [h1] at h; cases h
      · rw [h1] at h
        simp only at h
        rcases h2 : spacings s hs with e | ys
        · rw [h2] at h; cases h
        · rw [h2] at h
          cases h
          cases k with
          | zero =>
            simp only [List.getElem?_cons_zero, Option.some.injEq] at hk
            subst hk
            exact ⟨d, rfl, spacing_spec h1⟩
          | succ k =>
            obtain ⟨d', h3, h4⟩ := ih h2 k hk
            exact ⟨d', h3, h4⟩

theorem gradArgs_spec [Field K] [DecidableEq K] {a : NDArr K} {hs : List (NDArr K)} {ss : List (Spacing K)}
    (h0 : hs ≠ []) (h : gradArgs a hs = .ok ss) :
    ss.length = a.shape.length ∧ ∀ (k : Nat) (s : Spacing K), ss[k]? = some s →
      ∃ d, distanceFor hs k = some d ∧ Spacing.Of (coordinate d) (a.shape.getD k 0) s := by
  unfold gradArgs at h
  rw [if_neg (by simpa using h0)] at h
  split at h
  · rename_i e
    cases h
    refine ⟨by simp, fun k s hk => ⟨⟨[], e⟩, rfl, ?_⟩⟩
    rw [List.getElem?_map] at hk
    rcases hk' : a.shape[k]? with _ | len
    · rw [hk'] at hk; cases hk
    · rw [hk'] at hk
      cases hk
      exact spacing_uniform ⟨[], e⟩ rfl _
  · by_cases hl : hs.length = a.shape.length
    · rw [if_pos hl] at h
      refine ⟨?_, fun k s hk => ?_⟩
      · exact spacings_length h hl
      · obtain ⟨d, h1, h2⟩ := spacings_at h k s hk
        refine ⟨d, ?_, h2⟩
        unfold distanceFor
        split
        · rename_i hone
          have hk1 : k < hs.length := by
            by_contra hc; rw [List.getElem?_eq_none (by omega)] at h1; cases h1
          have : k = 0 := by omega
          subst this; exact h1
        · exact h1
    · rw [if_neg hl] at h; cases h

theorem gradient_spec [Field K] [CharZero K] [DecidableEq K] {a : NDArr K} {hs gs : List (NDArr K)} (h0 : hs ≠ [])
    (h : gradient a hs = .ok gs) :
    gs.length = a.shape.length ∧ ∀ (k : Nat) (g : NDArr K), gs[k]? = some g →
      g.shape = a.shape ∧ ∃ d, distanceFor hs k = some d ∧
      ((∀ t u, t < a.shape.getD k 0 → u < a.shape.getD k 0 → t ≠ u → coordinate d t ≠ coordinate d u) →
      ∀ i, InB a.shape i →
        SlopeAt (coordinate d) (fun j => a.elem (i.set k j)) (a.shape.getD k 0) (i.getD k 0) (g.elem i)) := by
  unfold gradient at h
  rcases hg : gradArgs a hs with e | ss
  · rw [hg] at h; cases h
  · rw [hg] at h
    simp only at h
    by_cases hany : a.shape.any (fun n => decide (n < 2))
    · rw [if_pos hany] at h; cases h
    · rw [if_neg hany] at h
      cases h
      obtain ⟨l1, l2⟩ := gradArgs_spec h0 hg
      refine ⟨by simp [l1], fun k g hk => ?_⟩
      rw [List.getElem?_zipWith] at hk
      rcases hr : (List.range a.shape.length)[k]? with _ | k'
      · rw [hr] at hk; cases hk
      · rcases hs' : ss[k]? with _ | s
        · rw [hr, hs'] at hk; cases hk
        · rw [hr, hs'] at hk
          have hkl : k < a.shape.length := by
            by_contra hc; rw [List.getElem?_eq_none (by simpa using hc)] at hr; cases hr
          rw [List.getElem?_range hkl] at hr
          cases hr
          simp only [Option.some.injEq] at hk
          subst hk
          obtain ⟨d, d1, d2⟩ := l2 k s hs'
          refine ⟨rfl, d, d1, fun hx i hi => ?_⟩
          have hlen : 2 ≤ a.shape.getD k 0 := by
            have hmem : a.shape.getD k 0 ∈ a.shape := by
              rw [List.getD_eq_getElem?_getD, List.getElem?_eq_getElem hkl]; exact List.getElem_mem hkl
            by_contra hc
            apply hany
            rw [List.any_eq_true]
            exact ⟨_, hmem, decide_eq_true (by omega)⟩
          exact gradEl_slope _ _ _ _ s (inB_getD hi hkl) hlen (by cases s <;> exact d2) hx

/-! ## Unwrapping -/

theorem unwrapCorr_spec [Field K] [LinearOrder K] [IsStrictOrderedRing K] {floor : K → K} {period : K}
    (hp : 0 < period) (hf : ∀ x, ∃ z : ℤ, floor x = z ∧ (z : K) ≤ x ∧ x < z + 1) (dd : K) :
    (∃ z : ℤ, unwrapCorr floor period dd = z * period) ∧ |dd + unwrapCorr floor period dd| ≤ period / 2 ∧
    (dd + unwrapCorr floor period dd = period / 2 → 0 < dd) ∧
    (dd + unwrapCorr floor period dd = -(period / 2) → dd ≤ 0) := by
  obtain ⟨z, z1, z2, z3⟩ := hf ((dd - -(period / 2)) / period)
  have e1 : (z : K) * period ≤ dd + period / 2 := by
    rw [le_div_iff₀ hp] at z2; linarith
  have e2 : dd + period / 2 < (z + 1) * period := by
    rw [div_lt_iff₀ hp] at z3; linarith
  unfold unwrapCorr unwrapMod
  simp only [z1]
  by_cases hc : dd - -(period / 2) - period * (z : K) + -(period / 2) = -(period / 2) ∧ 0 < dd
  · rw [if_pos hc]
    obtain ⟨c1, c2⟩ := hc
    refine ⟨⟨1 - z, ?_⟩, ?_, ?_, ?_⟩
    · push_cast; linear_combination -c1
    · rw [add_sub_cancel, abs_of_pos (by linarith)]
    · intro _; exact c2
    · intro h; linarith
  · rw [if_neg hc]
    refine ⟨⟨-z, ?_⟩, ?_, ?_, ?_⟩
    · push_cast; ring
    · rw [abs_le]; constructor <;> linarith
    · intro h; exfalso; linarith
    · intro h
      by_contra hd
      exact hc ⟨by linarith, lt_of_not_ge hd⟩

theorem unwrap_spec [Field K] [LinearOrder K] [IsStrictOrderedRing K] {floor : K → K} {period : K}
    (hp : 0 < period) (hf : ∀ x, ∃ z : ℤ, floor x = z ∧ (z : K) ≤ x ∧ x < z + 1) (p d : NDArr K) (ax : Int)
    (n : Nat) (hn : NamesAxis p.shape.length ax n) (hd : d.shape = []) :
    ∃ r, unwrap floor period p d ax = .ok r ∧ r.shape = p.shape ∧ ∀ i, InB p.shape i →
      Unwrapped period (d.elem []) (p.shape.getD n 0) (fun j => p.elem (i.set n j)) (fun j => r.elem (i.set n j)) := by
  obtain ⟨dd, d1, d2, d3⟩ := diff_spec 1 ax n p hn
  have hns : normAxis p.shape.length ax = .ok n := normAxis_ok.mpr hn
  unfold unwrap
  rw [show diff 1 ax p = .ok dd from d1]
  simp only [hns]
  have hb := bin_intro (fun (x t : K) => if |x| < t then 0 else unwrapCorr floor period x)
    (a := dd) (b := d) (s := dd.shape) (by rw [hd]; exact bshape_nil_right _)
  rw [hb]
  simp only [cumulate]
  have hlen : dd.shape.length = p.shape.length := by rw [d2]; simp [shortened]
  rw [hlen, hns]
  simp only
  refine ⟨_, rfl, rfl, fun i hi => ?_⟩
  have hli : n < i.length := by rw [hi.length_eq]; exact hn.1
  -- the corrections
  let c : Nat → K := fun j => if |p.elem (i.set n (j + 1)) - p.elem (i.set n j)| < d.elem [] then 0
    else unwrapCorr floor period (p.elem (i.set n (j + 1)) - p.elem (i.set n j))
  have hg : ∀ j < p.shape.getD n 0, (if (i.set n j).getD n 0 = 0 then p.elem (i.set n j) else
      p.elem (i.set n j) + ((List.range (((i.set n j).set n ((i.set n j).getD n 0 - 1)).getD n 0 + 1)).map (fun t =>
        if |dd.elem (bidx dd.shape (((i.set n j).set n ((i.set n j).getD n 0 - 1)).set n t))| <
            d.elem (bidx d.shape (((i.set n j).set n ((i.set n j).getD n 0 - 1)).set n t)) then 0
        else unwrapCorr floor period
          (dd.elem (bidx dd.shape (((i.set n j).set n ((i.set n j).getD n 0 - 1)).set n t))))).sum) =
      p.elem (i.set n j) + ∑ t ∈ Finset.range j, c t := by
    intro j hj
    rw [getD_set hli]
    by_cases h0 : j = 0
    · rw [if_pos h0, h0]; simp
    · rw [if_neg h0, List.set_set, getD_set hli, show j - 1 + 1 = j by omega, range_map_sum]
      congr 1
      refine Finset.sum_congr rfl fun t ht => ?_
      have ht' : t < j := Finset.mem_range.mp ht
      rw [List.set_set]
      have hin : InB dd.shape (i.set n t) := by
        rw [d2]
        exact inB_set hi (by omega)
      rw [bidx_self hin, d3 _ hin, hd]
      have : ∑ j ∈ Finset.range (1 + 1), (-1 : K) ^ (1 - j) * (Nat.choose 1 j : K) * p.elem (moved n j (i.set n t)) =
          p.elem (i.set n (t + 1)) - p.elem (i.set n t) := by
        have m0 : moved n 0 (i.set n t) = i.set n t := by
          unfold moved; rw [List.set_set, getD_set hli, Nat.add_zero]
        have m1 : moved n 1 (i.set n t) = i.set n (t + 1) := by
          unfold moved; rw [List.set_set, getD_set hli]
        rw [Finset.sum_range_succ, Finset.sum_range_one, m0, m1]
        simp only [Nat.sub_zero, pow_one, Nat.choose_zero_right, Nat.cast_one, Nat.sub_self, pow_zero, Nat.choose_self]
        ring
      rw [this]
      rfl
  have hc : ∀ t, (|p.elem (i.set n (t + 1)) - p.elem (i.set n t)| < d.elem [] → c t = 0) ∧
      (d.elem [] ≤ |p.elem (i.set n (t + 1)) - p.elem (i.set n t)| →
        c t = unwrapCorr floor period (p.elem (i.set n (t + 1)) - p.elem (i.set n t))) :=
    fun t => ⟨fun h => if_pos h, fun h => if_neg (not_lt.mpr h)⟩
  have hz : ∀ t, ∃ z : ℤ, c t = z * period := by
    intro t
    rcases lt_or_ge |p.elem (i.set n (t + 1)) - p.elem (i.set n t)| (d.elem []) with h | h
    · exact ⟨0, by rw [(hc t).1 h]; simp⟩
    · rw [(hc t).2 h]; exact (unwrapCorr_spec hp hf _).1
  have hstep : ∀ j, j + 1 < p.shape.getD n 0 →
      (p.elem (i.set n (j + 1)) + ∑ t ∈ Finset.range (j + 1), c t) - (p.elem (i.set n j) + ∑ t ∈ Finset.range j, c t) =
        (p.elem (i.set n (j + 1)) - p.elem (i.set n j)) + c j := by
    intro j _; rw [Finset.sum_range_succ]; ring
  have hpos : 0 < p.shape.getD n 0 := lt_of_le_of_lt (Nat.zero_le _) (inB_getD hi hn.1)
  refine ⟨?_, ?_, ?_, ?_⟩
  · have := hg 0 hpos
    simp only [Finset.range_zero, Finset.sum_empty, add_zero] at this
    exact this
  · intro j hj
    have := hg j hj
    obtain ⟨z, hz'⟩ : ∃ z : ℤ, ∑ t ∈ Finset.range j, c t = z * period := by
      clear this hj
      induction j with
      | zero => exact ⟨0, by simp⟩
      | succ j ih =>
        obtain ⟨z, e⟩ := ih
        obtain ⟨y, e'⟩ := hz j
        exact ⟨z + y, by rw [Finset.sum_range_succ, e, e']; push_cast; ring⟩
    refine ⟨z, ?_⟩
    rw [← hz']
    exact this
  · intro j hj hs
    have h1 := hg j (by omega)
    have h2 := hg (j + 1) hj
    have h3 := hstep j hj
    rw [(hc j).1 hs, add_zero, ← h1, ← h2] at h3
    exact h3
  · intro j hj hs
    have h1 := hg j (by omega)
    have h2 := hg (j + 1) hj
    have h3 := hstep j hj
    rw [(hc j).2 hs, ← h1, ← h2] at h3
    obtain ⟨-, u1, u2, u3⟩ := unwrapCorr_spec hp hf (p.elem (i.set n (j + 1)) - p.elem (i.set n j))
    rw [← h3] at u1 u2 u3
    exact ⟨u1, u2, u3⟩

end PQ.NDArr
