import Verif.Model.NumpyLib
import Verif.Lemmas.Reduce
import Mathlib.Tactic.Ring
import Mathlib.Tactic.FieldSimp

/-! # How numpy's library functions scale -/

namespace PQ
namespace NDArr

variable {K : Type _} [Field K]

theorem bin_scale {f : K → K → K} {x y z : K} (h : ∀ a b, f (a * x) (b * y) = f a b * z)
    (a b : NDArr K) :
    bin f (a.map (· * x)) (b.map (· * y)) = (bin f a b).map (fun m => m.map (· * z)) := by
  rw [bin_map, map_bin]
  exact bin_congr (fun p q => h p q) a b

theorem diffLoop_scale (ax : Nat) (c : K) (n : Nat) (a : NDArr K) :
    diffLoop ax n (a.map (· * c)) = (diffLoop ax n a).map (fun m => m.map (· * c)) := by
  induction n generalizing a with
  | zero => rfl
  | succ n ih =>
    unfold diffLoop
    rw [show tailAx ax (a.map (· * c)) = (tailAx ax a).map (· * c) from rfl,
      show initAx ax (a.map (· * c)) = (initAx ax a).map (· * c) from rfl,
      bin_scale (z := c) (fun p q => by ring)]
    rcases bin (fun x1 x2 => x1 - x2) (tailAx ax a) (initAx ax a) with e | b
    · rfl
    · exact ih b

theorem diff_scale (n ax : Int) (c : K) (a : NDArr K) :
    diff n ax (a.map (· * c)) = (diff n ax a).map (fun m => m.map (· * c)) := by
  unfold diff
  rw [show (a.map (· * c)).shape = a.shape from rfl]
  split
  · rfl
  · split
    · rfl
    · split
      · rfl
      · rcases normAxis a.shape.length ax with e | k
        · rfl
        · exact diffLoop_scale k c _ a

omit [Field K] in
theorem ofList_map [Zero K] {g : K → K} (hg : g 0 = 0) (l : List K) :
    ofList (l.map g) = (ofList l).map g := by
  unfold ofList map
  simp only [List.length_map, NDArr.mk.injEq, true_and]
  funext i
  rw [List.getD_eq_getElem?_getD, List.getD_eq_getElem?_getD, List.getElem?_map]
  cases l[i.headD 0]? <;> simp [hg]

theorem ediff1d_scale (c : K) (a : NDArr K) (e b : Option (NDArr K)) :
    ediff1d (a.map (· * c)) (e.map (map (· * c))) (b.map (map (· * c))) =
      (ediff1d a e b).map (· * c) := by
  unfold ediff1d
  rw [← ofList_map (zero_mul c)]
  congr 1
  simp only [List.map_append, toList_map]
  congr 1
  · congr 1
    · cases b <;> simp [toList_map]
    · rw [← List.map_tail, List.map_zipWith, List.zipWith_map]
      congr 1
      funext x y
      ring
  · cases e <;> simp [toList_map]

theorem cross_scale (x y : K) (a b : NDArr K) :
    cross (a.map (· * x)) (b.map (· * y)) = (cross a b).map (fun m => m.map (· * (x * y))) := by
  unfold cross
  rw [show (a.map (· * x)).shape = a.shape from rfl, show (b.map (· * y)).shape = b.shape from rfl]
  have hc : ∀ (z : K) (t : NDArr K), comps (t.map (· * z)) = (comps t).map (fun f k => f k * z) := by
    intro z t
    unfold comps map
    simp only [NDArr.mk.injEq, true_and]
    funext i k
    split
    · rfl
    · rw [zero_mul]
  have hb : bin cross3 (comps (a.map (· * x))) (comps (b.map (· * y))) =
      (bin cross3 (comps a) (comps b)).map (fun m => m.map (fun f k => f k * (x * y))) := by
    rw [hc, hc, bin_map, map_bin]
    refine bin_congr (fun p q => ?_) _ _
    funext k
    rcases k with _ | _ | k <;> simp only [cross3] <;> ring
  simp only [hb]
  split
  · rcases bin cross3 (comps a) (comps b) with e | c
    · rfl
    · simp only [Except.map]
      split <;> rfl
  · rfl

theorem widths_scale (nd : Nat) (ax : Int) (c : K) (x : NDArr K) :
    widths nd (x.map (· * c)) ax = (widths nd x ax).map (fun m => m.map (· * c)) := by
  unfold widths
  rw [show (x.map (· * c)).shape = x.shape from rfl, diff_scale, diff_scale]
  split
  · rcases diff 1 (-1) x with e | d
    · rfl
    · simp only [Except.map]
      rcases listAxis nd ax with e | k
      · rfl
      · rfl
  · rfl

/-- The widths scale with the sample points if they are given, otherwise with `dx`. -/
theorem trapz_scale (y : NDArr K) (x : Option (NDArr K)) (dx : NDArr K) (ax : Int) (cy cx cd z : K)
    (hx : x ≠ none → z = cx) (hd : x = none → z = cd) :
    trapz (y.map (· * cy)) (x.map (map (· * cx))) (dx.map (· * cd)) ax =
      (trapz y x dx ax).map (fun m => m.map (· * (cy * z))) := by
  unfold trapz
  have hw : trapzWidths (y.map (· * cy)).shape.length (x.map (map (· * cx))) (dx.map (· * cd)) ax =
      (trapzWidths y.shape.length x dx ax).map (fun m => m.map (· * z)) := by
    unfold trapzWidths
    cases x with
    | none => simp only [Option.map_none, hd rfl]; rfl
    | some x => simp only [Option.map_some, hx (by simp)]; exact widths_scale _ _ _ _
  rw [hw]
  rcases trapzWidths y.shape.length x dx ax with e | d
  · rfl
  · simp only [Except.map]
    rw [show (y.map (· * cy)).shape = y.shape from rfl]
    rcases listAxis y.shape.length ax with e | k
    · rfl
    · simp only
      rw [show tailAx k (y.map (· * cy)) = (tailAx k y).map (· * cy) from rfl,
        show initAx k (y.map (· * cy)) = (initAx k y).map (· * cy) from rfl,
        bin_scale (z := cy) (fun p q => by ring)]
      rcases bin (fun x1 x2 => x1 + x2) (tailAx k y) (initAx k y) with e | s
      · rfl
      · simp only [Except.map]
        rw [bin_scale (z := cy * z) (fun p q => by ring)]
        rcases bin (fun x1 x2 => x1 * x2) d s with e | p
        · rfl
        · simp only [Except.map, NDArr.map_map]
          have h1 : p.map (fun x => x * (cy * z) / 2) =
              (p.map (fun t => t / 2)).map (· * (cy * z)) := by
            rw [NDArr.map_map]; exact NDArr.map_congr (fun x => by ring) _
          rw [h1, reduce_map (f := List.sum) (f' := List.sum) (g := (· * (cy * z)))
            (g' := (· * (cy * z))) (fun l => by simpa using List.sum_map_mul_right l id (cy * z))]
          rfl

/-! ## `np.gradient` -/

/-- A spacing measured in other units. -/
def Spacing.scale (c : K) : Spacing K → Spacing K
  | .uniform h => .uniform (h * c)
  | .widths d => .widths (fun j => d j * c)

omit [Field K] in
theorem div_scale [Field K] {a b x y : K} : (a * x) / (b * y) = a / b * (x / y) :=
  mul_div_mul_comm a x b y

theorem gradEl_scale (f : Nat → K) (len j : Nat) (s : Spacing K) (cf c : K) (hc : c ≠ 0) :
    gradEl (fun k => f k * cf) len j (s.scale c) = gradEl f len j s * (cf / c) := by
  cases s with
  | uniform h =>
    simp only [Spacing.scale, gradEl]
    split
    · rw [← sub_mul, div_scale]
    · split
      · rw [← sub_mul, div_scale]
      · rw [← sub_mul, ← mul_assoc, div_scale]
  | widths d =>
    simp only [Spacing.scale, gradEl]
    split
    · rw [← sub_mul, div_scale]
    · split
      · rw [← sub_mul, div_scale]
      · have e : ∀ a b t : K, (a * c) / ((b * c) * t) = (a / (b * t)) := fun a b t => by
          rw [show b * c * t = (b * t) * c by ring, mul_div_mul_right _ _ hc]
        rw [← neg_mul, ← sub_mul, ← add_mul, e, e, e]
        have e2 : ∀ a b t : K, a / (b * (t * c)) = a / (b * t) / c := fun a b t => by
          rw [← mul_assoc, div_div]
        rw [e2, e2, e2]
        ring

theorem gradAx_scale (a : NDArr K) (n : Nat) (s : Spacing K) (cf c : K) (hc : c ≠ 0) :
    gradAx (a.map (· * cf)) n (s.scale c) = (gradAx a n s).map (· * (cf / c)) := by
  unfold gradAx
  simp only [map, NDArr.mk.injEq, true_and]
  funext i
  exact gradEl_scale _ _ _ _ _ _ hc

theorem allEq_scale [DecidableEq K] (n : Nat) (d : Nat → K) {c : K} (hc : c ≠ 0) :
    allEq n (fun j => d j * c) = allEq n d := by
  unfold allEq
  congr 1
  funext j
  exact decide_eq_decide.2 (mul_left_inj' hc)

theorem spacing_scale [DecidableEq K] (len : Nat) (h : NDArr K) (c : K) (hc : c ≠ 0) :
    spacing len (h.map (· * c)) = (spacing len h).map (Spacing.scale c) := by
  have hg : gaps (h.map (fun x => x * c)) = fun j => gaps h j * c := by
    funext j; unfold gaps map; rw [← sub_mul]
  unfold spacing
  rw [show (h.map (fun x => x * c)).shape = h.shape from rfl, hg]
  split
  · rfl
  · split
    · rfl
    · split
      · rfl
      · rw [allEq_scale _ _ hc]
        split <;> rfl
  · rfl

/-- Spacings scaled one by one. -/
def scaleAll (cs : List K) (ss : List (Spacing K)) : List (Spacing K) :=
  List.zipWith Spacing.scale cs ss

theorem spacings_scale [DecidableEq K] (s : List Nat) (hs : List (NDArr K)) (cs : List K)
    (hl : cs.length = hs.length) (hc : ∀ c ∈ cs, c ≠ 0) :
    spacings s (List.zipWith (fun c h => h.map (· * c)) cs hs) =
      (spacings s hs).map (scaleAll cs) := by
  induction s generalizing hs cs with
  | nil => simp [spacings, Except.map, scaleAll]
  | cons len s ih =>
    cases hs with
    | nil =>
      cases cs with
      | nil => rfl
      | cons c cs => simp at hl
    | cons h hs =>
      cases cs with
      | nil => simp at hl
      | cons c cs =>
        simp only [List.zipWith_cons_cons]
        unfold spacings
        rw [spacing_scale len h c (hc c (by simp))]
        rcases spacing len h with e | x
        · rfl
        · simp only [Except.map]
          rw [ih hs cs (by simpa using hl) (fun c hcc => hc c (by simp [hcc]))]
          rcases spacings s hs with e | xs
          · rfl
          · rfl

theorem spacings_length [DecidableEq K] {s : List Nat} {hs : List (NDArr K)} {xs : List (Spacing K)}
    (h : spacings s hs = .ok xs) (hl : hs.length = s.length) : xs.length = s.length := by
  induction s generalizing hs xs with
  | nil => simp only [spacings, Except.ok.injEq] at h; subst h; rfl
  | cons len s ih =>
    cases hs with
    | nil => simp at hl
    | cons a hs =>
      unfold spacings at h
      rcases hx : spacing len a with e | x
      · rw [hx] at h; simp at h
      · rw [hx] at h
        simp only at h
        rcases hy : spacings s hs with e | ys
        · rw [hy] at h; simp at h
        · rw [hy] at h
          simp only [Except.ok.injEq] at h
          subst h
          simp [ih hy (by simpa using hl)]

theorem gradArgs_one [DecidableEq K] (a h : NDArr K) (cf c : K) (hc : c ≠ 0) :
    gradArgs (a.map (· * cf)) [h.map (· * c)] = (gradArgs a [h]).map (List.map (Spacing.scale c)) := by
  obtain ⟨s, e⟩ := h
  cases s with
  | nil =>
    change Except.ok _ = Except.ok _
    rw [List.map_map]
    rfl
  | cons n s =>
    change (if [(NDArr.mk (n :: s) e).map (· * c)].length = a.shape.length then
        spacings a.shape [(NDArr.mk (n :: s) e).map (· * c)] else Except.error PyErr.typeError) =
      (if [NDArr.mk (n :: s) e].length = a.shape.length then
        spacings a.shape [NDArr.mk (n :: s) e] else Except.error PyErr.typeError).map _
    simp only [List.length_cons, List.length_nil]
    split
    · rename_i hl
      have h1 := spacings_scale a.shape [NDArr.mk (n :: s) e] [c] rfl (by simpa using hc)
      rw [show [(NDArr.mk (n :: s) e).map (· * c)] =
        List.zipWith (fun c h => h.map (· * c)) [c] [NDArr.mk (n :: s) e] from rfl, h1]
      rcases hx : spacings a.shape [NDArr.mk (n :: s) e] with er | xs
      · rfl
      · have hlen := spacings_length hx (by simpa using hl)
        rw [← hl] at hlen
        obtain ⟨x, rfl⟩ : ∃ x, xs = [x] := by
          match xs, hlen with
          | [x], _ => exact ⟨x, rfl⟩
        rfl
    · rfl

theorem gradientIter_one [DecidableEq K] (a h : NDArr K) (cf c : K) (hc : c ≠ 0) :
    gradientIter (a.map (· * cf)) [h.map (· * c)] =
      (gradientIter a [h]).map (List.map (fun g => g.map (· * (cf / c)))) := by
  have hgrad : gradient (a.map (· * cf)) [h.map (· * c)] =
      (gradient a [h]).map (List.map (fun g => g.map (· * (cf / c)))) := by
    unfold gradient
    rw [gradArgs_one a h cf c hc]
    rcases gradArgs a [h] with e | ss
    · rfl
    · simp only [Except.map]
      rw [show (a.map (· * cf)).shape = a.shape from rfl]
      split
      · rfl
      · simp only [Except.ok.injEq]
        rw [List.zipWith_map_right, List.map_zipWith]
        congr 1
        funext n s
        exact gradAx_scale a n s cf c hc
  unfold gradientIter
  rw [hgrad, show (a.map (· * cf)).shape = a.shape from rfl]
  rcases gradient a [h] with e | gs
  · rfl
  · simp only [Except.map]
    match hs : a.shape, gs with
    | [n], [g] => simp only [List.map_cons, List.map_nil, List.map_map]; rfl
    | [n], [] => rfl
    | [n], _ :: _ :: _ => rfl
    | [], _ => rfl
    | _ :: _ :: _, _ => rfl

theorem zipWith_zipWith_scale [DecidableEq K] (a : NDArr K) (cf : K) :
    ∀ (ns : List Nat) (cs : List K) (ss : List (Spacing K)), (∀ c ∈ cs, c ≠ 0) →
    List.zipWith (fun n s => gradAx (a.map (· * cf)) n s) ns (scaleAll cs ss) =
      List.zipWith (fun c g => g.map (· * (cf / c))) cs (List.zipWith (fun n s => gradAx a n s) ns ss)
  | [], cs, ss, _ => by simp
  | _ :: _, [], ss, _ => by simp [scaleAll]
  | _ :: _, _ :: _, [], _ => by simp [scaleAll]
  | n :: ns, c :: cs, s :: ss, h => by
    have := zipWith_zipWith_scale a cf ns cs ss (fun c hc => h c (by simp [hc]))
    simp only [scaleAll, List.zipWith_cons_cons] at this ⊢
    rw [this, gradAx_scale a n s cf c (h c (by simp))]

theorem gradientIter_many [DecidableEq K] (a : NDArr K) (hs : List (NDArr K)) (cs : List K) (cf : K)
    (hl : cs.length = hs.length) (h2 : 2 ≤ hs.length) (hc : ∀ c ∈ cs, c ≠ 0) :
    gradientIter (a.map (· * cf)) (List.zipWith (fun c h => h.map (· * c)) cs hs) =
      (gradientIter a hs).map (List.zipWith (fun c g => g.map (· * (cf / c))) cs) := by
  have hz : (List.zipWith (fun c (h : NDArr K) => h.map (· * c)) cs hs).length = hs.length := by
    simp [hl]
  have hargs : ∀ (b : NDArr K) (ts : List (NDArr K)), 2 ≤ ts.length → gradArgs b ts =
      if ts.length = b.shape.length then spacings b.shape ts else .error .typeError := by
    intro b ts ht
    match ts, ht with
    | x :: y :: ts, _ => simp [gradArgs]
  have hgrad : gradient (a.map (· * cf)) (List.zipWith (fun c h => h.map (· * c)) cs hs) =
      (gradient a hs).map (List.zipWith (fun c g => g.map (· * (cf / c))) cs) := by
    unfold gradient
    rw [hargs _ _ (by rw [hz]; exact h2), hargs _ _ h2, hz,
      show (a.map (· * cf)).shape = a.shape from rfl, spacings_scale _ _ _ hl hc]
    by_cases hlen : hs.length = a.shape.length
    · simp only [hlen, if_true]
      rcases spacings a.shape hs with e | ss
      · rfl
      · simp only [Except.map]
        split
        · rfl
        · simp only [Except.ok.injEq]
          exact zipWith_zipWith_scale a cf _ _ _ hc
    · simp only [hlen, if_false]
      rfl
  unfold gradientIter
  rw [hgrad, show (a.map (· * cf)).shape = a.shape from rfl]
  rcases hg : gradient a hs with e | gs
  · rfl
  · have hsh : a.shape.length = hs.length := by
      by_contra hne
      unfold gradient at hg
      rw [hargs _ _ h2, if_neg (fun h => hne h.symm)] at hg
      simp at hg
    simp only [Except.map]
    match hs' : a.shape, gs with
    | [n], _ => rw [hs'] at hsh; simp at hsh; omega
    | [], _ => rfl
    | _ :: _ :: _, _ => rfl

end NDArr
end PQ
