import Verif.Lemmas.Calculus
import Verif.Props.Umath
import Verif.Props.Along

/-!
# C131, C132: differences, integrals, slopes and cross products by their textbook formulas; positions

C48, C51 and C32 say that these functions are numpy's on the physical values; here the values are given by
formulas that do not mention the model of numpy.
-/

namespace PQ

open NDArr LawfulRPow

variable {K : Type _} [Field K] [LinearOrder K] [IsStrictOrderedRing K] [RPow K] [LawfulRPow K]
variable {h : Hasher} {w : World K}

/-- `diff(q, m, axis)`: for every order `m ≥ 0` and every axis the result keeps the units, is `m` shorter
along the axis, and its elements are the `m`-th finite differences of the physical values. -/
theorem C131_diff (w : World K) (q : Quantity K) (ax : Int) (n : Nat) (hn : NamesAxis q.mag.shape.length ax n) (m : Nat) :
    ∃ r, Umath.diff w q m ax = .ok r ∧ r.dim = q.dim ∧ r.mag.shape = shortened n m q.mag.shape ∧
      ∀ (v : Valuation w) (i : List Nat), InB r.mag.shape i →
        (v.phys r).elem i = ∑ j ∈ Finset.range (m + 1),
          (-1) ^ (m - j) * (m.choose j : K) * (v.phys q).elem (moved n j i) := by
  obtain ⟨r, h1, h2, h3⟩ := diff_spec m ax n q.mag hn
  refine ⟨⟨r, q.dim⟩, by rw [umath_diff_eq, h1]; rfl, rfl, h2, fun v i hi => ?_⟩
  simp only [Valuation.phys, NDArr.map]
  rw [h3 i hi, Finset.sum_mul]
  exact Finset.sum_congr rfl fun j _ => by ring

/-- `diff(q, axis=...)`: each element is the next physical value minus this one. -/
theorem C131_diff_once (w : World K) (q : Quantity K) (ax : Int) (n : Nat) (hn : NamesAxis q.mag.shape.length ax n) :
    ∃ r, Umath.diff w q 1 ax = .ok r ∧ r.dim = q.dim ∧ r.mag.shape = shortened n 1 q.mag.shape ∧
      ∀ (v : Valuation w) (i : List Nat), InB r.mag.shape i →
        (v.phys r).elem i = (v.phys q).elem (moved n 1 i) - (v.phys q).elem i := by
  obtain ⟨r, h1, h2, h3, h4⟩ := C131_diff w q ax n hn 1
  refine ⟨r, h1, h2, h3, fun v i hi => ?_⟩
  rw [h4 v i hi, Finset.sum_range_succ, Finset.sum_range_one]
  have : moved n 0 i = i := set_getD
  simp [this]
  ring

/-- `diff` refuses a negative order and, unless the order is 0, an axis the array does not have. -/
theorem C131_diff_refuses (w : World K) (q : Quantity K) (ax m : Int) :
    (m < 0 → Umath.diff w q m ax = .error .valueError) ∧
    (0 < m → (¬ ∃ n, NamesAxis q.mag.shape.length ax n) → Umath.diff w q m ax = .error .valueError) ∧
    (Umath.diff w q 0 ax = .ok q) := by
  refine ⟨fun hm => ?_, fun hm hn => ?_, ?_⟩
  · unfold Umath.diff; rw [if_neg (by omega), if_pos hm]
  · unfold Umath.diff
    rw [if_neg (by omega), if_neg (by omega)]
    by_cases hs : q.mag.shape = []
    · rw [if_pos hs]
    · rw [if_neg hs]
      rcases hx : normAxis q.mag.shape.length ax with e | n
      · rw [(normAxis_error hx).1]
      · exact absurd ⟨n, normAxis_ok.mp hx⟩ hn
  · unfold Umath.diff; rw [if_pos rfl]

/-- `ediff1d(q)`: the differences of neighbours in row-major order, in the units of `q`; values given for the
beginning and the end, in the units of `q`, are put around them. -/
theorem C131_ediff1d (w : World K) (q : Quantity K) (e b : Option (Quantity K))
    (he : ∀ x ∈ e, x.dim = q.dim) (hb : ∀ x ∈ b, x.dim = q.dim) :
    let nb := (b.map (fun c => c.mag.size)).getD 0
    let ne := (e.map (fun c => c.mag.size)).getD 0
    let r := Umath.ediff1d q (e.map .quantity) (b.map .quantity)
    r.dim = q.dim ∧ r.mag.shape = [nb + (q.mag.size - 1) + ne] ∧ ∀ v : Valuation w,
    (∀ c i, b = some c → InB c.mag.shape i → (v.phys r).elem [rowMajor c.mag.shape i] = (v.phys c).elem i) ∧
    (∀ i j, InB q.mag.shape i → InB q.mag.shape j → rowMajor q.mag.shape j = rowMajor q.mag.shape i + 1 →
      (v.phys r).elem [nb + rowMajor q.mag.shape i] = (v.phys q).elem j - (v.phys q).elem i) ∧
    (∀ c i, e = some c → InB c.mag.shape i →
      (v.phys r).elem [nb + (q.mag.size - 1) + rowMajor c.mag.shape i] = (v.phys c).elem i) := by
  intro nb ne r
  have S := ediff1d_spec q.mag ((e.map Operand.quantity).map Operand.arr) ((b.map Operand.quantity).map Operand.arr)
  have hnb : (((b.map Operand.quantity).map Operand.arr).map NDArr.size).getD 0 = nb := by cases b <;> rfl
  have hne : (((e.map Operand.quantity).map Operand.arr).map NDArr.size).getD 0 = ne := by cases e <;> rfl
  simp only [hnb, hne] at S
  obtain ⟨s1, s2, s3, s4⟩ := S
  refine ⟨rfl, s1, fun v => ⟨?_, ?_, ?_⟩⟩
  · rintro c i rfl hi
    have := s2 c.mag i rfl hi
    change _ * v.size q.dim = c.mag.elem i * v.size c.dim
    rw [hb c rfl, ← this]; rfl
  · intro i j hi hj hij
    have := s3 i j hi hj hij
    change _ * v.size q.dim = q.mag.elem j * v.size q.dim - q.mag.elem i * v.size q.dim
    rw [← sub_mul, ← this]; rfl
  · rintro c i rfl hi
    have := s4 c.mag i rfl hi
    change _ * v.size q.dim = c.mag.elem i * v.size c.dim
    rw [he c rfl, ← this]; rfl

/-- `cross(a, b)` along the last axes: it returns exactly when these have two or three components and the
other axes can be broadcast; the units are multiplied and every vector of the result is the cross product of
the two physical vectors it lies over (only its third component, if both have two). -/
theorem C131_cross (a b : Quantity K) (ha : DimOK w a.dim) (hb : DimOK w b.dim) (v : Valuation w) :
    let both2 := a.mag.shape.getLastD 0 = 2 ∧ b.mag.shape.getLastD 0 = 2
    (Returns (Umath.cross (.quantity a) (.quantity b)) ↔
      ((a.mag.shape.getLastD 0 = 2 ∨ a.mag.shape.getLastD 0 = 3) ∧
       (b.mag.shape.getLastD 0 = 2 ∨ b.mag.shape.getLastD 0 = 3)) ∧
      Broadcastable a.mag.shape.dropLast b.mag.shape.dropLast) ∧
    (∀ e, Umath.cross (.quantity a) (.quantity b) = .error e → e = .valueError) ∧
    (∀ o, Umath.cross (.quantity a) (.quantity b) = .ok o → ∃ r, o = .quantity r ∧
      (∀ u, expo r.dim u = expo a.dim u + expo b.dim u) ∧
      ∃ s, BroadcastShape a.mag.shape.dropLast b.mag.shape.dropLast s ∧
        (both2 → r.mag.shape = s) ∧ (¬ both2 → r.mag.shape = s ++ [3]) ∧
        ∀ i, InB s i → ∃ j k, Under a.mag.shape.dropLast i j ∧ Under b.mag.shape.dropLast i k ∧
          (both2 → (v.phys r).elem i = crossProduct (vector (v.phys a) j) (vector (v.phys b) k) 2) ∧
          (¬ both2 → ∀ c : Fin 3, (v.phys r).elem (i ++ [(c : Nat)]) =
            crossProduct (vector (v.phys a) j) (vector (v.phys b) k) c)) := by
  intro both2
  obtain ⟨S1, S2, -⟩ := cross_spec a.mag b.mag
  have S3 := (cross_spec (v.phys a) (v.phys b)).2.2
  have hp := C48_cross a b v
  simp only [Umath.cross] at hp ⊢
  rcases hc : a.mag.cross b.mag with e | m
  · rw [hc] at S1 S2
    refine ⟨⟨fun h => absurd h (not_returns_error _), fun h => absurd (S1.mpr h) (not_returns_error _)⟩, ?_, ?_⟩
    · rintro e' he; cases he; exact S2 _ rfl
    · rintro o ho; cases ho
  · rw [hc] at S1 S2 hp
    refine ⟨⟨fun _ => S1.mp ⟨_, rfl⟩, fun _ => ⟨_, rfl⟩⟩, fun e he => (by cases he), ?_⟩
    rintro o ho
    cases ho
    refine ⟨_, rfl, fun u => expo_mul ha.canon.nodup hb.canon.nodup u, ?_⟩
    exact S3 _ hp

/-- `trapz(y, x, axis)` with one-dimensional sample points `x`: for every axis the result is the physical
area by the trapezoidal rule, in the units of `y` times those of `x`. -/
theorem C131_trapz (y x : Quantity K) (dx : Operand K) (ax : Int) (n : Nat) (hy : DimOK w y.dim) (hx : DimOK w x.dim)
    (hn : NamesAxis y.mag.shape.length ax n) (hl : x.mag.shape = [y.mag.shape.getD n 0]) :
    ∃ r : Quantity K, Umath.trapz (.quantity y) (some (.quantity x)) dx ax = .ok (.quantity r) ∧
      (∀ u, expo r.dim u = expo y.dim u + expo x.dim u) ∧ r.mag.shape = y.mag.shape.eraseIdx n ∧
      ∀ (v : Valuation w) (i : List Nat), InB r.mag.shape i → (v.phys r).elem i =
        trapezoids (fun j => (v.phys x).elem [j]) (fun j => (v.phys y).elem (i.insertIdx n j))
          (y.mag.shape.getD n 0 - 1) := by
  obtain ⟨m, m1, m2, -⟩ := trapz_points y.mag x.mag dx.toQuantity.mag ax n hn hl
  have hr : Umath.trapz (.quantity y) (some (.quantity x)) dx ax = .ok (.quantity ⟨m, Dim.mul y.dim x.dim⟩) := by
    rcases dx with dx | dx <;>
    · simp only [Umath.trapz, Option.map_some, Operand.toQuantity] at m1 ⊢
      rw [m1]; rfl
  refine ⟨_, hr, fun u => expo_mul hy.canon.nodup hx.canon.nodup u, m2, fun v i hi => ?_⟩
  have hp := C48_trapz (.quantity y) (some (.quantity x)) dx ax v
  obtain ⟨s, s1, s2, s3⟩ := trapz_points (v.phys y) (v.phys x) (v.physOp dx) ax n hn hl
  rw [hr] at hp
  have hp := s1.symm.trans hp
  simp only [Except.map, Except.ok.injEq, Valuation.physOp] at hp
  rw [← hp]
  exact s3 i (by rw [hp]; exact hi)

/-- `trapz(y, dx=dx, axis)` with a scalar spacing. -/
theorem C131_trapz_spacing (y dx : Quantity K) (ax : Int) (n : Nat) (hy : DimOK w y.dim) (hx : DimOK w dx.dim)
    (hn : NamesAxis y.mag.shape.length ax n) (hl : dx.mag.shape = []) :
    ∃ r : Quantity K, Umath.trapz (.quantity y) none (.quantity dx) ax = .ok (.quantity r) ∧
      (∀ u, expo r.dim u = expo y.dim u + expo dx.dim u) ∧ r.mag.shape = y.mag.shape.eraseIdx n ∧
      ∀ (v : Valuation w) (i : List Nat), InB r.mag.shape i → (v.phys r).elem i =
        trapezoids (fun j => (j : K) * (v.phys dx).elem []) (fun j => (v.phys y).elem (i.insertIdx n j))
          (y.mag.shape.getD n 0 - 1) := by
  obtain ⟨m, m1, m2, -⟩ := trapz_uniform y.mag dx.mag ax n hn hl
  have hr : Umath.trapz (.quantity y) none (.quantity dx) ax = .ok (.quantity ⟨m, Dim.mul y.dim dx.dim⟩) := by
    simp only [Umath.trapz, Option.map_none, Operand.toQuantity]
    rw [m1]; rfl
  refine ⟨_, hr, fun u => expo_mul hy.canon.nodup hx.canon.nodup u, m2, fun v i hi => ?_⟩
  have hp := C48_trapz (.quantity y) none (.quantity dx) ax v
  obtain ⟨s, s1, s2, s3⟩ := trapz_uniform (v.phys y) (v.phys dx) ax n hn hl
  rw [hr] at hp
  simp only [Option.map_none, Valuation.physOp, Except.map] at hp
  rw [show NDArr.trapz (v.phys y) none (v.phys dx) ax = _ from s1] at hp
  simp only [Except.ok.injEq] at hp
  rw [← hp]
  exact s3 i (by rw [hp]; exact hi)

/-- `gradient(f, *distances)` of an array with two or more axes: one array of slopes per axis, with respect to
the physical coordinates that the distance argument for that axis stands for. -/
theorem C131_gradient (f : Quantity K) (hs : List (Operand K)) (h0 : hs ≠ []) (rs : List (Quantity K))
    (hr : Umath.gradient f hs = .ok rs) (v : Valuation w) (hnd : f.mag.shape.length ≠ 1) :
    rs.length = f.mag.shape.length ∧
    ∀ (k : Nat) (r : Quantity K), rs[k]? = some r → r.mag.shape = f.mag.shape ∧
      ∃ d, distanceFor hs k = some d ∧
      ((∀ t u, t < f.mag.shape.getD k 0 → u < f.mag.shape.getD k 0 → t ≠ u →
        coordinate (v.physOp d) t ≠ coordinate (v.physOp d) u) →
      ∀ i, InB f.mag.shape i → SlopeAt (coordinate (v.physOp d)) (fun j => (v.phys f).elem (i.set k j))
        (f.mag.shape.getD k 0) (i.getD k 0) ((v.phys r).elem i)) := by
  have G := (C48_gradient f hs h0 rs hr v).1
  unfold gradientIter at G
  rcases hg : gradient (v.phys f) (v.physOps hs) with e | gs
  · rw [hg] at G; cases G
  · rw [hg] at G
    have hgs : gs = rs.map v.phys := by
      simp only at G
      split at G
      · rename_i heq; exact absurd (congrArg List.length heq) hnd
      · cases G; rfl
    subst hgs
    have h0' : v.physOps hs ≠ [] := by simpa [Valuation.physOps] using h0
    obtain ⟨l1, l2⟩ := gradient_spec h0' hg
    refine ⟨(List.length_map v.phys).symm.trans l1, fun k r hk => ?_⟩
    obtain ⟨g1, d, g2, g3⟩ := l2 k (v.phys r) (by rw [List.getElem?_map, hk]; rfl)
    have : ∃ d', distanceFor hs k = some d' ∧ v.physOp d' = d := by
      unfold distanceFor Valuation.physOps at g2
      rw [List.length_map] at g2
      unfold distanceFor
      split at g2
      · rename_i hone
        rw [if_pos hone]
        rw [List.getElem?_map, Option.map_eq_some_iff] at g2; exact g2
      · rename_i hone
        rw [if_neg hone]
        rw [List.getElem?_map, Option.map_eq_some_iff] at g2; exact g2
    obtain ⟨d', e1, rfl⟩ := this
    exact ⟨g1, d', e1, g3⟩

/-- `gradient(f, distance)` of a one-dimensional array: a list of scalars, the slope at each place. -/
theorem C131_gradient_line (f : Quantity K) (hs : List (Operand K)) (h0 : hs ≠ []) (rs : List (Quantity K))
    (hr : Umath.gradient f hs = .ok rs) (v : Valuation w) (n : Nat) (hnd : f.mag.shape = [n]) :
    rs.length = n ∧ ∃ d, distanceFor hs 0 = some d ∧
      ((∀ t u, t < n → u < n → t ≠ u → coordinate (v.physOp d) t ≠ coordinate (v.physOp d) u) →
      ∀ (j : Nat) (r : Quantity K), rs[j]? = some r → r.mag.shape = [] ∧
        SlopeAt (coordinate (v.physOp d)) (fun t => (v.phys f).elem [t]) n j ((v.phys r).elem [])) := by
  have G := (C48_gradient f hs h0 rs hr v).1
  unfold gradientIter at G
  rcases hg : gradient (v.phys f) (v.physOps hs) with e | gs
  · rw [hg] at G; cases G
  · rw [hg] at G
    have h0' : v.physOps hs ≠ [] := by simpa [Valuation.physOps] using h0
    obtain ⟨l1, l2⟩ := gradient_spec h0' hg
    have hsh : (v.phys f).shape = [n] := hnd
    rw [hsh] at l1 G
    obtain ⟨g, rfl⟩ : ∃ g, gs = [g] := by
      match gs, l1 with
      | [g], _ => exact ⟨g, rfl⟩
    simp only at G
    have hrs : (List.range n).map (fun j => NDArr.scalar (g.elem [j])) = rs.map v.phys := Except.ok.inj G
    have hlen : rs.length = n := by
      have := congrArg List.length hrs; simpa using this.symm
    obtain ⟨g1, d, g2, g3⟩ := l2 0 g rfl
    have : ∃ d', distanceFor hs 0 = some d' ∧ v.physOp d' = d := by
      unfold distanceFor Valuation.physOps at g2
      unfold distanceFor
      simp only [ite_self] at g2 ⊢
      rw [List.getElem?_map, Option.map_eq_some_iff] at g2; exact g2
    obtain ⟨d', e1, rfl⟩ := this
    refine ⟨hlen, d', e1, fun hx j r hj => ?_⟩
    have hjn : j < n := by
      by_contra hc; rw [List.getElem?_eq_none (by omega)] at hj; cases hj
    have hel := congrArg (fun l => l[j]?) hrs
    simp only [List.getElem?_map, List.getElem?_range hjn, hj, Option.map_some, Option.some.injEq] at hel
    have hx' := g3 (by simpa [hsh] using hx) [j] (by rw [hsh]; exact .cons hjn .nil)
    simp only [hsh, List.getD_cons_zero, List.set_cons_zero] at hx'
    have e2 : (v.phys r).elem [] = g.elem [j] := by rw [← hel]; rfl
    refine ⟨?_, by rw [e2]; exact hx'⟩
    have : (v.phys r).shape = [] := by rw [← hel]; rfl
    exact this

/-- C51, in formulas: with the angle in a unit of size 1 (radians) and a scalar discontinuity, every line of
the result along the axis is the unwrapped line of physical angles.  Missing: other angular units, see
`C51_unwrap_false`. -/
theorem C51_unwrap_elements_partial (hw : Reachable h w) {floor : K → K} {period : K} (hpos : 0 < period)
    (hf : ∀ x, ∃ z : ℤ, floor x = z ∧ (z : K) ≤ x ∧ x < z + 1) (p d : Quantity K) (ax : Int) (n : Nat)
    (hp : DimOK w p.dim) (hd : DimOK w d.dim) (hs : HashSafe w d.dim p.dim) (hc : Compatible w d.dim p.dim)
    (h1 : ∀ v : Valuation w, v.size p.dim = 1) (hn : NamesAxis p.mag.shape.length ax n) (hsc : d.mag.shape = []) :
    ∃ r : Quantity K, Umath.unwrap w floor period (.quantity p) (.quantity d) ax = .ok (.quantity r) ∧
      r.dim = p.dim ∧ r.mag.shape = p.mag.shape ∧ ∀ (v : Valuation w) (i : List Nat), InB p.mag.shape i →
        Unwrapped period ((v.phys d).elem []) (p.mag.shape.getD n 0) (fun j => (v.phys p).elem (i.set n j))
          (fun j => (v.phys r).elem (i.set n j)) := by
  obtain ⟨d', hd'⟩ := (rescale_returns hw.wf hd hp hs).2 hc
  have hsh : d'.mag.shape = [] := by rw [(rescale_ok hw.wf hd hp hs hd').1]; exact hsc
  obtain ⟨m, m1, m2, -⟩ := unwrap_spec hpos hf p.mag d'.mag ax n hn hsh
  have hr : Umath.unwrap w floor period (.quantity p) (.quantity d) ax = .ok (.quantity ⟨m, p.dim⟩) := by
    simp only [Umath.unwrap, hd', m1]; rfl
  refine ⟨_, hr, rfl, m2, fun v i hi => ?_⟩
  have hu := (C51_unwrap_partial hw floor period p d _ ax hp hd hs h1 hr v).2
  obtain ⟨s, s1, s2, s3⟩ := unwrap_spec hpos hf (v.phys p) (v.phys d) ax n hn hsc
  rw [s1] at hu
  cases hu
  exact s3 i hi

/-! ### Instances of C131 and C51 -/

/-- Differences along the only axis, the area over sample points in other units, and the cross product of two
vectors: the hypotheses are met. -/
example : (∃ r, Umath.diff exWorld ⟨exTri, dM⟩ 2 (-1) = .ok r ∧ r.mag.shape = [1] ∧
      ∀ v : Valuation exWorld, (v.phys r).elem [0] = 2 * v.size dM) ∧
    (∃ r : Quantity ℝ, Umath.trapz (.quantity ⟨exTri, dM⟩) (some (.quantity ⟨exTri, dS⟩)) (.array (NDArr.scalar 1)) 0
      = .ok (.quantity r) ∧ ∀ v : Valuation exWorld, (v.phys r).elem [] = 8 * (v.size dM * v.size dS)) := by
  constructor
  · obtain ⟨r, h1, -, h3, h4⟩ := C131_diff exWorld ⟨exTri, dM⟩ (-1) 0 ⟨by simp [exTri], by simp [exTri]⟩ 2
    have hsh : r.mag.shape = [1] := h3
    refine ⟨r, h1, hsh, fun v => ?_⟩
    rw [h4 v [0] (by rw [hsh]; exact .cons (by omega) .nil)]
    simp [Finset.sum_range_succ, moved, Valuation.phys, NDArr.map, exTri]
    ring
  · obtain ⟨r, h1, -, h3, h4⟩ := C131_trapz (w := exWorld) ⟨exTri, dM⟩ ⟨exTri, dS⟩ (.array (NDArr.scalar 1)) 0 0
      (ex_dimOK dM (by simp)) (ex_dimOK dS (by simp)) ⟨by simp [exTri], by simp⟩ rfl
    have hsh : r.mag.shape = [] := h3
    refine ⟨r, h1, fun v => ?_⟩
    rw [h4 v [] (by rw [hsh]; exact .nil)]
    simp [trapezoids, Finset.sum_range_succ, Valuation.phys, NDArr.map, exTri]
    ring

/-- Slopes of `0, 1, 4` at distances of 2 s, and the coordinates `0, 1, 4`: the hypotheses are met. -/
example : ∃ rs, Umath.gradient (K := ℝ) ⟨exTri, dM⟩ [.quantity ⟨NDArr.scalar 2, dS⟩] = .ok rs ∧ rs.length = 3 :=
  ⟨_, rfl, rfl⟩

example (v : Valuation exWorld) : ∀ t u, t < 3 → u < 3 → t ≠ u →
    coordinate (v.physOp (.quantity ⟨NDArr.scalar 2, dS⟩)) t ≠
      coordinate (v.physOp (.quantity ⟨NDArr.scalar 2, dS⟩)) u := by
  have hp := v.size_pos dS
  have hc : ∀ j : Nat, coordinate (v.physOp (.quantity ⟨NDArr.scalar 2, dS⟩)) j = (j : ℝ) * (2 * v.size dS) := fun j => rfl
  intro t u _ _ htu
  rw [hc, hc]
  intro he
  have := mul_right_cancel₀ (by positivity) he
  exact htu (by exact_mod_cast this)

example (v : Valuation exWorld) : ∀ t u, t < 3 → u < 3 → t ≠ u →
    coordinate (v.physOp (.quantity ⟨exTri, dS⟩)) t ≠ coordinate (v.physOp (.quantity ⟨exTri, dS⟩)) u := by
  have hp := v.size_pos dS
  have hc : ∀ j, coordinate (v.physOp (.quantity ⟨exTri, dS⟩)) j = exTri.elem [j] * v.size dS := fun j => rfl
  intro t u ht hu htu
  rw [hc, hc]
  intro he
  have := mul_right_cancel₀ hp.ne' he
  interval_cases t <;> interval_cases u <;> simp_all [exTri]

/-- The floor of the reals meets the hypothesis of `C51_unwrap_elements_partial`. -/
example : ∀ x : ℝ, ∃ z : ℤ, (pfloor x : ℝ) = z ∧ (z : ℝ) ≤ x ∧ x < z + 1 :=
  fun x => ⟨⌊x⌋, rfl, Int.floor_le x, Int.lt_floor_add_one x⟩

/-! ## C132: positions -/

/-- `q.nonzero()` lists, in row-major order and each once, exactly the places where the physical value is not
zero. -/
theorem C132_nonzero (q : Quantity K) (v : Valuation w) :
    (∀ i, i ∈ q.nonzero ↔ InB q.mag.shape i ∧ (v.phys q).elem i ≠ 0) ∧
    q.nonzero.Pairwise (fun i j => rowMajor q.mag.shape i < rowMajor q.mag.shape j) := by
  constructor
  · intro i
    unfold Quantity.nonzero NDArr.nonzero
    rw [List.mem_filter, mem_indices]
    simp only [decide_eq_true_eq, Valuation.phys, NDArr.map, ne_eq, mul_eq_zero, (v.size_pos q.dim).ne', or_false]
  · unfold Quantity.nonzero NDArr.nonzero
    apply List.Pairwise.filter
    rw [List.pairwise_iff_getElem]
    intro a b ha hb hab
    have h1 := (rowMajor_of_getElem? (List.getElem?_eq_getElem ha)).2
    have h2 := (rowMajor_of_getElem? (List.getElem?_eq_getElem hb)).2
    rw [h1, h2]; exact hab

omit [IsStrictOrderedRing K] [RPow K] [LawfulRPow K] in
theorem sorted_positions {alg : NDArr.SortAlg} (halg : CorrectSort K alg) {n : Nat} {t : Nat → Nat → Bool} {f : Nat → K}
    (ht : ∀ j k, j < n → k < n → t j k = decide (f j < f k)) :
    (∀ j < n, (alg n t).getD j 0 < n) ∧ (∀ j k, j < k → k < n → f ((alg n t).getD j 0) ≤ f ((alg n t).getD k 0)) ∧
    (∀ j k, j < n → k < n → (alg n t).getD j 0 = (alg n t).getD k 0 → j = k) := by
  obtain ⟨h1, h2⟩ := halg n t f ht
  have hl : (alg n t).length = n := by rw [h1.length_eq, List.length_range]
  have hg : ∀ j (hj : j < n), (alg n t).getD j 0 = (alg n t)[j]'(lt_of_lt_of_eq hj hl.symm) := fun j hj => by
    rw [List.getD_eq_getElem?_getD, List.getElem?_eq_getElem (lt_of_lt_of_eq hj hl.symm)]; rfl
  refine ⟨fun j hj => ?_, fun j k hjk hk => ?_, fun j k hj hk e => ?_⟩
  · rw [hg j hj]
    exact List.mem_range.mp (h1.mem_iff.mp (List.getElem_mem _))
  · rw [hg j (by omega), hg k hk]
    exact List.pairwise_iff_getElem.mp h2 j k (by omega) (by omega) hjk
  · rw [hg j hj, hg k hk] at e
    exact (h1.nodup_iff.mpr List.nodup_range).getElem_inj_iff.mp e

/-- `q.argsort(axis)` with any correct comparison sort: along every line the positions are all different and
put the physical values in ascending order. -/
theorem C132_argsort (alg : NDArr.SortAlg) (halg : CorrectSort K alg) (q : Quantity K) (ax : Int) (n : Nat)
    (hn : NamesAxis q.mag.shape.length ax n) :
    ∃ r, q.argsort alg (.one ax) = .ok r ∧ r.shape = q.mag.shape ∧ ∀ (v : Valuation w) (i : List Nat), InB q.mag.shape i →
      (∀ j, j < q.mag.shape.getD n 0 → r.elem (i.set n j) < q.mag.shape.getD n 0) ∧
      (∀ j k, j < q.mag.shape.getD n 0 → k < q.mag.shape.getD n 0 → r.elem (i.set n j) = r.elem (i.set n k) → j = k) ∧
      (∀ j k, j < k → k < q.mag.shape.getD n 0 →
        (v.phys q).elem (i.set n (r.elem (i.set n j))) ≤ (v.phys q).elem (i.set n (r.elem (i.set n k)))) := by
  unfold Quantity.argsort NDArr.argsort
  simp only [normAxis_ok.mpr hn]
  refine ⟨_, rfl, rfl, fun v i hi => ?_⟩
  have hli : n < i.length := by rw [hi.length_eq]; exact hn.1
  have hset : ∀ j, (i.set n j).getD n 0 = j := fun j => getD_set hli
  simp only [List.set_set, hset]
  obtain ⟨s1, s2, s3⟩ := sorted_positions halg (n := q.mag.shape.getD n 0)
    (t := fun j k => decide (q.mag.elem (i.set n j) < q.mag.elem (i.set n k)))
    (f := fun j => q.mag.elem (i.set n j)) (fun _ _ _ _ => rfl)
  refine ⟨s1, s3, fun j k hjk hk => ?_⟩
  exact mul_le_mul_of_nonneg_right (s2 j k hjk hk) (v.size_pos q.dim).le

/-- `q.argsort(axis=None)`: the row-major numbers of the elements in ascending order of physical value. -/
theorem C132_argsort_flat (alg : NDArr.SortAlg) (halg : CorrectSort K alg) (q : Quantity K) :
    ∃ r, q.argsort alg .all = .ok r ∧ r.shape = [q.mag.size] ∧ ∀ v : Valuation w,
      (∀ j, j < q.mag.size → ∃ i, InB q.mag.shape i ∧ r.elem [j] = rowMajor q.mag.shape i) ∧
      (∀ j k, j < q.mag.size → k < q.mag.size → r.elem [j] = r.elem [k] → j = k) ∧
      (∀ j k i i', j < k → k < q.mag.size → InB q.mag.shape i → InB q.mag.shape i' →
        r.elem [j] = rowMajor q.mag.shape i → r.elem [k] = rowMajor q.mag.shape i' →
        (v.phys q).elem i ≤ (v.phys q).elem i') := by
  unfold Quantity.argsort NDArr.argsort
  refine ⟨_, rfl, rfl, fun v => ?_⟩
  have hlen : q.mag.toList.length = q.mag.size := toList_length _
  obtain ⟨s1, s2, s3⟩ := sorted_positions halg (n := q.mag.size) (t := cmpAt q.mag.toList)
    (f := fun j => q.mag.toList.getD j 0) (fun j k hj hk => by
      unfold cmpAt
      rw [List.getElem?_eq_getElem (by omega), List.getElem?_eq_getElem (by omega)]
      simp only [List.getD_eq_getElem?_getD, List.getElem?_eq_getElem (show j < q.mag.toList.length by omega),
        List.getElem?_eq_getElem (show k < q.mag.toList.length by omega), Option.getD_some])
  simp only [List.headD_cons]
  refine ⟨fun j hj => ?_, s3, fun j k i i' hjk hk hi hi' e e' => ?_⟩
  · have hlt := s1 j hj
    have hlt' : (alg q.mag.size (cmpAt q.mag.toList)).getD j 0 < (indices q.mag.shape).length := by
      rw [indices_length]; exact hlt
    obtain ⟨h1, h2⟩ := rowMajor_of_getElem? (List.getElem?_eq_getElem hlt')
    exact ⟨_, h1, h2.symm⟩
  · have := s2 j k hjk hk
    rw [e, e'] at this
    simp only [List.getD_eq_getElem?_getD, toList_at q.mag hi, toList_at q.mag hi', Option.getD_some] at this
    exact mul_le_mul_of_nonneg_right this (v.size_pos q.dim).le

/-- A correct comparison sort: merge sort of the positions. -/
def exSort : NDArr.SortAlg := fun n t =>
  (List.range n).mergeSort (fun a b => decide (n ≤ b) || (decide (a < n) && !t b a))

omit [Field K] [IsStrictOrderedRing K] [RPow K] [LawfulRPow K] in
theorem exSort_correct : CorrectSort K exSort := by
  intro n t f ht
  have hle : ∀ a b, (decide (n ≤ b) || (decide (a < n) && !t b a)) = true ↔ (n ≤ b ∨ (a < n ∧ b < n ∧ f a ≤ f b)) := by
    intro a b
    by_cases hb : n ≤ b
    · simp [hb]
    · by_cases ha : a < n
      · simp [hb, ha, ht b a (by omega) ha, not_lt]; omega
      · simp [hb, ha]
  refine ⟨List.mergeSort_perm _ _, ?_⟩
  have hp := List.pairwise_mergeSort (le := fun a b => decide (n ≤ b) || (decide (a < n) && !t b a))
    (by
      intro a b c h1 h2
      rw [hle] at h1 h2 ⊢
      rcases h2 with h2 | ⟨hb, hc, h2⟩
      · exact .inl h2
      · rcases h1 with h1 | ⟨ha, -, h1⟩
        · omega
        · exact .inr ⟨ha, hc, h1.trans h2⟩)
    (by
      intro a b
      rw [Bool.or_eq_true, hle, hle]
      rcases Nat.lt_or_ge a n with ha | ha
      · rcases Nat.lt_or_ge b n with hb | hb
        · rcases le_total (f a) (f b) with h | h
          · exact .inl (.inr ⟨ha, hb, h⟩)
          · exact .inr (.inr ⟨hb, ha, h⟩)
        · exact .inl (.inl hb)
      · exact .inr (.inl ha)) (List.range n)
  refine hp.imp_of_mem ?_
  intro a b ha hb hab
  rw [hle] at hab
  have hb' : b < n := List.mem_range.mp ((List.mergeSort_perm _ _).mem_iff.mp hb)
  rcases hab with h | h
  · omega
  · exact h.2.2

end PQ
