import Verif.Lemmas.Complex
import Verif.Props.Arithmetic
import Verif.Props.Conversion
import Verif.Props.Construct

/-!
# Properties C98, C99: complex quantities
-/

namespace PQ

open Dict World

variable {h : Hasher} {w : World ℝ}

/-- C98: `q.real` and `q.imag` are the real and imaginary parts of the physical value, in the units of `q`. -/
theorem C98_parts (q : Quantity ℂ) : q.real.dim = q.dim ∧ q.imag.dim = q.dim ∧
    ∀ v : Valuation w, v.phys q.real = (v.cphys q).map Complex.re ∧ v.phys q.imag = (v.cphys q).map Complex.im :=
  ⟨rfl, rfl, fun v => ⟨(cx_phys_re v q).symm, (cx_phys_im v q).symm⟩⟩

/-- C98: `rescale` of a complex quantity keeps its physical value, and succeeds exactly when the units are
compatible (otherwise `ValueError`). -/
theorem C98_rescale (hw : Reachable h w) (q : Quantity ℂ) (d : Dim) (hq : DimOK w q.dim) (hd : DimOK w d)
    (hs : HashSafe w q.dim d) :
    (Returns (q.rescale w.cx d) ↔ Compatible w q.dim d) ∧
    (∀ e, q.rescale w.cx d = .error e → e = .valueError) ∧
    ∀ r, q.rescale w.cx d = .ok r → SameContent r.dim d ∧ r.mag.shape = q.mag.shape ∧
      ∀ v : Valuation w, v.cphys r = v.cphys q := by
  have h1 := cx_rescale hw.wf hq hd Complex.re re_mul
  have h2 := cx_rescale hw.wf hq hd Complex.im im_mul
  refine ⟨?_, fun e he => ?_, fun r hr => ?_⟩
  · rw [← py_map_returns (f := partQ Complex.re), h1]
    exact rescale_returns (q := partQ Complex.re q) hw.wf hq hd hs
  · rw [← py_map_error (f := partQ Complex.re), h1] at he
    exact rescale_error he
  · rw [hr] at h1 h2
    obtain ⟨k1, k2, k3⟩ := C09_rescale_preserves_value hw (partQ Complex.re q) _ d hq hd hs h1.symm
    obtain ⟨l1, -, -⟩ := C09_rescale_preserves_value hw (partQ Complex.im q) _ d hq hd hs h2.symm
    refine ⟨k3, k2, fun v => cx_ext ?_ ?_⟩
    · rw [cx_phys_re, cx_phys_re]; exact k1 v
    · rw [cx_phys_im, cx_phys_im]; exact l1 v

/-- C98: conversion acts on the parts: `q.rescale(d).real` is `q.real.rescale(d)`, also when it raises. -/
theorem C98_rescale_parts (hw : Reachable h w) (q : Quantity ℂ) (d : Dim) (hq : DimOK w q.dim) (hd : DimOK w d) :
    (q.rescale w.cx d).map Quantity.real = q.real.rescale w d ∧
    (q.rescale w.cx d).map Quantity.imag = q.imag.rescale w d :=
  ⟨cx_rescale hw.wf hq hd Complex.re re_mul, cx_rescale hw.wf hq hd Complex.im im_mul⟩

private theorem sum_parts (hw : WF w) (a : Quantity ℂ) (b : Operand ℂ) (ha : DimOK w a.dim) (hb : DimOK w b.dim)
    (f : ℂ → ℝ) (hf : ∀ (c : ℝ) (z : ℂ), f (c * z) = c * f z) (hadd : ∀ x y, f (x + y) = f x + f y)
    (hsub : ∀ x y, f (x - y) = f x - f y) :
    (a.add w.cx b).map (partQ f) = (partQ f a).add w (partOp f b) ∧
    (a.sub w.cx b).map (partQ f) = (partQ f a).sub w (partOp f b) := by
  have hs := cx_scaleOther hw ha hb f hf
  unfold Quantity.add Quantity.sub
  rw [← hs]
  rcases Quantity.scaleOther w.cx a b with e | o
  · exact ⟨rfl, rfl⟩
  · exact ⟨cx_uf2 f _ _ hadd .add (fun _ _ => rfl) (fun _ _ => rfl),
      cx_uf2 f _ _ hsub .subtract (fun _ _ => rfl) (fun _ _ => rfl)⟩

/-- Assembling the real and imaginary parts of a sum-like operation. -/
private theorem sum_values {a : Quantity ℂ} {b : Operand ℂ} {res : Py (Quantity ℂ)} {x y : Py (Quantity ℝ)}
    {g : ℂ → ℂ → ℂ} {g' : ℝ → ℝ → ℝ} (hre : ∀ x y, (g x y).re = g' x.re y.re) (him : ∀ x y, (g x y).im = g' x.im y.im)
    {c : Prop}
    (h1 : res.map (partQ Complex.re) = x) (h2 : res.map (partQ Complex.im) = y)
    (k1 : (Returns x ↔ c ∧ (NDArr.bshape (partQ Complex.re a).mag.shape (partOp Complex.re b).arr.shape).isSome) ∧
      (∀ e, x = .error e → e = .valueError) ∧
      (∀ r, x = .ok r → SameContent r.dim a.dim ∧ ∀ v : Valuation w,
        NDArr.bin g' (v.phys (partQ Complex.re a)) (v.physOp (partOp Complex.re b)) = .ok (v.phys r)))
    (k2 : ∀ r, y = .ok r → ∀ v : Valuation w,
        NDArr.bin g' (v.phys (partQ Complex.im a)) (v.physOp (partOp Complex.im b)) = .ok (v.phys r)) :
    (Returns res ↔ c ∧ (NDArr.bshape a.mag.shape b.arr.shape).isSome) ∧
    (∀ e, res = .error e → e = .valueError) ∧
    (∀ r, res = .ok r → SameContent r.dim a.dim ∧
      ∀ v : Valuation w, NDArr.bin g (v.cphys a) (v.cphysOp b) = .ok (v.cphys r)) := by
  refine ⟨?_, fun e he => ?_, fun r hr => ?_⟩
  · rw [← py_map_returns (f := partQ Complex.re), h1, k1.1, partOp_shape]; rfl
  · rw [← py_map_error (f := partQ Complex.re), h1] at he
    exact k1.2.1 e he
  · rw [hr] at h1 h2
    obtain ⟨m1, m2⟩ := k1.2.2 _ h1.symm
    have n2 := k2 _ h2.symm
    refine ⟨m1, fun v => ?_⟩
    have p1 := m2 v
    have p2 := n2 v
    rw [← cx_phys_re, ← cx_physOp_re, ← cx_phys_re, NDArr.bin_map,
      ← NDArr.bin_congr hre, ← NDArr.map_bin g Complex.re] at p1
    rw [← cx_phys_im, ← cx_physOp_im, ← cx_phys_im, NDArr.bin_map,
      ← NDArr.bin_congr him, ← NDArr.map_bin g Complex.im] at p2
    obtain ⟨m, q1, q2⟩ := py_map_ok p1
    obtain ⟨m', q1', q2'⟩ := py_map_ok p2
    rw [q1] at q1'
    cases q1'
    rw [q1, cx_ext q2 q2']

/-- C98: `a + b` for complex quantities: defined exactly when the units are compatible and the shapes broadcast
(otherwise `ValueError`); in the units of `a`, with the sum as physical value. -/
theorem C98_add (hw : Reachable h w) (a : Quantity ℂ) (b : Operand ℂ) (ha : DimOK w a.dim) (hb : DimOK w b.dim)
    (hs : HashSafe w b.dim a.dim) :
    (Returns (a.add w.cx b) ↔ Compatible w b.dim a.dim ∧ (NDArr.bshape a.mag.shape b.arr.shape).isSome) ∧
    (∀ e, a.add w.cx b = .error e → e = .valueError) ∧
    (∀ r, a.add w.cx b = .ok r → SameContent r.dim a.dim ∧
      ∀ v : Valuation w, NDArr.bin (· + ·) (v.cphys a) (v.cphysOp b) = .ok (v.cphys r)) := by
  have hre := C13_add hw (partQ Complex.re a) (partOp Complex.re b) ha (by rw [partOp_dim]; exact hb)
    (by rw [partOp_dim]; exact hs)
  have him := C13_add hw (partQ Complex.im a) (partOp Complex.im b) ha (by rw [partOp_dim]; exact hb)
    (by rw [partOp_dim]; exact hs)
  rw [partOp_dim] at hre him
  exact sum_values (g := (· + ·)) (g' := (· + ·)) Complex.add_re Complex.add_im
    (sum_parts hw.wf a b ha hb Complex.re re_mul Complex.add_re Complex.sub_re).1
    (sum_parts hw.wf a b ha hb Complex.im im_mul Complex.add_im Complex.sub_im).1 hre
    (fun r hr => (him.2.2 r hr).2)

/-- C98: `a - b`. -/
theorem C98_sub (hw : Reachable h w) (a : Quantity ℂ) (b : Operand ℂ) (ha : DimOK w a.dim) (hb : DimOK w b.dim)
    (hs : HashSafe w b.dim a.dim) :
    (Returns (a.sub w.cx b) ↔ Compatible w b.dim a.dim ∧ (NDArr.bshape a.mag.shape b.arr.shape).isSome) ∧
    (∀ e, a.sub w.cx b = .error e → e = .valueError) ∧
    (∀ r, a.sub w.cx b = .ok r → SameContent r.dim a.dim ∧
      ∀ v : Valuation w, NDArr.bin (· - ·) (v.cphys a) (v.cphysOp b) = .ok (v.cphys r)) := by
  have hre := C13_sub hw (partQ Complex.re a) (partOp Complex.re b) ha (by rw [partOp_dim]; exact hb)
    (by rw [partOp_dim]; exact hs)
  have him := C13_sub hw (partQ Complex.im a) (partOp Complex.im b) ha (by rw [partOp_dim]; exact hb)
    (by rw [partOp_dim]; exact hs)
  rw [partOp_dim] at hre him
  exact sum_values (g := (· - ·)) (g' := (· - ·)) Complex.sub_re Complex.sub_im
    (sum_parts hw.wf a b ha hb Complex.re re_mul Complex.add_re Complex.sub_re).2
    (sum_parts hw.wf a b ha hb Complex.im im_mul Complex.add_im Complex.sub_im).2 hre
    (fun r hr => (him.2.2 r hr).2)

/-- C98: sums act on the parts: `(a + b).real` is `a.real + b.real`, also when it raises. -/
theorem C98_add_parts (hw : Reachable h w) (a b : Quantity ℂ) (ha : DimOK w a.dim) (hb : DimOK w b.dim) :
    (a.add w.cx (.quantity b)).map Quantity.real = a.real.add w (.quantity b.real) ∧
    (a.add w.cx (.quantity b)).map Quantity.imag = a.imag.add w (.quantity b.imag) :=
  ⟨(sum_parts hw.wf a (.quantity b) ha hb Complex.re re_mul Complex.add_re Complex.sub_re).1,
    (sum_parts hw.wf a (.quantity b) ha hb Complex.im im_mul Complex.add_im Complex.sub_im).1⟩

/-- Products and quotients. -/
private theorem prod_values (a b : Operand ℂ) (f : UF2) (g : ℂ → ℂ → ℂ) (k : ℚ → ℚ → ℚ) {d : Dim}
    (hd : ufunc2Dim w.cx f a b = .ok d) (hok : DimOK w d)
    (he : ∀ u, expo d u = k (expo a.dim u) (expo b.dim u))
    (hg : ∀ (v : Valuation w) (x y : ℂ), g (x * v.size a.dim) (y * v.size b.dim) = g x y * v.size d) :
    (Returns (applyUF2 w.cx f g a b) ↔ (NDArr.bshape a.arr.shape b.arr.shape).isSome) ∧
    (∀ r, applyUF2 w.cx f g a b = .ok r →
      DimOK w r.dim ∧ (∀ u, expo r.dim u = k (expo a.dim u) (expo b.dim u)) ∧
      ∀ v : Valuation w, NDArr.bin g (v.cphysOp a) (v.cphysOp b) = .ok (v.cphys r)) := by
  have h1 := NDArr.bin_ok_iff g a.arr b.arr
  have hop : ∀ (v : Valuation w) (o : Operand ℂ), v.cphysOp o = o.arr.map (fun z => z * (v.size o.dim : ℂ)) := by
    intro v o
    cases o with
    | quantity q => rfl
    | array m => exact (NDArr.map_id' (fun x => by simp [Operand.dim, Valuation.size]) _).symm
  unfold applyUF2
  rw [hd]
  simp only
  rcases hbin : NDArr.bin g a.arr b.arr with e | m
  · rw [hbin] at h1
    exact ⟨⟨fun h => absurd h (not_returns_error _), fun h => absurd (h1.2 h) (not_returns_error _)⟩,
      fun r hr => by cases hr⟩
  · rw [hbin] at h1
    refine ⟨⟨fun _ => h1.1 (returns_ok _), fun _ => returns_ok _⟩, fun r hr => ?_⟩
    cases hr
    refine ⟨hok, he, fun v => ?_⟩
    rw [hop, hop, NDArr.bin_map, NDArr.bin_congr (hg v), ← NDArr.map_bin g (fun z => z * (v.size d : ℂ)), hbin]
    rfl

/-- C98: `a * b` for complex quantities: only the shapes matter, exponents add and the physical value is the
product. -/
theorem C98_mul (a : Quantity ℂ) (b : Operand ℂ) (ha : DimOK w a.dim) (hb : DimOK w b.dim) :
    (Returns (a.mul w.cx b) ↔ (NDArr.bshape a.mag.shape b.arr.shape).isSome) ∧
    (∀ r, a.mul w.cx b = .ok r → DimOK w r.dim ∧ (∀ u, expo r.dim u = expo a.dim u + expo b.dim u) ∧
      ∀ v : Valuation w, NDArr.bin (· * ·) (v.cphys a) (v.cphysOp b) = .ok (v.cphys r)) := by
  cases b with
  | quantity q =>
    exact prod_values (.quantity a) (.quantity q) .multiply (· * ·) (· + ·) rfl (ha.mul hb)
      (fun u => expo_mul ha.canon.nodup hb.canon.nodup u) (fun v x y => by
        have := dsize_mul v.pos a.dim q.dim
        simp only [Valuation.size, Operand.dim, this, Complex.ofReal_mul]; ring)
  | array x =>
    exact prod_values (.quantity a) (.array x) .multiply (· * ·) (· + ·) rfl ha
      (fun u => by simp [Operand.dim]) (fun v x y => by
        simp only [Valuation.size, Operand.dim, dsize_nil, Complex.ofReal_one]; ring)

/-- C98: `a / b`. -/
theorem C98_truediv (a : Quantity ℂ) (b : Operand ℂ) (ha : DimOK w a.dim) (hb : DimOK w b.dim) :
    (Returns (a.truediv w.cx b) ↔ (NDArr.bshape a.mag.shape b.arr.shape).isSome) ∧
    (∀ r, a.truediv w.cx b = .ok r → DimOK w r.dim ∧ (∀ u, expo r.dim u = expo a.dim u - expo b.dim u) ∧
      ∀ v : Valuation w, NDArr.bin (· / ·) (v.cphys a) (v.cphysOp b) = .ok (v.cphys r)) := by
  cases b with
  | quantity q =>
    exact prod_values (.quantity a) (.quantity q) .trueDivide (· / ·) (· - ·) rfl (ha.div hb)
      (fun u => expo_div ha.canon.nodup hb.canon.nodup u) (fun v x y => by
        have := dsize_div v.pos a.dim q.dim
        simp only [Valuation.size, Operand.dim, this, Complex.ofReal_div]; exact mul_div_mul_comm _ _ _ _)
  | array x =>
    exact prod_values (.quantity a) (.array x) .trueDivide (· / ·) (· - ·) rfl ha
      (fun u => by simp [Operand.dim]) (fun v x y => by
        simp only [Valuation.size, Operand.dim, dsize_nil, Complex.ofReal_one, mul_one]; ring)

/-- C98: `conjugate` keeps the units and conjugates the physical value; `abs` keeps the units and gives the modulus of
the physical value. -/
theorem C98_conj_abs (q : Quantity ℂ) :
    (∃ r, q.conjugate w = .ok r ∧ r.dim = q.dim ∧ ∀ v : Valuation w, v.cphys r = (v.cphys q).map (starRingEnd ℂ)) ∧
    (∃ r, q.absolute w = .ok r ∧ r.dim = q.dim ∧ ∀ v : Valuation w, v.phys r = (v.cphys q).map (fun z => ‖z‖)) := by
  refine ⟨⟨⟨q.mag.map (starRingEnd ℂ), q.dim⟩, rfl, rfl, fun v => ?_⟩,
    ⟨⟨q.mag.map (fun z => ‖z‖), q.dim⟩, rfl, rfl, fun v => ?_⟩⟩
  · unfold Valuation.cphys
    rw [NDArr.map_map, NDArr.map_map]
    exact NDArr.map_congr (fun z => by simp) _
  · unfold Valuation.cphys Valuation.phys
    rw [NDArr.map_map, NDArr.map_map]
    refine NDArr.map_congr (fun z => ?_) _
    have := v.size_pos q.dim
    simp [abs_of_pos this]

/-- C98: `a == b` compares physical values when the units are compatible. -/
theorem C98_eq (hw : Reachable h w) (a b : Quantity ℂ) (ha : DimOK w a.dim) (hb : DimOK w b.dim)
    (hs : HashSafe w b.dim a.dim) (hc : Compatible w b.dim a.dim) (v : Valuation w) :
    a.eq w.cx (.quantity b) = NDArr.bin (fun x y => decide (x = y)) (v.cphys a) (v.cphys b) := by
  obtain ⟨h1, -, h3⟩ := C98_rescale hw b a.dim hb ha hs
  obtain ⟨o, ho⟩ := h1.2 hc
  obtain ⟨k1, k2, k3⟩ := h3 o ho
  have hod : DimOK w o.dim := by
    have h1 := cx_rescale hw.wf hb ha Complex.re re_mul
    rw [ho] at h1
    exact (rescale_ok (q := partQ Complex.re b) hw.wf hb ha hs h1.symm).2.2.1
  rw [← k3 v]
  have e : a.eq w.cx (.quantity b) = NDArr.bin (fun x y => decide (x = y)) a.mag o.mag := by
    simp only [Quantity.eq, ho]
  rw [e]
  unfold Valuation.cphys
  rw [NDArr.bin_map]
  have hsz : v.size o.dim = v.size a.dim := dsize_same v.val hod.canon.nodup ha.canon.nodup k1
  have hne : (v.size a.dim : ℂ) ≠ 0 := by exact_mod_cast (v.size_pos a.dim).ne'
  refine NDArr.bin_congr (fun x y => ?_) _ _
  rw [hsz]
  by_cases hxy : x = y
  · simp [hxy]
  · have : ¬ (x * (v.size a.dim : ℂ) = y * (v.size a.dim : ℂ)) := fun hh => hxy (mul_right_cancel₀ hne hh)
    simp [hxy, this]

/-! ## C99 -/

theorem castTo_map_cx {α β : Type} (f : α → β) (s : List Nat) (m : NDArr α) :
    Heap.castTo s (m.map f) = (Heap.castTo s m).map (NDArr.map f) := by
  have e : ∀ {γ : Type} (x : NDArr γ), Heap.castTo s x =
      if NDArr.bshape (x.shape.drop (Heap.dropOnes s.length x.shape)) s = some s then
        .ok ⟨s, fun i => x.elem (List.replicate (Heap.dropOnes s.length x.shape) 0 ++
          NDArr.bidx (x.shape.drop (Heap.dropOnes s.length x.shape)) i)⟩
      else .error .valueError := fun _ => rfl
  by_cases hb : NDArr.bshape (m.shape.drop (Heap.dropOnes s.length m.shape)) s = some s
  · rw [e m, if_pos hb, e (m.map f)]
    exact if_pos hb
  · rw [e m, if_neg hb, e (m.map f)]
    exact if_neg hb

/-- C99: a successful `q.real = x` keeps the units and the imaginary part, and the real part becomes the physical value
of `x` broadcast to the shape of `q`; likewise `q.imag = x` (for a `q` that is not dimensionless, see
`C99_dimensionless_false`).  It raises `ValueError`, changing nothing, exactly when the units are
incompatible or `x` does not broadcast to the shape of `q`. -/
theorem C99_set_parts_partial (P : List Char → Py PyAST) (F : PyOps ℝ) (hw : Reachable h w) (q : Quantity ℂ)
    (x : Quantity ℝ) (hq : DimOK w q.dim) (hx : DimOK w x.dim) (hs : HashSafe w x.dim q.dim) (hne : q.dim ≠ [])
    (v : Valuation w) :
    (∀ a, Compatible w x.dim q.dim → Heap.castTo q.mag.shape (v.phys x) = .ok a →
      (∃ q', q.setReal P F w (.nested (.leaf (.quantity x))) = (none, q') ∧ q'.dim = q.dim ∧ q'.imag = q.imag ∧
        v.phys q'.real = a) ∧
      (∃ q', q.setImag P F w (.nested (.leaf (.quantity x))) = (none, q') ∧ q'.dim = q.dim ∧ q'.real = q.real ∧
        v.phys q'.imag = a)) ∧
    ((¬ Compatible w x.dim q.dim ∨ ¬ Returns (Heap.castTo q.mag.shape (v.phys x))) →
      q.setReal P F w (.nested (.leaf (.quantity x))) = (some .valueError, q) ∧
      q.setImag P F w (.nested (.leaf (.quantity x))) = (some .valueError, q)) := by
  have htruth : (UnitsArg.dim q.dim : UnitsArg ℝ).truth = .ok true := by
    show Except.ok (!q.dim.isEmpty) = _
    cases hd : q.dim with
    | nil => exact absurd hd hne
    | cons _ _ => rfl
  obtain ⟨c1, c2⟩ := C97_quantity (P := P) (F := F) hw x (.dim q.dim) q.dim htruth rfl hx hq hs
  have hcast : ∀ r : Quantity ℝ, (∀ v : Valuation w, v.phys r = v.phys x) → SameContent r.dim q.dim → DimOK w r.dim →
      Heap.castTo q.mag.shape (v.phys x) =
        (Heap.castTo q.mag.shape r.mag).map (NDArr.map (fun y => y * v.size q.dim)) := by
    intro r hr hsame hrd
    rw [← hr v, Valuation.phys, castTo_map_cx]
    congr 2
    funext y
    rw [show v.size r.dim = v.size q.dim from dsize_same v.val hrd.canon.nodup hq.canon.nodup hsame]
  have hok : ∀ r, Quantity.new P F w (.nested (.leaf (.quantity x))) (.dim q.dim) = .ok r → DimOK w r.dim := by
    intro r hr
    have e : x.rescale w q.dim = .ok r := by
      rw [← hr]
      show _ = x.newFromQuantity P F w (.dim q.dim)
      unfold Quantity.newFromQuantity
      rw [htruth]
      rfl
    exact (rescale_ok hw.wf hx hq hs e).2.2.1
  refine ⟨fun a hc ha => ?_, fun hbad => ?_⟩
  · obtain ⟨r, hr, hrd, -, hrp⟩ := c1 hc
    rw [hcast r hrp hrd (hok r hr)] at ha
    obtain ⟨b, hb, rfl⟩ := py_map_ok ha
    have hv : q.partValues P F w (.nested (.leaf (.quantity x))) = .ok b := by
      unfold Quantity.partValues
      rw [hr]; exact hb
    have hbs : b.shape = q.mag.shape := by
      unfold Heap.castTo at hb
      simp only at hb
      split at hb
      · cases hb; rfl
      · cases hb
    refine ⟨⟨⟨⟨q.mag.shape, fun i => ⟨b.elem i, (q.mag.elem i).im⟩⟩, q.dim⟩, by unfold Quantity.setReal; rw [hv], rfl, rfl, ?_⟩,
      ⟨⟨⟨q.mag.shape, fun i => ⟨(q.mag.elem i).re, b.elem i⟩⟩, q.dim⟩, by unfold Quantity.setImag; rw [hv], rfl, rfl, ?_⟩⟩
    · exact NDArr.ext' hbs.symm rfl
    · exact NDArr.ext' hbs.symm rfl
  · have hv : q.partValues P F w (.nested (.leaf (.quantity x))) = .error .valueError := by
      unfold Quantity.partValues
      by_cases hc : Compatible w x.dim q.dim
      · obtain ⟨r, hr, hrd, -, hrp⟩ := c1 hc
        rw [hr]
        have hb := hbad.resolve_left (fun hn => hn hc)
        rw [hcast r hrp hrd (hok r hr), py_map_returns] at hb
        simp only
        unfold Heap.castTo at hb ⊢
        simp only at hb ⊢
        split at hb
        · exact absurd (returns_ok _) hb
        · rename_i hbs
          rw [if_neg hbs]
      · rw [c2 hc]
    unfold Quantity.setReal Quantity.setImag
    rw [hv]
    exact ⟨rfl, rfl⟩

/-- C99: plain numbers are taken in the units of `q`. -/
theorem C99_set_numbers (P : List Char → Py PyAST) (F : PyOps ℝ) (q : Quantity ℂ) (a b : NDArr ℝ)
    (hb : Heap.castTo q.mag.shape a = .ok b) :
    (∃ q', q.setReal P F w (.nested (.leaf (.array a))) = (none, q') ∧ q'.dim = q.dim ∧ q'.imag = q.imag ∧
      q'.real = ⟨b, q.dim⟩) ∧
    (∃ q', q.setImag P F w (.nested (.leaf (.array a))) = (none, q') ∧ q'.dim = q.dim ∧ q'.real = q.real ∧
      q'.imag = ⟨b, q.dim⟩) := by
  have hbs : b.shape = q.mag.shape := by
    unfold Heap.castTo at hb
    simp only at hb
    split at hb
    · cases hb; rfl
    · cases hb
  have hv : q.partValues P F w (.nested (.leaf (.array a))) = .ok b := by
    unfold Quantity.partValues Quantity.new
    simp only [asArray, Operand.arr, validateDimensionality]
    exact hb
  refine ⟨⟨⟨⟨q.mag.shape, fun i => ⟨b.elem i, (q.mag.elem i).im⟩⟩, q.dim⟩, by unfold Quantity.setReal; rw [hv], rfl, rfl, ?_⟩,
    ⟨⟨⟨q.mag.shape, fun i => ⟨(q.mag.elem i).re, b.elem i⟩⟩, q.dim⟩, by unfold Quantity.setImag; rw [hv], rfl, rfl, ?_⟩⟩
  · show (⟨⟨q.mag.shape, b.elem⟩, q.dim⟩ : Quantity ℝ) = _
    rw [← hbs]
  · show (⟨⟨q.mag.shape, b.elem⟩, q.dim⟩ : Quantity ℝ) = _
    rw [← hbs]

/-- C99 is false of a dimensionless `q`: `q = 1+2j` (dimensionless), `q.real = 5*m` is accepted and stores 5. -/
theorem C99_dimensionless_false (P : List Char → Py PyAST) (F : PyOps ℝ) :
    ∃ q', (⟨NDArr.scalar ⟨1, 2⟩, []⟩ : Quantity ℂ).setReal P F exWorld
        (.nested (.leaf (.quantity ⟨NDArr.scalar 5, dM⟩))) = (none, q') ∧
      q'.dim = [] ∧ q'.mag.elem [] = ⟨5, 2⟩ ∧ ¬ Compatible exWorld dM [] :=
  ⟨_, rfl, rfl, rfl, (C97_dimensionless_false P F).2⟩

/-! ## Examples -/

/-- (1 + 2i) km -/
noncomputable def exCx : Quantity ℂ := ⟨NDArr.scalar ⟨1, 2⟩, dKm⟩

example : ∃ r, exCx.rescale exWorld.cx dM = .ok r ∧ SameContent r.dim dM := by
  obtain ⟨h1, -, h3⟩ := C98_rescale exWorld_reachable exCx dM (ex_dimOK dKm (by simp)) (ex_dimOK dM (by simp))
    ex_safe_km_m
  obtain ⟨r, hr⟩ := h1.2 ex_compat
  exact ⟨r, hr, (h3 r hr).1⟩

example : ∃ r, exCx.add exWorld.cx (.quantity exCx) = .ok r ∧ SameContent r.dim dKm := by
  obtain ⟨h1, -, h3⟩ := C98_add exWorld_reachable exCx (.quantity exCx) (ex_dimOK dKm (by simp))
    (ex_dimOK dKm (by simp)) (HashSafe.refl _ _)
  obtain ⟨r, hr⟩ := h1.2 ⟨compatible_refl _ _, by decide⟩
  exact ⟨r, hr, (h3 r hr).1⟩

/-- `q.real = 1000*m` on (1 + 2i) km. -/
example (P : List Char → Py PyAST) (F : PyOps ℝ) (v : Valuation exWorld) :
    ∃ q', exCx.setReal P F exWorld (.nested (.leaf (.quantity ⟨NDArr.scalar 1000, dM⟩))) = (none, q') ∧ q'.dim = dKm := by
  obtain ⟨⟨q', h1, h2, -⟩, -⟩ := (C99_set_parts_partial P F exWorld_reachable exCx ⟨NDArr.scalar 1000, dM⟩
    (ex_dimOK dKm (by simp)) (ex_dimOK dM (by simp)) ex_safe_m_km (by simp [exCx, dKm]) v).1
    _ (compatible_symm exWorld_wf ex_compat) rfl
  exact ⟨q', h1, h2⟩

end PQ
