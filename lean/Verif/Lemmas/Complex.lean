import Verif.Spec.Complex
import Verif.Lemmas.Arith

/-! # Lemmas about complex magnitudes -/

namespace PQ

open Dict World

theorem get?_mapInfo {K L : Type _} (f : K → L) (u : UKey) : ∀ l : Dict UKey K,
    Dict.get? (List.map (fun e => (e.1, f e.2)) l : Dict UKey L) u = (Dict.get? l u).map f
  | [] => rfl
  | (k, v) :: l => by
      rw [List.map_cons, Dict.get?_cons, Dict.get?_cons, get?_mapInfo f u l]
      split <;> rfl

section
variable {K L : Type _} (φ : K → L) (w : World K)

theorem info_map (u : UKey) : (w.map φ).info u = (w.info u).map (UnitInfo.map φ) := get?_mapInfo _ u _

theorem order_map : (w.map φ).order = w.order := by
  funext u
  unfold World.order
  rw [info_map]
  cases w.info u <;> rfl

theorem deq_map (a b : Dim) : (w.map φ).deq a b = w.deq a b := by
  unfold World.deq
  rw [order_map]
  rfl

theorem dne_map (a b : Dim) : (w.map φ).dne a b = w.dne a b := by
  rw [dne_eq, dne_eq, deq_map]

theorem convRef_map (u : UKey) : (w.map φ).convRef u = (w.convRef u).map (SQ.map φ) := by
  unfold World.convRef
  rw [info_map]
  cases w.info u <;> rfl

end

section
variable {w : World ℝ}

theorem cx_deq (w : World ℝ) (a b : Dim) : w.cx.deq a b = w.deq a b := deq_map _ w a b
theorem cx_dne (w : World ℝ) (a b : Dim) : w.cx.dne a b = w.dne a b := dne_map _ w a b

theorem cx_unitRef (w : World ℝ) (u : UKey) : w.cx.unitRef u = (w.unitRef u).map Complex.ofReal := by
  unfold World.unitRef World.cx
  rw [convRef_map]
  cases w.convRef u <;> simp [SQ.map]

theorem cx_rpow {x : ℝ} (hx : 0 ≤ x) (p : ℚ) : rpow (x : ℂ) p = ((rpow x p : ℝ) : ℂ) := by
  show (x : ℂ) ^ (p : ℂ) = ((x ^ (p : ℝ) : ℝ) : ℂ)
  rw [Complex.ofReal_cpow hx]
  simp

theorem cx_refUnits (hw : WF w) {d : Dim} (hd : ∀ kv ∈ d, kv.1 ∈ w.units.map Prod.fst ∧ kv.1.cls ≠ .dimensionless) :
    w.cx.refUnits d = (w.refUnits d).map Complex.ofReal := by
  unfold World.refUnits
  have : ∀ s : SQ ℝ, d.foldl (refStep w.cx) (s.map Complex.ofReal) = (d.foldl (refStep w) s).map Complex.ofReal := by
    induction d with
    | nil => intro s; rfl
    | cons kv d ih =>
      intro s
      rw [List.foldl_cons, List.foldl_cons, ← ih (fun x hx => hd x (List.mem_cons_of_mem _ hx))]
      congr 1
      unfold World.refStep
      have hp := (unitRef_spec hw (hd kv (by simp)).1 (hd kv (by simp)).2).1
      simp only [cx_unitRef, SQ.map, cx_rpow hp.le]
      simp
  have h1 := this ⟨1, []⟩
  simpa [SQ.map] using h1

theorem cx_convFactor (hw : WF w) {a b : Dim} (ha : DimOK w a) (hb : DimOK w b) :
    w.cx.convFactor a b = (w.convFactor a b).map Complex.ofReal := by
  unfold World.convFactor World.reference
  simp only [cx_refUnits hw (fun kv hkv => ⟨ha.known kv hkv, ha.notDimless kv hkv⟩),
    cx_refUnits hw (fun kv hkv => ⟨hb.known kv hkv, hb.notDimless kv hkv⟩), SQ.map, cx_deq]
  split
  · simp [Except.map]
  · rfl

/-- Applying a function to the elements of a quantity. -/
def partQ {L : Type _} (f : L → ℝ) (q : Quantity L) : Quantity ℝ := ⟨q.mag.map f, q.dim⟩

theorem cx_rescale (hw : WF w) {q : Quantity ℂ} {d : Dim} (hq : DimOK w q.dim) (hd : DimOK w d)
    (f : ℂ → ℝ) (hf : ∀ (c : ℝ) (z : ℂ), f (c * z) = c * f z) :
    (q.rescale w.cx d).map (partQ f) = (partQ f q).rescale w d := by
  unfold Quantity.rescale
  rw [cx_deq, show (partQ f q).dim = q.dim from rfl]
  by_cases h : w.deq q.dim d = true
  · rw [if_pos h, if_pos h]; rfl
  · rw [if_neg h, if_neg h, cx_convFactor hw hq hd]
    rcases hc : w.convFactor q.dim d with e | c
    · rw [convFactor_error hc]; rfl
    · show Except.ok _ = Except.ok _
      congr 1
      show (⟨_, d⟩ : Quantity ℝ) = ⟨_, d⟩
      congr 1
      show NDArr.map f (NDArr.map _ q.mag) = NDArr.map _ (NDArr.map f q.mag)
      rw [NDArr.map_map, NDArr.map_map]
      exact NDArr.map_congr (fun z => hf c z) _

/-- Applying a function to the elements of an operand. -/
def partOp {L : Type _} (f : L → ℝ) : Operand L → Operand ℝ
  | .quantity q => .quantity (partQ f q)
  | .array a => .array (a.map f)

theorem partOp_dim {L : Type _} (f : L → ℝ) (o : Operand L) : (partOp f o).dim = o.dim := by cases o <;> rfl

theorem partOp_shape {L : Type _} (f : L → ℝ) (o : Operand L) : (partOp f o).arr.shape = o.arr.shape := by
  cases o <;> rfl

theorem cx_toQuantity {L : Type _} (f : L → ℝ) (o : Operand L) : (partOp f o).toQuantity = partQ f o.toQuantity := by
  cases o <;> rfl

theorem cx_scaleOther (hw : WF w) {q : Quantity ℂ} {o : Operand ℂ} (hq : DimOK w q.dim) (ho : DimOK w o.dim)
    (f : ℂ → ℝ) (hf : ∀ (c : ℝ) (z : ℂ), f (c * z) = c * f z) :
    (Quantity.scaleOther w.cx q o).map (partQ f) = Quantity.scaleOther w (partQ f q) (partOp f o) := by
  have e1 : Quantity.scaleOther w.cx q o =
      if w.cx.dne o.toQuantity.dim q.dim then o.toQuantity.rescale w.cx q.dim else .ok o.toQuantity := rfl
  have e2 : Quantity.scaleOther w (partQ f q) (partOp f o) =
      if w.dne (partOp f o).toQuantity.dim q.dim then (partOp f o).toQuantity.rescale w q.dim
      else .ok (partOp f o).toQuantity := rfl
  rw [e1, e2, cx_dne, cx_toQuantity, show (partQ f o.toQuantity).dim = o.toQuantity.dim from rfl]
  by_cases h : w.dne o.toQuantity.dim q.dim = true
  · rw [if_pos h, if_pos h]
    exact cx_rescale hw (by rw [Operand.toQuantity_dim]; exact ho) hq f hf
  · rw [if_neg h, if_neg h]; rfl

/-- Sum-like operations act on the real and the imaginary parts separately. -/
theorem cx_uf2 {q o : Quantity ℂ} (f : ℂ → ℝ) (g : ℂ → ℂ → ℂ) (g' : ℝ → ℝ → ℝ)
    (hg : ∀ x y, f (g x y) = g' (f x) (f y)) (u : UF2)
    (hu : ∀ x y, ufunc2Dim w.cx u x y = dCheckUniform w.cx x y) (hu' : ∀ x y, ufunc2Dim w u x y = dCheckUniform w x y) :
    (applyUF2 w.cx u g (.quantity q) (.quantity o)).map (partQ f)
      = applyUF2 w u g' (.quantity (partQ f q)) (.quantity (partQ f o)) := by
  unfold applyUF2
  rw [hu, hu', show dCheckUniform w.cx (.quantity q) (.quantity o) =
      dCheckUniform w (.quantity (partQ f q)) (.quantity (partQ f o)) by
    show (if w.cx.deq q.dim o.dim then _ else _) = if w.deq q.dim o.dim then _ else _
    rw [cx_deq]; rfl]
  rcases dCheckUniform w (.quantity (partQ f q)) (.quantity (partQ f o)) with e | d
  · rfl
  · have hb : NDArr.bin g' (q.mag.map f) (o.mag.map f) = (NDArr.bin g q.mag o.mag).map (NDArr.map f) := by
      rw [NDArr.bin_map, NDArr.map_bin]
      exact NDArr.bin_congr (fun x y => (hg x y).symm) _ _
    simp only [Operand.arr]
    rw [show (partQ f q).mag = q.mag.map f from rfl, show (partQ f o).mag = o.mag.map f from rfl]
    rw [hb]
    rcases NDArr.bin g q.mag o.mag with e | m <;> rfl

theorem cx_ext {a b : NDArr ℂ} (h1 : a.map Complex.re = b.map Complex.re) (h2 : a.map Complex.im = b.map Complex.im) :
    a = b := by
  have s := congrArg NDArr.shape h1
  have e1 := congrArg NDArr.elem h1
  have e2 := congrArg NDArr.elem h2
  refine NDArr.ext' s (funext fun i => Complex.ext ?_ ?_)
  · exact congrFun e1 i
  · exact congrFun e2 i

theorem cx_phys_re (v : Valuation w) (q : Quantity ℂ) : (v.cphys q).map Complex.re = v.phys (partQ Complex.re q) := by
  unfold Valuation.cphys Valuation.phys partQ
  rw [NDArr.map_map, NDArr.map_map]
  exact NDArr.map_congr (fun z => by simp) _

theorem cx_phys_im (v : Valuation w) (q : Quantity ℂ) : (v.cphys q).map Complex.im = v.phys (partQ Complex.im q) := by
  unfold Valuation.cphys Valuation.phys partQ
  rw [NDArr.map_map, NDArr.map_map]
  exact NDArr.map_congr (fun z => by simp) _

theorem cx_physOp_re (v : Valuation w) (q : Operand ℂ) :
    (v.cphysOp q).map Complex.re = v.physOp (partOp Complex.re q) := by
  cases q with
  | quantity q => exact cx_phys_re v q
  | array a => rfl

theorem cx_physOp_im (v : Valuation w) (q : Operand ℂ) :
    (v.cphysOp q).map Complex.im = v.physOp (partOp Complex.im q) := by
  cases q with
  | quantity q => exact cx_phys_im v q
  | array a => rfl

theorem py_map_ok {α β : Type _} {x : Py α} {f : α → β} {b : β} (h : x.map f = .ok b) : ∃ a, x = .ok a ∧ f a = b := by
  cases x with
  | error e => cases h
  | ok a => exact ⟨a, rfl, Except.ok.inj h⟩

theorem py_map_error {α β : Type _} {x : Py α} {f : α → β} {e : PyErr} : x.map f = .error e ↔ x = .error e := by
  cases x with
  | error e' => exact Iff.intro (fun h => by cases h; rfl) (fun h => by cases h; rfl)
  | ok a => exact Iff.intro (fun h => by cases h) (fun h => by cases h)

theorem py_map_returns {α β : Type _} {x : Py α} {f : α → β} : Returns (x.map f) ↔ Returns x := by
  cases x with
  | error e => exact ⟨fun h => absurd h (not_returns_error _), fun h => absurd h (not_returns_error _)⟩
  | ok a => exact ⟨fun _ => returns_ok _, fun _ => returns_ok _⟩

theorem re_mul (c : ℝ) (z : ℂ) : (c * z : ℂ).re = c * z.re := by simp
theorem im_mul (c : ℝ) (z : ℂ) : (c * z : ℂ).im = c * z.im := by simp

end

end PQ
