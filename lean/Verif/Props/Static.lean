import Verif.Spec.Static
import Verif.Lemmas.Programs
import Verif.Lemmas.Uncertain3
import Verif.Props.Uncertain

/-!
# C121, C122: units are checked independently of the numbers
-/

namespace PQ.Client

variable {K : Type _}

theorem OutRel.split {α β : Type _} {R : α → β → Prop} {x : Py α} {y : Py β} (h : OutRel R x y) :
    (∃ e, x = .error e ∧ y = .error e) ∨ ∃ a b, x = .ok a ∧ y = .ok b ∧ R a b := by
  rcases x with e | a <;> rcases y with e' | b
  · exact .inl ⟨e, rfl, congrArg _ (Eq.symm h)⟩
  · exact h.elim
  · exact h.elim
  · exact .inr ⟨a, b, rfl, rfl, h⟩

/-! ## Arrays -/

theorem bin_shape {α β γ α' β' γ' : Type _} (f : α → β → γ) (g : α' → β' → γ') {a : NDArr α} {b : NDArr β}
    {a' : NDArr α'} {b' : NDArr β'} (ha : SameShape a a') (hb : SameShape b b') :
    OutRel SameShape (NDArr.bin f a b) (NDArr.bin g a' b') := by
  unfold NDArr.bin
  rw [← show a.shape = a'.shape from ha, ← show b.shape = b'.shape from hb]
  rcases NDArr.bshape a.shape b.shape with _ | s
  · rfl
  · rfl

theorem reduce_shape {α β α' β' : Type _} (f : List α → β) (g : List α' → β') (ax : Axis) {a : NDArr α} {a' : NDArr α'}
    (ha : SameShape a a') : OutRel SameShape (a.reduce f ax) (a'.reduce g ax) := by
  unfold NDArr.reduce
  rw [← show a.shape = a'.shape from ha]
  rcases NDArr.axisMask a.shape.length ax with e | m
  · rfl
  · show (NDArr.reduceMask f m a).shape = (NDArr.reduceMask g m a').shape
    simp only [NDArr.reduceMask]
    rw [show a.shape = a'.shape from ha]

theorem reduceNE_shape {α β α' β' : Type _} (f : List α → β) (g : List α' → β') (ax : Axis) {a : NDArr α}
    {a' : NDArr α'} (ha : SameShape a a') : OutRel SameShape (a.reduceNE f ax) (a'.reduceNE g ax) := by
  unfold NDArr.reduceNE NDArr.size
  rw [← show a.shape = a'.shape from ha]
  rcases NDArr.axisMask a.shape.length ax with e | m
  · rfl
  · simp only
    split
    · rfl
    · show (NDArr.reduceMask f m a).shape = (NDArr.reduceMask g m a').shape
      simp only [NDArr.reduceMask]
      rw [show a.shape = a'.shape from ha]

theorem cumulate_shape {α : Type _} (f : List α → α) (ax : Axis) {a a' : NDArr α} (ha : SameShape a a') :
    OutRel SameShape (a.cumulate f ax) (a'.cumulate f ax) := by
  have h : a.shape = a'.shape := ha
  cases ax with
  | all =>
    show [a.size] = [a'.size]
    unfold NDArr.size
    rw [h]
  | one x =>
    simp only [NDArr.cumulate, ← h]
    rcases NDArr.normAxis a.shape.length x with e | n
    · rfl
    · exact rfl
  | many l => exact rfl

theorem select_shape {k : Key} {a a' : NDArr K} (ha : SameShape a a') :
    OutRel SameShape (a.select k) (a'.select k) := by
  unfold NDArr.select
  rw [← show a.shape = a'.shape from ha]
  rcases k a.shape with e | ⟨s, f⟩
  · rfl
  · rfl

/-! ## Quantities -/

theorem attach_kind {m m' : Py (NDArr K)} {d : Dim} (h : OutRel SameShape m m') :
    OutRel SameKind (attach m d) (attach m' d) :=
  OutRel.map h (fun _ _ hab => ⟨rfl, hab⟩)

theorem OpKind.arr {a b : Operand K} (h : OpKind a b) : SameShape a.arr b.arr := by
  cases h with
  | quantity h => exact h.shape
  | array h => exact h

theorem OpKind.toQuantity {a b : Operand K} (h : OpKind a b) : SameKind a.toQuantity b.toQuantity := by
  cases h with
  | quantity h => exact h
  | array h => exact ⟨rfl, h⟩

theorem dMultiply_kind {a a' b b' : Operand K} (ha : OpKind a a') (hb : OpKind b b') :
    dMultiply a b = dMultiply a' b' := by
  rcases ha with ⟨ha⟩ | ⟨ha⟩ <;> rcases hb with ⟨hb⟩ | ⟨hb⟩
  · simp only [dMultiply, ha.units, hb.units]
  · simp only [dMultiply, ha.units]
  · simp only [dMultiply, hb.units]
  · rfl

theorem dDivide_kind {a a' b b' : Operand K} (ha : OpKind a a') (hb : OpKind b b') :
    dDivide a b = dDivide a' b' := by
  rcases ha with ⟨ha⟩ | ⟨ha⟩ <;> rcases hb with ⟨hb⟩ | ⟨hb⟩
  · simp only [dDivide, ha.units, hb.units]
  · simp only [dDivide, ha.units]
  · simp only [dDivide, hb.units]
  · rfl

section ops
variable [One K] [Mul K] [Div K] [RPow K] [Zero K] [DecidableEq K]

omit [One K] [Mul K] [Div K] [RPow K] in
theorem uf2_kind {w : World K} {f : UF2} (g g' : K → K → K) {a a' b b' : Operand K} (ha : OpKind a a') (hb : OpKind b b')
    (hd : ufunc2Dim w f a b = ufunc2Dim w f a' b') :
    OutRel SameKind (applyUF2 w f g a b) (applyUF2 w f g' a' b') := by
  unfold applyUF2
  rw [← hd]
  rcases ufunc2Dim w f a b with e | d
  · rfl
  · have := bin_shape g g' ha.arr hb.arr
    simp only
    rcases this.split with ⟨e, h1, h2⟩ | ⟨m, m', h1, h2, h3⟩ <;> rw [h1, h2]
    · rfl
    · exact ⟨rfl, h3⟩

omit [One K] [Mul K] [Div K] [RPow K] in
/-- Two quantities: the units of the result depend on their units only. -/
theorem ufunc2Dim_quantities {w : World K} (f : UF2) {a a' b b' : Quantity K} (ha : SameKind a a') (hb : SameKind b b') :
    ufunc2Dim w f (.quantity a) (.quantity b) = ufunc2Dim w f (.quantity a') (.quantity b') := by
  cases f <;> simp only [ufunc2Dim, dMultiply, dDivide, dCheckUniform, dArctan2, dDimensionless, ha.units, hb.units]

omit [Zero K] in
theorem uf1_kind {w : World K} {f : UF1} (g g' : K → K) {a a' : Quantity K} (ha : SameKind a a') :
    OutRel SameKind (applyUF1 w f g a) (applyUF1 w f g' a') := by
  have hd : ufunc1Dim w f (.quantity a) = ufunc1Dim w f (.quantity a') := by
    cases f <;> simp only [ufunc1Dim, dAngle, dTrig, dArctrig, dDimensionless, World.unitsEqLabel, ha.units]
  unfold applyUF1
  rw [← hd]
  rcases ufunc1Dim w f (.quantity a) with e | _ | d
  · rfl
  · rfl
  · exact ⟨rfl, ha.shape⟩

omit [Zero K] [DecidableEq K] in
theorem rescale_kind {w : World K} {a a' : Quantity K} (ha : SameKind a a') (d : Dim) :
    OutRel SameKind (a.rescale w d) (a'.rescale w d) := by
  unfold Quantity.rescale
  rw [← ha.units]
  by_cases h : w.deq a.dim d = true
  · rw [if_pos h, if_pos h]; exact ha
  · rw [if_neg h, if_neg h]
    rcases w.convFactor a.dim d with e | c
    · cases e <;> rfl
    · exact ⟨rfl, ha.shape⟩

omit [Zero K] [DecidableEq K] in
theorem scaleOther_kind {w : World K} {a a' : Quantity K} {b b' : Operand K} (ha : SameKind a a') (hb : OpKind b b') :
    OutRel SameKind (Quantity.scaleOther w a b) (Quantity.scaleOther w a' b') := by
  unfold Quantity.scaleOther
  simp only [← ha.units, ← hb.toQuantity.units]
  by_cases h : w.dne b.toQuantity.dim a.dim = true
  · rw [if_pos h, if_pos h]; exact rescale_kind hb.toQuantity _
  · rw [if_neg h, if_neg h]; exact hb.toQuantity

theorem sumLike_kind {w : World K} {f : UF2} (g : K → K → K) {a a' : Quantity K} {b b' : Operand K}
    (ha : SameKind a a') (hb : OpKind b b') :
    OutRel SameKind
      (match Quantity.scaleOther w a b with
        | .error e => .error e
        | .ok o => applyUF2 w f g (.quantity a) (.quantity o))
      (match Quantity.scaleOther w a' b' with
        | .error e => .error e
        | .ok o => applyUF2 w f g (.quantity a') (.quantity o)) := by
  have := scaleOther_kind (w := w) ha hb
  rcases this.split with ⟨e, h1, h2⟩ | ⟨o, o', h1, h2, this⟩ <;> rw [h1, h2]
  · rfl
  · exact uf2_kind g g (.quantity ha) (.quantity this) (ufunc2Dim_quantities f ha this)

theorem sumLike_kind' {w : World K} {f : UF2} (g : K → K → K) {a a' : Quantity K} {b b' : Operand K}
    (ha : SameKind a a') (hb : OpKind b b') :
    OutRel SameKind
      (match Quantity.scaleOther w a b with
        | .error e => .error e
        | .ok o => applyUF2 w f g (.quantity o) (.quantity a))
      (match Quantity.scaleOther w a' b' with
        | .error e => .error e
        | .ok o => applyUF2 w f g (.quantity o) (.quantity a')) := by
  have := scaleOther_kind (w := w) ha hb
  rcases this.split with ⟨e, h1, h2⟩ | ⟨o, o', h1, h2, this⟩ <;> rw [h1, h2]
  · rfl
  · exact uf2_kind g g (.quantity this) (.quantity ha) (ufunc2Dim_quantities f this ha)

theorem mul_kind {w : World K} {a a' : Quantity K} {b b' : Operand K} (ha : SameKind a a') (hb : OpKind b b') :
    OutRel SameKind (a.mul w b) (a'.mul w b') :=
  uf2_kind _ _ (.quantity ha) hb (dMultiply_kind (.quantity ha) hb)

theorem div_kind {w : World K} {a a' : Quantity K} {b b' : Operand K} (ha : SameKind a a') (hb : OpKind b b') :
    OutRel SameKind (a.truediv w b) (a'.truediv w b') :=
  uf2_kind _ _ (.quantity ha) hb (dDivide_kind (.quantity ha) hb)

omit [One K] [Mul K] [Div K] [Zero K] [DecidableEq K] in
theorem pow_kind {a a' : Quantity K} (e : ExpArg) (ha : SameKind a a') : OutRel SameKind (a.pow e) (a'.pow e) := by
  unfold Quantity.pow
  by_cases h : hasDims e.dim = true
  · rw [if_pos h, if_pos h]; exact rfl
  · rw [if_neg h, if_neg h]
    have hp : dPower (.quantity a) e = dPower (.quantity a') e := by simp only [dPower, ha.units]
    rw [← hp]
    rcases uniformExp e.vals with err | p
    · rfl
    · simp only
      rcases dPower (.quantity a) e with err | d
      · rfl
      · have := bin_shape (fun (x : K) p => rpow x p) (fun (x : K) p => rpow x p) (a := a.mag) (a' := a'.mag)
          (b := e.vals) (b' := e.vals) ha.shape rfl
        simp only
        rcases this.split with ⟨e, h1, h2⟩ | ⟨m, m', h1, h2, h3⟩ <;> rw [h1, h2]
        · rfl
        · exact ⟨rfl, h3⟩

end ops

section expr
variable [Field K] [LinearOrder K] [RPow K] [PyFloor K]

theorem arith_kind {w : World K} (op : Arith) {a a' : Quantity K} {b b' : Operand K} (ha : SameKind a a')
    (hb : OpKind b b') : OutRel SameKind (op.ap w a b) (op.ap w a' b') := by
  cases op with
  | add => exact sumLike_kind _ ha hb
  | sub => exact sumLike_kind _ ha hb
  | mul => exact mul_kind ha hb
  | div => exact div_kind ha hb
  | mod => exact sumLike_kind _ ha hb

theorem larith_kind {w : World K} (op : LArith) {a a' : Quantity K} {c : NDArr K} (ha : SameKind a a') :
    OutRel SameKind (op.ap w a c) (op.ap w a' c) := by
  cases op with
  | add => exact sumLike_kind' _ ha (.array rfl)
  | sub => exact sumLike_kind' _ ha (.array rfl)
  | mul => exact uf2_kind (w := w) (f := .multiply) _ _ (.array (a := c) (b := c) rfl) (.quantity ha) (dMultiply_kind (.array (a := c) (b := c) rfl) (.quantity ha))
  | div => exact uf2_kind (w := w) (f := .trueDivide) _ _ (.array (a := c) (b := c) rfl) (.quantity ha) (dDivide_kind (.array (a := c) (b := c) rfl) (.quantity ha))

theorem un_kind {w : World K} (u : Un) {a a' : Quantity K} (ha : SameKind a a') :
    OutRel SameKind (u.ap w a) (u.ap w a') := by
  have hs : SameShape a.mag a'.mag := ha.shape
  cases u with
  | neg => exact uf1_kind (w := w) (f := .negative) (- ·) (- ·) ha
  | abs => exact uf1_kind (w := w) (f := .absolute) (fun x => |x|) (fun x => |x|) ha
  | sum ax => simp only [Un.ap, Quantity.sum, Quantity.sumBy, ← ha.units]; exact attach_kind (reduce_shape _ _ ax hs)
  | mean ax => simp only [Un.ap, Quantity.mean, Quantity.meanBy, ← ha.units]; exact attach_kind (reduce_shape _ _ ax hs)
  | max ax => simp only [Un.ap, Quantity.max, ← ha.units]; exact attach_kind (reduceNE_shape _ _ ax hs)
  | min ax => simp only [Un.ap, Quantity.min, ← ha.units]; exact attach_kind (reduceNE_shape _ _ ax hs)
  | ptp ax => simp only [Un.ap, Quantity.ptp, ← ha.units]; exact attach_kind (reduceNE_shape _ _ ax hs)
  | std ax ddof => simp only [Un.ap, Quantity.std, ← ha.units]; exact attach_kind (reduce_shape _ _ ax hs)
  | cumsum ax => simp only [Un.ap, Quantity.cumsum, Quantity.cumsumBy, ← ha.units]; exact attach_kind (cumulate_shape _ ax hs)
  | item i =>
    have := select_shape (k := Key.int i) hs
    simp only [Un.ap, Quantity.getitem, ← ha.units]
    rcases this.split with ⟨e, h1, h2⟩ | ⟨m, m', h1, h2, h3⟩ <;> rw [h1, h2]
    · rfl
    · exact ⟨rfl, h3⟩

/-- C121: evaluating an expression with other numbers of the same shapes and units raises the same exception, or gives
a result with the same units and shape.  (For every registry and every history of it: no hypotheses.) -/
theorem C121_expression (w : World K) (t : Term K) (ρ ρ' : Env (Quantity K)) (h : EnvRel SameKind ρ ρ') :
    OutRel SameKind (t.eval w ρ) (t.eval w ρ') := by
  induction t with
  | var x =>
    have := h x
    simp only [Term.eval, getVar]
    rcases hx : ρ x with _ | q <;> rcases hx' : ρ' x with _ | q' <;> rw [hx, hx'] at this
    · rfl
    · cases this
    · cases this
    · cases this with | some hh => exact hh
  | const q => exact ⟨rfl, rfl⟩
  | bin op a b iha ihb =>
    exact OutRel.bind iha fun x x' _ _ hx => OutRel.bind ihb fun y y' _ _ hy => arith_kind op hx (.quantity hy)
  | binr op a c ih => exact OutRel.bind ih fun x x' _ _ hx => arith_kind op hx (.array rfl)
  | binl op c a ih => exact OutRel.bind ih fun x x' _ _ hx => larith_kind op hx
  | pow a p ih => exact OutRel.bind ih fun x x' _ _ hx => pow_kind _ hx
  | un u a ih => exact OutRel.bind ih fun x x' _ _ hx => un_kind u hx
  | inUnits a d ih => exact OutRel.bind ih fun x x' _ _ hx => rescale_kind hx d

/-- C121: comparing the results of two expressions raises the same exception, or gives arrays of one shape, whatever
the numbers are. -/
theorem C121_comparison (w : World K) (op : CmpOp) (t u : Term K) (ρ ρ' : Env (Quantity K)) (h : EnvRel SameKind ρ ρ') :
    OutRel SameShape (t.eval w ρ >>= fun x => u.eval w ρ >>= fun y => x.cmp w op (.quantity y))
      (t.eval w ρ' >>= fun x => u.eval w ρ' >>= fun y => x.cmp w op (.quantity y)) := by
  refine OutRel.bind (C121_expression w t ρ ρ' h) fun x x' _ _ hx => ?_
  refine OutRel.bind (C121_expression w u ρ ρ' h) fun y y' _ _ hy => ?_
  have hr := rescale_kind (w := w) hy x.dim
  have hc : ∀ r : K → K → Bool, OutRel SameShape (x.compare r w (.quantity y)) (x'.compare r w (.quantity y')) := by
    intro r
    simp only [Quantity.compare, Quantity.wrapComparison, ← hx.units, ← hy.units]
    by_cases hd : w.dne y.dim x.dim = true
    · rw [if_pos hd, if_pos hd]
      rcases hr.split with ⟨e, h1, h2⟩ | ⟨m, m', h1, h2, h3⟩ <;> rw [h1, h2]
      · rfl
      · exact bin_shape _ _ hx.shape h3.shape
    · rw [if_neg hd, if_neg hd]
      exact bin_shape _ _ hx.shape hy.shape
  cases op with
  | lt => exact hc _
  | le => exact hc _
  | gt => exact hc _
  | ge => exact hc _
  | eq =>
    simp only [Quantity.cmp, Quantity.eq, ← hx.units]
    rcases hr.split with ⟨e, h1, h2⟩ | ⟨m, m', h1, h2, h3⟩ <;> rw [h1, h2]
    · cases e
      all_goals first | exact hx.shape | rfl
    · exact bin_shape _ _ hx.shape h3.shape
  | ne =>
    simp only [Quantity.cmp, Quantity.ne, ← hx.units]
    rcases hr.split with ⟨e, h1, h2⟩ | ⟨m, m', h1, h2, h3⟩ <;> rw [h1, h2]
    · cases e
      all_goals first | exact hx.shape | rfl
    · exact bin_shape _ _ hx.shape h3.shape

end expr

/-! ## Uncertain quantities -/

set_option linter.unusedSectionVars false

section uncertain
variable [One K] [Mul K] [Div K] [RPow K]

theorem setUncertainty_kind {w : World K} {a a' : UQ K} {u u' : Quantity K} (ha : SameKind a.val a'.val)
    (hu : SameKind u u') :
    OutRel USameKind (a.setUncertainty w (.quantity u)) (a'.setUncertainty w (.quantity u')) := by
  unfold UQ.setUncertainty
  by_cases hs : a.val.mag.shape = u.mag.shape
  · have hs' : a'.val.mag.shape = u'.mag.shape := by rw [← ha.shape, ← hu.shape, hs]
    simp only
    rw [if_pos (show a.val.mag.shape = (Operand.quantity u).toQuantity.mag.shape from hs),
      if_pos (show a'.val.mag.shape = (Operand.quantity u').toQuantity.mag.shape from hs')]
    have e1 : (Operand.quantity u).toQuantity = u := rfl
    have e2 : (Operand.quantity u').toQuantity = u' := rfl
    rw [e1, e2, ← ha.units, ← hu.units]
    by_cases hd : w.dne u.dim a.val.dim = true
    · rw [if_pos hd, if_pos hd]
      rcases (rescale_kind (w := w) hu a.val.dim).split with ⟨e, h1, h2⟩ | ⟨m, m', h1, h2, h3⟩ <;> rw [h1, h2]
      · rfl
      · exact ⟨ha, h3⟩
    · rw [if_neg hd, if_neg hd]
      exact ⟨ha, hu⟩
  · have hs' : a'.val.mag.shape ≠ u'.mag.shape := by rw [← ha.shape, ← hu.shape]; exact hs
    simp only
    rw [if_neg (show ¬ a.val.mag.shape = (Operand.quantity u).toQuantity.mag.shape from hs),
      if_neg (show ¬ a'.val.mag.shape = (Operand.quantity u').toQuantity.mag.shape from hs')]
    exact rfl

theorem mkQuantity_kind {w : World K} {a a' : Operand K} (ha : OpKind a a') (d : Dim) :
    OutRel SameKind (UQ.mkQuantity w a d) (UQ.mkQuantity w a' d) := by
  rcases ha with ⟨ha⟩ | ⟨ha⟩
  · simp only [UQ.mkQuantity]
    by_cases h : d.isEmpty = true
    · rw [if_pos h, if_pos h]; exact ha
    · rw [if_neg h, if_neg h]; exact rescale_kind ha d
  · exact ⟨rfl, ha⟩

variable [Zero K]

theorem new_kind {w : World K} {a a' : Operand K} {u u' : Operand K} (d : Dim) (ha : OpKind a a') (hu : OpKind u u') :
    OutRel USameKind (UQ.new w a d (some u)) (UQ.new w a' d (some u')) := by
  unfold UQ.new
  rcases (mkQuantity_kind (w := w) ha d).split with ⟨e, h1, h2⟩ | ⟨q, q', h1, h2, h3⟩ <;> rw [h1, h2]
  · rfl
  · simp only [← h3.units]
    rcases (mkQuantity_kind (w := w) hu q.dim).split with ⟨e, h1, h2⟩ | ⟨m, m', h1, h2, h4⟩ <;> rw [h1, h2]
    · rfl
    · exact setUncertainty_kind h3 h4

theorem new_exact_kind {w : World K} {a a' : Operand K} (d : Dim) (ha : OpKind a a') :
    OutRel USameKind (UQ.new w a d none) (UQ.new w a' d none) := by
  unfold UQ.new
  rcases (mkQuantity_kind (w := w) ha d).split with ⟨e, h1, h2⟩ | ⟨q, q', h1, h2, h3⟩ <;> rw [h1, h2]
  · rfl
  · exact ⟨h3, h3.units, h3.shape⟩

omit [Zero K] in
theorem urescale_kind {w : World K} {a a' : UQ K} (ha : USameKind a a') (d : Dim) :
    OutRel USameKind (a.rescale w d) (a'.rescale w d) := by
  unfold UQ.rescale
  rcases (rescale_kind (w := w) ha.val d).split with ⟨e, h1, h2⟩ | ⟨q, q', h1, h2, h3⟩ <;> rw [h1, h2]
  · rfl
  · simp only
    rcases (rescale_kind (w := w) ha.unc d).split with ⟨e, h1, h2⟩ | ⟨m, m', h1, h2, h4⟩ <;> rw [h1, h2]
    · rfl
    · exact setUncertainty_kind h3 h4

omit [One K] [Mul K] [RPow K] [Zero K] in
theorem relative_kind {a a' : UQ K} (ha : USameKind a a') : OutRel SameShape a.relative a'.relative :=
  bin_shape _ _ ha.unc.shape ha.val.shape

theorem ugetitem_kind {w : World K} {a a' : UQ K} (ha : USameKind a a') (k k' : Key)
    (hk : ∀ s, OutRel (fun x y => x.1 = y.1) (k s) (k' s)) :
    OutRel USameKind (a.getitem w k) (a'.getitem w k') := by
  have hsel : ∀ m m' : NDArr K, SameShape m m' → OutRel SameShape (m.select k) (m'.select k') := by
    intro m m' hm
    unfold NDArr.select
    rw [← show m.shape = m'.shape from hm]
    rcases (hk m.shape).split with ⟨e, h1, h2⟩ | ⟨x, y, h1, h2, h3⟩ <;> rw [h1, h2]
    · rfl
    · exact h3
  unfold UQ.getitem Quantity.getitem
  refine OutRel.bind (hsel _ _ ha.val.shape) fun m m' _ _ hm => ?_
  refine OutRel.bind (R := SameKind) ?_ fun u u' _ _ hu => ?_
  · rcases (hsel _ _ ha.unc.shape).split with ⟨e, h1, h2⟩ | ⟨x, y, h1, h2, h3⟩ <;> rw [h1, h2]
    · rfl
    · exact ⟨ha.unc.units, h3⟩
  · rw [← ha.val.units]
    exact new_kind _ (.array hm) (.quantity hu)

variable [DecidableEq K]

theorem upow_kind [RatCast K] {w : World K} {a a' : UQ K} (ha : USameKind a a') (e : ExpArg) :
    OutRel USameKind (a.pow w e) (a'.pow w e) := by
  unfold UQ.pow
  refine OutRel.bind (pow_kind e ha.val) fun r r' _ _ hr => ?_
  refine OutRel.bind (mul_kind hr (.array rfl)) fun t t' _ _ ht => ?_
  refine OutRel.bind (relative_kind ha) fun l l' _ _ hl => ?_
  refine OutRel.bind (mul_kind ht (.array hl)) fun u u' _ _ hu => ?_
  exact setUncertainty_kind hr hu

variable [Add K] [Sub K]

omit [Sub K] in
theorem quad_kind {w : World K} {a a' b b' : Quantity K} (ha : SameKind a a') (hb : SameKind b b') :
    OutRel SameKind (UQ.quad w a b) (UQ.quad w a' b') := by
  unfold UQ.quad
  refine OutRel.bind (pow_kind _ ha) fun x x' _ _ hx => ?_
  refine OutRel.bind (pow_kind _ hb) fun y y' _ _ hy => ?_
  refine OutRel.bind (sumLike_kind (fun x y => x + y) hx (.quantity hy)) fun s s' _ _ hs => ?_
  exact pow_kind _ hs

theorem usum_kind {w : World K} {a a' b b' : UQ K} (ha : USameKind a a') (hb : USameKind b b') :
    OutRel USameKind (a.add w (.uq b)) (a'.add w (.uq b')) ∧
    OutRel USameKind (a.sub w (.uq b)) (a'.sub w (.uq b')) := by
  have hs : OutRel (fun x y => ∃ u u', x = .uq u ∧ y = .uq u' ∧ USameKind u u') (UQ.scaleOther w a (.uq b))
      (UQ.scaleOther w a' (.uq b')) := by
    simp only [UQ.scaleOther, ← ha.val.units, ← hb.val.units]
    by_cases hd : w.dne b.val.dim a.val.dim = true
    · rw [if_pos hd, if_pos hd]
      rcases (urescale_kind (w := w) hb a.val.dim).split with ⟨e, h1, h2⟩ | ⟨m, m', h1, h2, h3⟩ <;> rw [h1, h2]
      · rfl
      · exact ⟨m, m', rfl, rfl, h3⟩
    · rw [if_neg hd, if_neg hd]
      exact ⟨b, b', rfl, rfl, hb⟩
  constructor
  · unfold UQ.add
    refine OutRel.bind hs ?_
    rintro _ _ _ _ ⟨u, u', rfl, rfl, hu⟩
    refine OutRel.bind (sumLike_kind (fun x y => x + y) ha.val (.quantity hu.val)) fun r r' _ _ hr => ?_
    refine OutRel.bind (quad_kind ha.unc hu.unc) fun s s' _ _ hs => ?_
    exact new_kind _ (.quantity hr) (.quantity hs)
  · unfold UQ.sub
    refine OutRel.bind hs ?_
    rintro _ _ _ _ ⟨u, u', rfl, rfl, hu⟩
    refine OutRel.bind (sumLike_kind (fun x y => x - y) ha.val (.quantity hu.val)) fun r r' _ _ hr => ?_
    refine OutRel.bind (quad_kind ha.unc hu.unc) fun s s' _ _ hs => ?_
    exact new_kind _ (.quantity hr) (.quantity hs)

omit [One K] [Mul K] [Div K] [Zero K] [DecidableEq K] [Sub K] in
theorem quadRel_kind {a a' b b' : NDArr K} (ha : SameShape a a') (hb : SameShape b b') :
    OutRel SameShape (UQ.quadRel a b) (UQ.quadRel a' b') := bin_shape _ _ ha hb

theorem uprod_kind {w : World K} {a a' b b' : UQ K} (ha : USameKind a a') (hb : USameKind b b') :
    OutRel USameKind (a.mul w (.uq b)) (a'.mul w (.uq b')) ∧
    OutRel USameKind (a.truediv w (.uq b)) (a'.truediv w (.uq b')) := by
  constructor
  · unfold UQ.mul
    refine OutRel.bind (mul_kind ha.val (.quantity hb.val)) fun r r' _ _ hr => ?_
    refine OutRel.bind (relative_kind ha) fun x x' _ _ hx => ?_
    refine OutRel.bind (relative_kind hb) fun y y' _ _ hy => ?_
    refine OutRel.bind (quadRel_kind hx hy) fun z z' _ _ hz => ?_
    refine OutRel.bind (mul_kind hr (.array hz)) fun u u' _ _ hu => ?_
    exact ⟨hr, hu⟩
  · unfold UQ.truediv
    refine OutRel.bind (div_kind ha.val (.quantity hb.val)) fun r r' _ _ hr => ?_
    refine OutRel.bind (relative_kind ha) fun x x' _ _ hx => ?_
    refine OutRel.bind (relative_kind hb) fun y y' _ _ hy => ?_
    refine OutRel.bind (quadRel_kind hx hy) fun z z' _ _ hz => ?_
    refine OutRel.bind (mul_kind hr (.array hz)) fun u u' _ _ hu => ?_
    exact ⟨hr, hu⟩

theorem sqOp_kind {o o' : Operand K} (h : OpKind o o') : OutRel OpKind (UQ.sqOp o) (UQ.sqOp o') := by
  rcases h with ⟨h⟩ | ⟨h⟩
  · exact OutRel.map (pow_kind _ h) (fun _ _ hab => .quantity hab)
  · exact OpKind.array h

theorem uexact_kind {w : World K} {a a' : UQ K} {o o' : Operand K} (ha : USameKind a a') (ho : OpKind o o') :
    OutRel USameKind (a.mul w (.plain o)) (a'.mul w (.plain o')) ∧
    OutRel USameKind (a.truediv w (.plain o)) (a'.truediv w (.plain o')) := by
  constructor
  · unfold UQ.mul
    refine OutRel.bind (mul_kind ha.val ho) fun r r' _ _ hr => ?_
    refine OutRel.bind (pow_kind _ ha.unc) fun x x' _ _ hx => ?_
    refine OutRel.bind (sqOp_kind ho) fun y y' _ _ hy => ?_
    refine OutRel.bind (mul_kind hx hy) fun p p' _ _ hp => ?_
    refine OutRel.bind (pow_kind _ hp) fun u u' _ _ hu => ?_
    exact ⟨hr, hu⟩
  · unfold UQ.truediv
    refine OutRel.bind (div_kind ha.val ho) fun r r' _ _ hr => ?_
    refine OutRel.bind (pow_kind _ ha.unc) fun x x' _ _ hx => ?_
    refine OutRel.bind (sqOp_kind ho) fun y y' _ _ hy => ?_
    refine OutRel.bind (div_kind hx hy) fun p p' _ _ hp => ?_
    refine OutRel.bind (pow_kind _ hp) fun u u' _ _ hu => ?_
    exact ⟨hr, hu⟩

theorem ursub_kind {w : World K} {a a' : UQ K} {o o' : Operand K} (ha : USameKind a a') (ho : OpKind o o') :
    OutRel USameKind (a.rsub w (.plain o)) (a'.rsub w (.plain o')) := by
  unfold UQ.rsub
  refine OutRel.bind (R := fun x y => ∃ u u', x = .plain (.quantity u) ∧ y = .plain (.quantity u') ∧ SameKind u u') ?_ ?_
  · simp only [UQ.scaleOther]
    rcases (scaleOther_kind (w := w) ha.val ho).split with ⟨e, h1, h2⟩ | ⟨m, m', h1, h2, h3⟩ <;> rw [h1, h2]
    · rfl
    · exact ⟨m, m', rfl, rfl, h3⟩
  · rintro _ _ _ _ ⟨u, u', rfl, rfl, hu⟩
    refine OutRel.bind (new_exact_kind _ (.quantity hu)) fun b b' _ _ hb => ?_
    exact (usum_kind hb ha).2

theorem urdiv_kind {w : World K} {a a' : UQ K} {o o' : Operand K} (ha : USameKind a a') (ho : OpKind o o') :
    OutRel USameKind (a.rtruediv w o) (a'.rtruediv w o') := by
  unfold UQ.rtruediv
  refine OutRel.bind (relative_kind ha) fun x x' _ _ hx => ?_
  refine OutRel.bind (bin_shape _ _ hx ha.val.shape) fun y y' _ _ hy => ?_
  rw [← ha.val.units]
  refine OutRel.bind (new_kind _ (.array (show SameShape (NDArr.map _ _) (NDArr.map _ _) from ha.val.shape)) (.array hy))
    fun t t' _ _ ht => ?_
  exact (uexact_kind ht ho).1

end uncertain

section uexpr
variable [Field K] [LinearOrder K] [RPow K] [PyFloor K]

theorem ubest_kind {w : World K} (lt : K → K → Bool) (htrans : ∀ x y z, lt x y = true → lt y z = true → lt x z = true)
    (hirr : ∀ x, lt x x = false) {a a' : UQ K} (ha : USameKind a a') :
    OutRel USameKind (UQ.best lt w a) (UQ.best lt w a') := by
  have hpos : ∀ q : NDArr K, q.size ≠ 0 → ∃ i, (NDArr.indices q.shape)[NDArr.argbest lt q.toList]? = some i := by
    intro q hq
    have hne : q.toList ≠ [] := by
      intro h0
      have := congrArg List.length h0
      rw [NDArr.toList_length] at this
      exact hq this
    obtain ⟨x, hx, -⟩ := NDArr.argbest_spec htrans hirr hne
    have := (List.getElem?_eq_some_iff.1 hx).1
    unfold NDArr.toList at this
    rw [List.length_map] at this
    exact ⟨_, List.getElem?_eq_getElem this⟩
  have hsz : a.val.mag.size = a'.val.mag.size := by unfold NDArr.size; rw [ha.val.shape]
  unfold UQ.best NDArr.argreduce
  simp only
  by_cases h0 : a.val.mag.size = 0
  · rw [if_pos h0, if_pos (hsz ▸ h0)]; exact rfl
  · rw [if_neg h0, if_neg (hsz ▸ h0)]
    simp only [except_bind_ok, NDArr.scalar]
    obtain ⟨i, hi⟩ := hpos _ h0
    obtain ⟨j, hj⟩ := hpos _ (hsz ▸ h0)
    rw [hi, hj]
    exact ugetitem_kind ha _ _ (fun s => rfl)

theorem uun_kind {w : World K} (u : UUn) {a a' : UQ K} (ha : USameKind a a') :
    OutRel USameKind (u.ap w a) (u.ap w a') := by
  have hv : SameShape a.val.mag a'.val.mag := ha.val.shape
  have hu : SameShape a.unc.mag a'.unc.mag := ha.unc.shape
  cases u with
  | neg => exact (uexact_kind ha (.array rfl)).1
  | sqrt => exact upow_kind ha _
  | item i =>
    refine ugetitem_kind ha _ _ (fun s => ?_)
    rcases Key.int i s with e | x
    · rfl
    · rfl
  | sum ax =>
    simp only [UUn.ap, UQ.sum]
    refine OutRel.bind (reduce_shape _ _ ax hv) fun m m' _ _ hm => ?_
    refine OutRel.bind (reduce_shape _ _ ax (show SameShape (NDArr.map _ _) (NDArr.map _ _) from hu)) fun s s' _ _ hs => ?_
    rw [← ha.val.units]
    exact new_kind _ (.array hm) (.array hs)
  | mean ax =>
    simp only [UUn.ap, UQ.mean]
    refine OutRel.bind (reduce_shape _ _ ax hv) fun m m' _ _ hm => ?_
    rw [← ha.val.shape, ← ha.val.units]
    refine OutRel.bind (OutRel.of_eq (R := fun x y => x = y) (fun _ => rfl) rfl) fun n n' _ _ hn => ?_
    refine OutRel.bind (reduce_shape _ _ ax (show SameShape (NDArr.map _ _) (NDArr.map _ _) from hu)) fun s s' _ _ hs => ?_
    exact new_kind _ (.array hm) (.array hs)
  | max ax =>
    exact ubest_kind _ (fun x y z h1 h2 => by simp only [decide_eq_true_eq] at *; exact h1.trans h2) (fun x => by simp) ha
  | min ax =>
    exact ubest_kind _ (fun x y z h1 h2 => by simp only [decide_eq_true_eq] at *; exact h2.trans h1) (fun x => by simp) ha

theorem exact_kind (w : World K) (c : Exact K) {ρ ρ' : Env (Quantity K)} (h : EnvRel SameKind ρ ρ') :
    OutRel OpKind (c.eval w ρ) (c.eval w ρ') := by
  cases c with
  | quantity t => exact OutRel.bind (C121_expression w t ρ ρ' h) fun _ _ _ _ hq => OpKind.quantity hq
  | number c => exact OpKind.array rfl

/-- C121 for uncertain quantities: other values and other uncertainties of the same shapes and units give the same
exception, or a result whose value and uncertainty have the same units and shape. -/
theorem C121_uncertain (w : World K) (t : UTerm K) (ρ ρ' : Env (Quantity K)) (μ μ' : Env (UQ K))
    (h : EnvRel SameKind ρ ρ') (hμ : EnvRel USameKind μ μ') :
    OutRel USameKind (t.eval w ρ μ) (t.eval w ρ' μ') := by
  induction t with
  | var x =>
    have := hμ x
    simp only [UTerm.eval, getVar]
    rcases hx : μ x with _ | q <;> rcases hx' : μ' x with _ | q' <;> rw [hx, hx'] at this
    · rfl
    · cases this
    · cases this
    · cases this with | some hh => exact hh
  | bin op a b iha ihb =>
    refine OutRel.bind iha fun x x' _ _ hx => OutRel.bind ihb fun y y' _ _ hy => ?_
    cases op with
    | add => exact (usum_kind hx hy).1
    | sub => exact (usum_kind hx hy).2
    | mul => exact (uprod_kind hx hy).1
    | div => exact (uprod_kind hx hy).2
  | times a c ih =>
    exact OutRel.bind ih fun x x' _ _ hx => OutRel.bind (exact_kind w c h) fun o o' _ _ ho => (uexact_kind hx ho).1
  | over a c ih =>
    exact OutRel.bind ih fun x x' _ _ hx => OutRel.bind (exact_kind w c h) fun o o' _ _ ho => (uexact_kind hx ho).2
  | exactTimes c a ih =>
    exact OutRel.bind (exact_kind w c h) fun o o' _ _ ho => OutRel.bind ih fun x x' _ _ hx => (uexact_kind hx ho).1
  | exactMinus c a ih =>
    exact OutRel.bind (exact_kind w c h) fun o o' _ _ ho => OutRel.bind ih fun x x' _ _ hx => ursub_kind hx ho
  | exactOver c a ih =>
    exact OutRel.bind (exact_kind w c h) fun o o' _ _ ho => OutRel.bind ih fun x x' _ _ hx => urdiv_kind hx ho
  | pow a p ih => exact OutRel.bind ih fun x x' _ _ hx => upow_kind hx _
  | un u a ih => exact OutRel.bind ih fun x x' _ _ hx => uun_kind u hx
  | inUnits a d ih => exact OutRel.bind ih fun x x' _ _ hx => urescale_kind hx d

end uexpr

/-! ## C122: numpy functions called with a plain array -/

section ufuncs
variable [One K] [Mul K] [Div K] [RPow K] [Zero K] [DecidableEq K]

/-- C122 for a numpy function of one quantity or of two: the units of the result, and whether it raises, do not depend
on the numbers, nor on what the function computes. -/
theorem C122_quantities (w : World K) :
    (∀ (f : UF1) (g g' : K → K) (a a' : Quantity K), SameKind a a' →
      OutRel SameKind (applyUF1 w f g a) (applyUF1 w f g' a')) ∧
    (∀ (f : UF2) (g g' : K → K → K) (a a' b b' : Quantity K), SameKind a a' → SameKind b b' →
      OutRel SameKind (applyUF2 w f g (.quantity a) (.quantity b)) (applyUF2 w f g' (.quantity a') (.quantity b'))) :=
  ⟨fun _ g g' _ _ ha => uf1_kind g g' ha,
   fun f g g' _ _ _ _ ha hb => uf2_kind g g' (.quantity ha) (.quantity hb) (ufunc2Dim_quantities f ha hb)⟩

omit [One K] [Mul K] [Div K] [RPow K] in
/-- C122 fails with a plain array: `np.add(q, a)` accepts an array of zeros, whatever the units of `q`, and
refuses any other array if `q` has units. -/
theorem C122_plain_array_false [Add K] (w : World K) (q : Quantity K) (a : NDArr K) (hq : q.dim ≠ [])
    (hs : q.mag.shape = a.shape) :
    (Returns (applyUF2 w .add (fun x y => x + y) (.quantity q) (.array a)) ↔ NDArr.All (fun x => x = 0) a) := by
  unfold applyUF2 ufunc2Dim dCheckUniform
  have he : q.dim.isEmpty = false := by
    rcases hd : q.dim with _ | ⟨x, l⟩
    · exact absurd hd hq
    · rfl
  have hz : (!a.anyNonzero) = true ↔ NDArr.All (fun x => x = 0) a := by
    rw [NDArr.all_iff_toList]
    simp [NDArr.anyNonzero]
  simp only [he, Bool.false_or]
  by_cases h : (!a.anyNonzero) = true
  · rw [if_pos h]
    refine ⟨fun _ => hz.1 h, fun _ => ?_⟩
    unfold NDArr.bin
    simp only [Operand.arr, ← hs, NDArr.bshape_self]
    exact ⟨_, rfl⟩
  · rw [if_neg h]
    exact ⟨fun hr => absurd hr (not_returns_error _), fun ha => absurd (hz.2 ha) h⟩

end ufuncs

/-! ## A concrete case -/

/-- Lengths in kilometres, other numbers. -/
noncomputable def exOther : Env (UQ ℝ) := fun x =>
  if x = "a" then some ⟨⟨⟨[2], fun _ => 0⟩, dKm⟩, ⟨⟨[2], fun _ => 7⟩, dKm⟩⟩ else if x = "b" then some exUN else none

example : EnvRel USameKind (fun x => if x = "a" then some exUQ else if x = "b" then some exUM else none) exOther := by
  intro x
  simp only [exOther]
  by_cases ha : x = "a"
  · rw [if_pos ha, if_pos ha]
    exact .some ⟨⟨rfl, rfl⟩, ⟨rfl, rfl⟩⟩
  · rw [if_neg ha, if_neg ha]
    by_cases hb : x = "b"
    · rw [if_pos hb, if_pos hb]
      exact .some ⟨⟨rfl, rfl⟩, ⟨rfl, rfl⟩⟩
    · rw [if_neg hb, if_neg hb]
      exact .none

end PQ.Client
