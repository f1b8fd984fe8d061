import Verif.Spec.UncertainPrograms
import Verif.Props.UncertainReturns
import Verif.Props.Programs

/-!
# C116: the units of the inputs do not matter, with uncertainties
-/

set_option linter.unusedSectionVars false

namespace PQ.Client

open LawfulRPow World

variable {K : Type _} [Field K] [LinearOrder K] [IsStrictOrderedRing K] [RPow K] [LawfulRPow K] [PyFloor K]
variable {h : Hasher} {w : World K}

theorem MeasEq.refl {x : UQ K} (hx : UQ.Built w x) : MeasEq w x x :=
  ⟨hx, hx, compatible_refl w _, fun _ => NDArr.Same.refl _⟩

theorem MeasEq.shape (hw : Reachable h w) {x y : UQ K} (hxy : MeasEq w x y) :
    x.val.mag.shape = y.val.mag.shape := by
  obtain ⟨v⟩ := exists_valuation hw.wf
  exact (hxy.same v).1

/-- Two calls that return together. -/
theorem out_of {α : Type _} {R : α → α → Prop} {res res' : Py α} (hr : Returns res ↔ Returns res')
    (he : ∀ e, res = .error e → e = .valueError) (he' : ∀ e, res' = .error e → e = .valueError)
    (hok : ∀ r r', res = .ok r → res' = .ok r' → R r r') : OutRel R res res' := by
  rcases h1 : res with e | r <;> rcases h2 : res' with e' | r'
  · show e = e'
    rw [he e h1, he' e' h2]
  · exact absurd (hr.2 ⟨r', h2⟩) (by rw [h1]; exact not_returns_error _)
  · exact absurd (hr.1 ⟨r, h1⟩) (by rw [h2]; exact not_returns_error _)
  · exact hok r r' h1 h2

/-- Elementwise rules that determine their result. -/
theorem elementwise_same {α β γ : Type _} {R R' : α → β → γ → Prop} {A A' : NDArr α} {B B' : NDArr β} {C C' : NDArr γ}
    (hA : NDArr.Same A A') (hB : NDArr.Same B B') (hc : Elementwise R A B C) (hc' : Elementwise R' A' B' C')
    (hf : ∀ i, NDArr.InB C.shape i → ∀ z z', R (A.elem (NDArr.bidx A.shape i)) (B.elem (NDArr.bidx B.shape i)) z →
      R' (A.elem (NDArr.bidx A.shape i)) (B.elem (NDArr.bidx B.shape i)) z' → z = z') : NDArr.Same C C' := by
  obtain ⟨s1, e1⟩ := hc
  obtain ⟨s2, e2⟩ := hc'
  have hsh : C.shape = C'.shape := by
    rw [← hA.1, ← hB.1, s1] at s2
    exact Option.some.inj s2
  refine ⟨hsh, fun i hi => hf i hi _ _ (e1 i hi) ?_⟩
  have := e2 i (hsh ▸ hi)
  rw [← hA.1, ← hB.1, ← hA.2 _ (NDArr.bidx_inb s1 hi), ← hB.2 _ (NDArr.bidx_inb_right s1 hi)] at this
  exact this

theorem reduced_same {α β : Type _} {R : List α → β → Prop} (hf : ∀ l z z', R l z → R l z' → z = z') {ax : Axis}
    {A A' : NDArr α} {C C' : NDArr β} (hA : NDArr.Same A A') (hc : ReducedBy R ax A C) (hc' : ReducedBy R ax A' C') :
    NDArr.Same C C' := by
  obtain ⟨L, l1, l2, l3⟩ := hc
  obtain ⟨L', m1, m2, m3⟩ := hc'
  have := reduce_rel id ax hA
  rw [l1, m1] at this
  obtain ⟨t1, t2⟩ : NDArr.Same L L' := this
  have hsh : C.shape = C'.shape := by rw [← l2, ← m2, t1]
  refine ⟨hsh, fun i hi => hf (L.elem i) _ _ (l3 i hi) ?_⟩
  rw [t2 i (l2 ▸ hi)]
  exact m3 i (hsh ▸ hi)

theorem meas_ext {z z' : Meas K} (h1 : z.value = z'.value) (h2 : z.sigma = z'.sigma) : z = z' := by
  cases z; cases z'; simp only at h1 h2; rw [h1, h2]

/-- A non-negative number is determined by its square. -/
theorem sigma_unique {a b c : K} (ha : 0 ≤ a) (hb : 0 ≤ b) (h1 : a ^ 2 = c) (h2 : b ^ 2 = c) : a = b :=
  (pow_left_inj₀ ha hb two_ne_zero).1 (h1.trans h2.symm)

theorem compat_content {w : World K} {a b d : Dim} (ha : DimOK w a) (hb : DimOK w b) (hab : SameContent a b)
    (hc : Compatible w b d) : Compatible w a d :=
  compatible_trans (compatible_of_same ha.canon.nodup hb.canon.nodup hab) hc

/-- Units of two results with the contents of compatible units. -/
theorem compat_both (hw : Reachable h w) {a a' b b' : Dim} (ha : DimOK w a) (ha' : DimOK w a') (hb : DimOK w b)
    (hb' : DimOK w b') (h1 : SameContent a b) (h2 : SameContent a' b') (hc : Compatible w b b') :
    Compatible w a a' :=
  compat_content ha hb h1 (compatible_symm hw.wf (compat_content ha' hb' h2 (compatible_symm hw.wf hc)))

theorem uarith_rel (hw : Reachable h w) (op : UArith) {x x' y y' : UQ K} (hx : MeasEq w x x') (hy : MeasEq w y y')
    (hs : op = .add ∨ op = .sub → HashSafe w y.val.dim x.val.dim)
    (hs' : op = .add ∨ op = .sub → HashSafe w y'.val.dim x'.val.dim) :
    OutRel (MeasEq w) (op.ap w x y) (op.ap w x' y') := by
  have ox := hx.left.ok hw.wf
  have ox' := hx.right.ok hw.wf
  have oy := hy.left.ok hw.wf
  have oy' := hy.right.ok hw.wf
  have sx := hx.shape hw
  have sy := hy.shape hw
  cases op with
  | add =>
    replace hs := hs (.inl rfl)
    replace hs' := hs' (.inl rfl)
    obtain ⟨a1, a2, a3⟩ := C39_sum hw x y hx.left hy.left hs
    obtain ⟨b1, b2, b3⟩ := C39_sum hw x' y' hx.right hy.right hs'
    refine out_of (by rw [UArith.ap, UArith.ap, a1, b1, sx, sy, compatible_congr hw hy.compatible hx.compatible]) a2 b2
      (fun r r' hr hr' => ?_)
    have br := UQ.Built.add hx.left hy.left hs hr
    have br' := UQ.Built.add hx.right hy.right hs' hr'
    refine ⟨br, br', compat_both hw (br.ok hw.wf).vdim (br'.ok hw.wf).vdim ox.vdim ox'.vdim (a3 r hr).1
      (b3 r' hr').1 hx.compatible, fun v => ?_⟩
    refine elementwise_same (hx.same v) (hy.same v) ((a3 r hr).2 v) ((b3 r' hr').2 v) (fun i hi z z' hz hz' => ?_)
    exact meas_ext (hz.1.trans hz'.1.symm) (sigma_unique hz.2.1 hz'.2.1 hz.2.2 hz'.2.2)
  | sub =>
    replace hs := hs (.inr rfl)
    replace hs' := hs' (.inr rfl)
    obtain ⟨a1, a2, a3⟩ := C39_difference hw x y hx.left hy.left hs
    obtain ⟨b1, b2, b3⟩ := C39_difference hw x' y' hx.right hy.right hs'
    refine out_of (by rw [UArith.ap, UArith.ap, a1, b1, sx, sy, compatible_congr hw hy.compatible hx.compatible]) a2 b2
      (fun r r' hr hr' => ?_)
    have br := UQ.Built.sub hx.left hy.left hs hr
    have br' := UQ.Built.sub hx.right hy.right hs' hr'
    refine ⟨br, br', compat_both hw (br.ok hw.wf).vdim (br'.ok hw.wf).vdim ox.vdim ox'.vdim (a3 r hr).1
      (b3 r' hr').1 hx.compatible, fun v => ?_⟩
    refine elementwise_same (hx.same v) (hy.same v) ((a3 r hr).2 v) ((b3 r' hr').2 v) (fun i hi z z' hz hz' => ?_)
    exact meas_ext (hz.1.trans hz'.1.symm) (sigma_unique hz.2.1 hz'.2.1 hz.2.2 hz'.2.2)
  | mul =>
    obtain ⟨a1, a2, a3⟩ := uq_mul_uq ox oy
    obtain ⟨b1, b2, b3⟩ := uq_mul_uq ox' oy'
    refine out_of (by rw [UArith.ap, UArith.ap, a1, b1, sx, sy]) a2 b2 (fun r r' hr hr' => ?_)
    obtain ⟨c1, c2, c3⟩ := a3 r hr
    obtain ⟨d1, d2, d3⟩ := b3 r' hr'
    refine ⟨.mul hx.left hy.left hr, .mul hx.right hy.right hr',
      by rw [c2, d2]; exact compatible_mul hx.compatible hy.compatible, fun v => ?_⟩
    refine elementwise_same (R := fun (x y z : Meas K) => z.value = x.value * y.value ∧
        z.sigma = z.value * rpow ((x.sigma / x.value) ^ 2 + (y.sigma / y.value) ^ 2) (1/2))
      (R' := fun (x y z : Meas K) => z.value = x.value * y.value ∧
        z.sigma = z.value * rpow ((x.sigma / x.value) ^ 2 + (y.sigma / y.value) ^ 2) (1/2))
      (hx.same v) (hy.same v) (c3 v) (d3 v) (fun i hi z z' hz hz' => ?_)
    exact meas_ext (hz.1.trans hz'.1.symm) (by rw [hz.2, hz'.2, hz.1, hz'.1])
  | div =>
    obtain ⟨a1, a2, a3⟩ := uq_div_uq ox oy
    obtain ⟨b1, b2, b3⟩ := uq_div_uq ox' oy'
    refine out_of (by rw [UArith.ap, UArith.ap, a1, b1, sx, sy]) a2 b2 (fun r r' hr hr' => ?_)
    obtain ⟨c1, c2, c3⟩ := a3 r hr
    obtain ⟨d1, d2, d3⟩ := b3 r' hr'
    refine ⟨.div hx.left hy.left hr, .div hx.right hy.right hr',
      by rw [c2, d2]; exact compatible_div hx.compatible hy.compatible, fun v => ?_⟩
    refine elementwise_same (R := fun (x y z : Meas K) => z.value = x.value / y.value ∧
        z.sigma = z.value * rpow ((x.sigma / x.value) ^ 2 + (y.sigma / y.value) ^ 2) (1/2))
      (R' := fun (x y z : Meas K) => z.value = x.value / y.value ∧
        z.sigma = z.value * rpow ((x.sigma / x.value) ^ 2 + (y.sigma / y.value) ^ 2) (1/2))
      (hx.same v) (hy.same v) (c3 v) (d3 v) (fun i hi z z' hz hz' => ?_)
    exact meas_ext (hz.1.trans hz'.1.symm) (by rw [hz.2, hz'.2, hz.1, hz'.1])

/-! ## Exact operands -/

/-- Exact operands with the same physical value. -/
structure OpEq (w : World K) (o o' : Operand K) : Prop where
  left : DimOK w o.dim
  right : DimOK w o'.dim
  compatible : Compatible w o.dim o'.dim
  same : ∀ v : Valuation w, NDArr.Same (v.physOp o) (v.physOp o')

theorem exact_rel (hw : Reachable h w) (c : Exact K) (ρ σ : Env (Quantity K)) (hρ : EnvRel (PhysEq w) ρ σ)
    (hs : c.Safe w ρ) (hs' : c.Safe w σ) : OutRel (OpEq w) (c.eval w ρ) (c.eval w σ) := by
  cases c with
  | quantity t =>
    exact OutRel.bind (C100_term hw t ρ σ hρ hs hs') (fun x x' _ _ hxx =>
      (⟨hxx.left, hxx.right, hxx.compatible, hxx.same⟩ : OpEq w (.quantity x) (.quantity x')))
  | number c =>
    exact (⟨DimOK.nil w, DimOK.nil w, compatible_refl w _, fun _ => NDArr.Same.refl _⟩ :
      OpEq w (.array c) (.array c))

theorem OpEq.shape (hw : Reachable h w) {o o' : Operand K} (ho : OpEq w o o') : o.arr.shape = o'.arr.shape := by
  obtain ⟨v⟩ := exists_valuation hw.wf
  have key : ∀ p : Operand K, (v.physOp p).shape = p.arr.shape := fun p => by cases p <;> rfl
  rw [← key, ← key, (ho.same v).1]

theorem OpEq.meas {o o' : Operand K} (ho : OpEq w o o') (v : Valuation w) :
    NDArr.Same (v.measOp (.plain o)) (v.measOp (.plain o')) := map_rel _ (ho.same v)

theorem times_rel (hw : Reachable h w) {x x' : UQ K} {o o' : Operand K} (hx : MeasEq w x x') (ho : OpEq w o o') :
    OutRel (MeasEq w) (x.mul w (.plain o)) (x'.mul w (.plain o')) := by
  obtain ⟨a1, a2, a3⟩ := C39_times_exact hw x o hx.left ho.left
  obtain ⟨b1, b2, b3⟩ := C39_times_exact hw x' o' hx.right ho.right
  refine out_of (by rw [a1, b1, hx.shape hw, ho.shape hw]) a2 b2 (fun r r' hr hr' => ?_)
  have br := UQ.Built.mulPlain hx.left ho.left hr
  have br' := UQ.Built.mulPlain hx.right ho.right hr'
  refine ⟨br, br', compat_both hw (br.ok hw.wf).vdim (br'.ok hw.wf).vdim
    ((hx.left.ok hw.wf).vdim.mul ho.left) ((hx.right.ok hw.wf).vdim.mul ho.right) (a3 r hr).1 (b3 r' hr').1
    (compatible_mul hx.compatible ho.compatible), fun v => ?_⟩
  refine elementwise_same (hx.same v) (ho.meas v) ((a3 r hr).2 v) ((b3 r' hr').2 v) (fun i hi z z' hz hz' => ?_)
  exact meas_ext (hz.1.1.trans hz'.1.1.symm) (sigma_unique hz.2 hz'.2 hz.1.2 hz'.1.2)

theorem over_rel (hw : Reachable h w) {x x' : UQ K} {o o' : Operand K} (hx : MeasEq w x x') (ho : OpEq w o o') :
    OutRel (MeasEq w) (x.truediv w (.plain o)) (x'.truediv w (.plain o')) := by
  obtain ⟨a1, a2, a3⟩ := C39_over_exact hw x o hx.left ho.left
  obtain ⟨b1, b2, b3⟩ := C39_over_exact hw x' o' hx.right ho.right
  refine out_of (by rw [a1, b1, hx.shape hw, ho.shape hw]) a2 b2 (fun r r' hr hr' => ?_)
  have br := UQ.Built.divPlain hx.left ho.left hr
  have br' := UQ.Built.divPlain hx.right ho.right hr'
  refine ⟨br, br', compat_both hw (br.ok hw.wf).vdim (br'.ok hw.wf).vdim
    ((hx.left.ok hw.wf).vdim.div ho.left) ((hx.right.ok hw.wf).vdim.div ho.right) (a3 r hr).1 (b3 r' hr').1
    (compatible_div hx.compatible ho.compatible), fun v => ?_⟩
  refine elementwise_same (hx.same v) (ho.meas v) ((a3 r hr).2 v) ((b3 r' hr').2 v) (fun i hi z z' hz hz' => ?_)
  exact meas_ext (hz.1.1.trans hz'.1.1.symm) (sigma_unique hz.2 hz'.2 hz.1.2 hz'.1.2)

theorem exactMinus_rel (hw : Reachable h w) {x x' : UQ K} {o o' : Operand K} (hx : MeasEq w x x') (ho : OpEq w o o')
    (hs : HashSafe w o.dim x.val.dim) (hs' : HashSafe w o'.dim x'.val.dim) :
    OutRel (MeasEq w) (x.rsub w (.plain o)) (x'.rsub w (.plain o')) := by
  obtain ⟨a1, a2⟩ := C77_exact_minus_returns_partial hw x o hx.left ho.left hs
  obtain ⟨b1, b2⟩ := C77_exact_minus_returns_partial hw x' o' hx.right ho.right hs'
  refine out_of (by rw [a1, b1, hx.shape hw, ho.shape hw, compatible_congr hw ho.compatible hx.compatible]) a2 b2
    (fun r r' hr hr' => ?_)
  obtain ⟨c1, c2⟩ := C77_exact_minus_uncertain_partial hw x r o hx.left ho.left hs hr
  obtain ⟨d1, d2⟩ := C77_exact_minus_uncertain_partial hw x' r' o' hx.right ho.right hs' hr'
  have br := UQ.Built.rsub hx.left ho.left hs hr
  have br' := UQ.Built.rsub hx.right ho.right hs' hr'
  refine ⟨br, br', compat_both hw (br.ok hw.wf).vdim (br'.ok hw.wf).vdim
    (hx.left.ok hw.wf).vdim (hx.right.ok hw.wf).vdim c1 d1 hx.compatible, fun v => ?_⟩
  refine elementwise_same (ho.meas v) (hx.same v) (c2 v) (d2 v) (fun i hi z z' hz hz' => ?_)
  exact meas_ext (hz.1.trans hz'.1.symm) (sigma_unique hz.2.1 hz'.2.1 hz.2.2 hz'.2.2)

theorem exactOver_rel (hw : Reachable h w) {x x' : UQ K} {o o' : Operand K} (hx : MeasEq w x x') (ho : OpEq w o o')
    (hn : NDArr.All (fun m => m ≠ 0) x.val.mag) :
    OutRel (MeasEq w) (x.rtruediv w o) (x'.rtruediv w o') := by
  obtain ⟨a1, a2, -⟩ := C39_exact_over_returns hw x o hx.left ho.left
  obtain ⟨b1, b2, -⟩ := C39_exact_over_returns hw x' o' hx.right ho.right
  refine out_of (by rw [a1, b1, hx.shape hw, ho.shape hw]) a2 b2 (fun r r' hr hr' => ?_)
  obtain ⟨c1, c2⟩ := C39_exact_over hw x r o hx.left ho.left hr
  obtain ⟨d1, d2⟩ := C39_exact_over hw x' r' o' hx.right ho.right hr'
  have br := UQ.Built.rdiv hx.left ho.left hr
  have br' := UQ.Built.rdiv hx.right ho.right hr'
  refine ⟨br, br', compat_both hw (br.ok hw.wf).vdim (br'.ok hw.wf).vdim
    (ho.left.div (hx.left.ok hw.wf).vdim) (ho.right.div (hx.right.ok hw.wf).vdim) c1 d1
    (compatible_div ho.compatible hx.compatible), fun v => ?_⟩
  refine elementwise_same (ho.meas v) (hx.same v) (c2 v) (d2 v) (fun i hi z z' hz hz' => ?_)
  have hne : ((v.meas x).elem (NDArr.bidx (v.meas x).shape i)).value ≠ 0 :=
    mul_ne_zero (hn _ (NDArr.bidx_inb_right (c2 v).1 hi)) (v.size_pos _).ne'
  have q := hz hne
  have q' := hz' hne
  exact meas_ext (q.1.1.trans q'.1.1.symm) (sigma_unique q.2 q'.2 q.1.2 q'.1.2)

/-! ## One operand -/

theorem upow_meas (hw : Reachable h w) {x r : UQ K} {p : ℚ} (hx : UQ.Built w x) (hp : LiteralPow x.val.mag p)
    (hr : x.pow w (expOf p) = .ok r) (v : Valuation w) :
    r.val.dim = Dim.pow x.val.dim p ∧ NDArr.Same (v.meas r) ((v.meas x).map (fun m =>
      ⟨rpow m.value p, rpow m.value p * (p : K) * (m.sigma / m.value)⟩)) := by
  have hao := hx.ok hw.wf
  obtain ⟨hok, q, h1, h2, h3, h4, h5⟩ := uq_pow_spec hao hr
  have hsh : x.val.mag.shape = r.val.mag.shape := by
    have : NDArr.bshape x.val.mag.shape [] = some r.val.mag.shape := h4
    rw [NDArr.bshape_nil_right] at this
    exact Option.some.inj this
  have hq : ∀ i, NDArr.InB r.val.mag.shape i → p = q := fun i hi => (h5 i hi).1
  have hq' : q = p := (uniformExp_ok h1 [] List.Forall₂.nil).symm
  subst hq'
  refine ⟨h2, hsh.symm, fun i hi => ?_⟩
  obtain ⟨-, g2, g3⟩ := h5 i hi
  have hb : NDArr.bidx x.val.mag.shape i = i := by
    rw [hsh]; exact NDArr.bidx_self hi
  rw [hb] at g2 g3
  have hs := v.size_pos x.val.dim
  have hz : v.size r.val.dim = rpow (v.size x.val.dim) q := by
    rw [h2, Valuation.size, dsize_pow v.pos]; rfl
  have hm : rpow (x.val.mag.elem i) q * rpow (v.size x.val.dim) q
      = rpow (x.val.mag.elem i * v.size x.val.dim) q := by
    have hxi : NDArr.InB x.val.mag.shape i := hsh ▸ hi
    rcases hp with hp | ⟨n, rfl⟩ | ⟨hp, n, hn⟩
    · exact (rpow_mul_dom (.inl (hp i hxi)) hs).symm
    · rw [LawfulRPow.rpow_natCast, LawfulRPow.rpow_natCast, LawfulRPow.rpow_natCast, mul_pow]
    · exact (rpow_mul_dom (.inr ⟨hp i hxi, n, hn⟩) hs).symm
  simp only [Valuation.meas, NDArr.map, hao.size v, hok.size v, hz]
  refine meas_ext ?_ ?_
  · simp only; rw [g2, hm]
  · simp only
    rw [g3, g2, ← hm, mul_div_mul_right _ _ hs.ne']
    ring

theorem upow_rel (hw : Reachable h w) {x x' : UQ K} (p : ℚ) (hx : MeasEq w x x') (hp : LiteralPow x.val.mag p)
    (hp' : LiteralPow x'.val.mag p) : OutRel (MeasEq w) (x.pow w (expOf p)) (x'.pow w (expOf p)) := by
  obtain ⟨a1, a2⟩ := C75_power_returns_partial hw x (expOf p) hx.left
  obtain ⟨b1, b2⟩ := C75_power_returns_partial hw x' (expOf p) hx.right
  refine out_of (by rw [a1, b1, hx.shape hw]) a2 b2 (fun r r' hr hr' => ?_)
  refine ⟨.pow hx.left hr, .pow hx.right hr', ?_, fun v => ?_⟩
  · obtain ⟨v⟩ := exists_valuation hw.wf
    rw [(upow_meas hw hx.left hp hr v).1, (upow_meas hw hx.right hp' hr' v).1]
    exact compatible_pow hw hx.compatible p
  · exact (upow_meas hw hx.left hp hr v).2.trans ((map_rel _ (hx.same v)).trans
      (upow_meas hw hx.right hp' hr' v).2.symm)

theorem neg_rel (hw : Reachable h w) {x x' : UQ K} (hx : MeasEq w x x') :
    OutRel (MeasEq w) (x.neg w) (x'.neg w) :=
  times_rel hw (o := .array (NDArr.scalar (-1))) (o' := .array (NDArr.scalar (-1))) hx
    ⟨DimOK.nil w, DimOK.nil w, compatible_refl w _, fun _ => NDArr.Same.refl _⟩

/-- A subscript that reads inside the array. -/
theorem getitem_rel (hw : Reachable h w) {x x' : UQ K} (k : Key) (hx : MeasEq w x x')
    (hk : ∀ {a b : NDArr (Meas K)}, NDArr.Same a b → OutRel NDArr.Same (a.select k) (b.select k)) :
    OutRel (MeasEq w) (x.getitem w k) (x'.getitem w k) := by
  obtain ⟨a1, a2⟩ := uq_getitem_spec (hx.left.ok hw.wf) k
  obtain ⟨b1, b2⟩ := uq_getitem_spec (hx.right.ok hw.wf) k
  have hsh := hx.shape hw
  rcases h1 : x.getitem w k with e | r <;> rcases h2 : x'.getitem w k with e' | r'
  · have c1 := (a1 e).1 h1
    have c2 := (b1 e').1 h2
    rw [← hsh, c1] at c2
    exact Except.error.inj c2
  · have c1 := (a1 e).1 h1
    rw [hsh] at c1
    rw [(b1 e).2 c1] at h2
    exact absurd h2 (by simp)
  · have c1 := (b1 e').1 h2
    rw [← hsh] at c1
    rw [(a1 e').2 c1] at h1
    exact absurd h1 (by simp)
  · refine ⟨.getitem hx.left h1, .getitem hx.right h2, ?_, fun v => ?_⟩
    · rw [(a2 r h1).2.1, (b2 r' h2).2.1]; exact hx.compatible
    · have := hk (hx.same v)
      rw [(a2 r h1).2.2 v, (b2 r' h2).2.2 v] at this
      exact this

theorem total_unique (l : List (Meas K)) (z z' : Meas K) (h1 : IsTotal l z) (h2 : IsTotal l z') : z = z' :=
  meas_ext (h1.1.trans h2.1.symm) (sigma_unique h1.2.1 h2.2.1 h1.2.2 h2.2.2)

theorem average_unique (l : List (Meas K)) (z z' : Meas K) (h1 : IsAverage l z) (h2 : IsAverage l z') : z = z' :=
  meas_ext (h1.1.trans h2.1.symm) (sigma_unique h1.2.1 h2.2.1 h1.2.2 h2.2.2)

theorem usum_rel (hw : Reachable h w) {x x' : UQ K} (ax : Axis) (hx : MeasEq w x x') :
    OutRel (MeasEq w) (x.sum w ax) (x'.sum w ax) := by
  obtain ⟨a1, a2⟩ := C39_total hw x ax hx.left
  obtain ⟨b1, b2⟩ := C39_total hw x' ax hx.right
  have hsh := hx.shape hw
  rcases h1 : x.sum w ax with e | r <;> rcases h2 : x'.sum w ax with e' | r'
  · have c1 := (a1 e).1 h1
    have c2 := (b1 e').1 h2
    rw [← hsh, c1] at c2
    exact Except.error.inj c2
  · have c1 := (a1 e).1 h1
    rw [hsh] at c1
    rw [(b1 e).2 c1] at h2
    exact absurd h2 (by simp)
  · have c1 := (b1 e').1 h2
    rw [← hsh] at c1
    rw [(a1 e').2 c1] at h1
    exact absurd h1 (by simp)
  · refine ⟨.sum hx.left h1, .sum hx.right h2, ?_, fun v => ?_⟩
    · rw [(a2 r h1).1, (b2 r' h2).1]; exact hx.compatible
    · exact reduced_same total_unique (hx.same v) ((a2 r h1).2 v) ((b2 r' h2).2 v)

/-- The exception of `mean` depends on the shape and the axis only. -/
theorem umean_error (hw : Reachable h w) {x x' : UQ K} (ax : Axis) (hb : UQ.Built w x) (hb' : UQ.Built w x')
    (hsh : x.val.mag.shape = x'.val.mag.shape) {e : PyErr} (he : x.mean w ax = .error e) :
    x'.mean w ax = .error e := by
  have hr := C39_average_returns hw x ax hb
  have key : ∀ y : UQ K, UQ.Built w y → ∀ e, (NDArr.axisMask y.val.mag.shape.length ax = .error e ∨
      (∃ m, NDArr.axisMask y.val.mag.shape.length ax = .ok m) ∧ UQ.npSize y.val.mag.shape ax = .error e) →
      y.mean w ax = .error e := by
    rintro y hy e (h1 | ⟨⟨m, h1⟩, h2⟩)
    · unfold UQ.mean NDArr.reduce; rw [h1]; rfl
    · unfold UQ.mean NDArr.reduce; rw [h1, h2]; rfl
  rcases hm : NDArr.axisMask x.val.mag.shape.length ax with e0 | m
  · have h1 := key x hb e0 (.inl hm)
    rw [he] at h1
    obtain rfl := Except.error.inj h1
    exact key x' hb' e (.inl (hsh ▸ hm))
  · rcases hn : UQ.npSize x.val.mag.shape ax with e0 | n
    · have h1 := key x hb e0 (.inr ⟨⟨m, hm⟩, hn⟩)
      rw [he] at h1
      obtain rfl := Except.error.inj h1
      exact key x' hb' e (.inr ⟨⟨m, hsh ▸ hm⟩, hsh ▸ hn⟩)
    · exfalso
      have : Returns (x.mean w ax) := hr.2 ⟨⟨m, hm⟩, fun l hl => by subst hl; simp [UQ.npSize] at hn⟩
      rw [he] at this
      exact not_returns_error _ this

theorem umean_rel (hw : Reachable h w) {x x' : UQ K} (ax : Axis) (hx : MeasEq w x x') :
    OutRel (MeasEq w) (x.mean w ax) (x'.mean w ax) := by
  have hsh := hx.shape hw
  rcases h1 : x.mean w ax with e | r
  · rw [umean_error hw ax hx.left hx.right hsh h1]; rfl
  · rcases h2 : x'.mean w ax with e' | r'
    · rw [umean_error hw ax hx.right hx.left hsh.symm h2] at h1
      exact absurd h1 (by simp)
    · obtain ⟨-, a2, a3⟩ := uq_mean_spec (hx.left.ok hw.wf) ax r h1
      obtain ⟨-, b2, b3⟩ := uq_mean_spec (hx.right.ok hw.wf) ax r' h2
      refine ⟨.mean hx.left h1, .mean hx.right h2, by rw [a2, b2]; exact hx.compatible, fun v => ?_⟩
      exact reduced_same average_unique (hx.same v) (a3 v) (b3 v)

/-- The position of the best element does not depend on the units. -/
theorem best_pos (hw : Reachable h w) {x x' : UQ K} (lt : K → K → Bool)
    (hlt : ∀ s : K, 0 < s → ∀ a b, lt (a * s) (b * s) = lt a b) (hx : MeasEq w x x') :
    x.val.mag.argreduce lt .all = x'.val.mag.argreduce lt .all := by
  obtain ⟨v⟩ := exists_valuation hw.wf
  have hp : NDArr.Same (x.val.mag.map (· * v.size x.val.dim)) (x'.val.mag.map (· * v.size x'.val.dim)) :=
    ⟨(hx.same v).1, fun i hi => congrArg Meas.value ((hx.same v).2 i hi)⟩
  rw [← NDArr.argreduce_map (hlt _ (v.size_pos x.val.dim)) .all x.val.mag,
    ← NDArr.argreduce_map (hlt _ (v.size_pos x'.val.dim)) .all x'.val.mag]
  unfold NDArr.argreduce NDArr.size
  simp only
  rw [NDArr.toList_congr hp, hp.1]

theorem best_rel (hw : Reachable h w) {x x' : UQ K} (lt : K → K → Bool)
    (hlt : ∀ s : K, 0 < s → ∀ a b, lt (a * s) (b * s) = lt a b) (hx : MeasEq w x x') :
    OutRel (MeasEq w) (UQ.best lt w x) (UQ.best lt w x') := by
  unfold UQ.best
  rw [best_pos hw lt hlt hx, hx.shape hw]
  rcases x'.val.mag.argreduce lt .all with e | p
  · rfl
  · simp only [except_bind_ok]
    rcases hi : (NDArr.indices x'.val.mag.shape)[p.elem []]? with _ | i
    · rfl
    · have hin : NDArr.InB x'.val.mag.shape i := NDArr.mem_indices.1 (List.mem_of_getElem? hi)
      obtain ⟨a1, a2⟩ := uq_getitem_spec (hx.left.ok hw.wf) (fun _ => .ok ([], fun _ => i))
      obtain ⟨b1, b2⟩ := uq_getitem_spec (hx.right.ok hw.wf) (fun _ => .ok ([], fun _ => i))
      simp only
      rcases h1 : x.getitem w (fun _ => .ok ([], fun _ => i)) with e | r
      · exact absurd ((a1 e).1 h1) (by simp)
      rcases h2 : x'.getitem w (fun _ => .ok ([], fun _ => i)) with e | r'
      · exact absurd ((b1 e).1 h2) (by simp)
      refine ⟨.getitem hx.left h1, .getitem hx.right h2, ?_, fun v => ?_⟩
      · rw [(a2 r h1).2.1, (b2 r' h2).2.1]; exact hx.compatible
      · have e1 := (a2 r h1).2.2 v
        have e2 := (b2 r' h2).2.2 v
        simp only [NDArr.select, Except.ok.injEq] at e1 e2
        rw [← e1, ← e2]
        exact ⟨rfl, fun j _ => (hx.same v).2 i (by rw [show (v.meas x).shape = _ from hx.shape hw]; exact hin)⟩

theorem uun_rel (hw : Reachable h w) (u : UUn) {x x' : UQ K} (hx : MeasEq w x x')
    (hp : u = .sqrt → LiteralPow x.val.mag (1/2)) (hp' : u = .sqrt → LiteralPow x'.val.mag (1/2)) :
    OutRel (MeasEq w) (u.ap w x) (u.ap w x') := by
  cases u with
  | neg => exact neg_rel hw hx
  | sqrt => exact upow_rel hw _ hx (hp rfl) (hp' rfl)
  | item i => exact getitem_rel hw _ hx (fun hab => select_int_rel hab i)
  | sum ax => exact usum_rel hw ax hx
  | mean ax => exact umean_rel hw ax hx
  | max ax => exact best_rel hw _ (fun s hs a b => by simp [mul_lt_mul_iff_left₀ hs]) hx
  | min ax => exact best_rel hw _ (fun s hs a b => by simp [mul_lt_mul_iff_left₀ hs]) hx

theorem urescale_rel (hw : Reachable h w) {x x' : UQ K} (d : Dim) (hx : MeasEq w x x') (hd : DimOK w d)
    (hs : HashSafe w x.val.dim d) (hs' : HashSafe w x'.val.dim d) :
    OutRel (MeasEq w) (x.rescale w d) (x'.rescale w d) := by
  obtain ⟨a1, a2⟩ := C38_returns hw x d hx.left hd hs
  obtain ⟨b1, b2⟩ := C38_returns hw x' d hx.right hd hs'
  refine out_of (by rw [a1, b1, compatible_congr hw hx.compatible (compatible_refl w d)]) a2 b2 (fun r r' hr hr' => ?_)
  obtain ⟨c1, -, c3, -⟩ := C38_rescale hw x r d hx.left hd hs hr
  obtain ⟨d1, -, d3, -⟩ := C38_rescale hw x' r' d hx.right hd hs' hr'
  have br := UQ.Built.rescale hx.left hd hs hr
  have br' := UQ.Built.rescale hx.right hd hs' hr'
  refine ⟨br, br', compat_both hw (br.ok hw.wf).vdim (br'.ok hw.wf).vdim hd hd c1 d1 (compatible_refl w d),
    fun v => ?_⟩
  rw [c3 v, d3 v]
  exact hx.same v

/-! ## C116 -/

/-- C116: evaluated on the same measurements, written in whatever units, an expression gives the same measurement
with the same uncertainty, or raises the same exception. -/
theorem C116_expression (hw : Reachable h w) (t : UTerm K) (ρ σ : Env (Quantity K)) (μ ν : Env (UQ K))
    (hρ : EnvRel (PhysEq w) ρ σ) (hμ : EnvRel (MeasEq w) μ ν) (hs : t.Safe w ρ μ) (hs' : t.Safe w σ ν) :
    OutRel (MeasEq w) (t.eval w ρ μ) (t.eval w σ ν) := by
  induction t with
  | var x =>
    simp only [UTerm.eval, getVar]
    have := hμ x
    rcases h1 : μ x with _ | q <;> rcases h2 : ν x with _ | q' <;> rw [h1, h2] at this
    · rfl
    · cases this
    · cases this
    · cases this with | some hq => exact hq
  | bin op a b iha ihb =>
    simp only [UTerm.eval]
    refine OutRel.bind (iha hs.1 hs'.1) (fun x x' hx hx' hxx => ?_)
    refine OutRel.bind (ihb hs.2.1 hs'.2.1) (fun y y' hy hy' hyy => ?_)
    exact uarith_rel hw op hxx hyy (fun ho => hs.2.2 ho x y hx hy) (fun ho => hs'.2.2 ho x' y' hx' hy')
  | times a c ih =>
    simp only [UTerm.eval]
    refine OutRel.bind (ih hs.1 hs'.1) (fun x x' hx hx' hxx => ?_)
    exact OutRel.bind (exact_rel hw c ρ σ hρ hs.2 hs'.2) (fun o o' _ _ hoo => times_rel hw hxx hoo)
  | over a c ih =>
    simp only [UTerm.eval]
    refine OutRel.bind (ih hs.1 hs'.1) (fun x x' hx hx' hxx => ?_)
    exact OutRel.bind (exact_rel hw c ρ σ hρ hs.2 hs'.2) (fun o o' _ _ hoo => over_rel hw hxx hoo)
  | exactTimes c a ih =>
    simp only [UTerm.eval]
    refine OutRel.bind (exact_rel hw c ρ σ hρ hs.1 hs'.1) (fun o o' _ _ hoo => ?_)
    exact OutRel.bind (ih hs.2 hs'.2) (fun x x' hx hx' hxx => times_rel hw hxx hoo)
  | exactMinus c a ih =>
    simp only [UTerm.eval]
    refine OutRel.bind (exact_rel hw c ρ σ hρ hs.1 hs'.1) (fun o o' ho ho' hoo => ?_)
    exact OutRel.bind (ih hs.2.1 hs'.2.1) (fun x x' hx hx' hxx =>
      exactMinus_rel hw hxx hoo (hs.2.2 o x ho hx) (hs'.2.2 o' x' ho' hx'))
  | exactOver c a ih =>
    simp only [UTerm.eval]
    refine OutRel.bind (exact_rel hw c ρ σ hρ hs.1 hs'.1) (fun o o' ho ho' hoo => ?_)
    exact OutRel.bind (ih hs.2.1 hs'.2.1) (fun x x' hx hx' hxx => exactOver_rel hw hxx hoo (hs.2.2 x hx))
  | pow a p ih =>
    simp only [UTerm.eval]
    refine OutRel.bind (ih hs.1 hs'.1) (fun x x' hx hx' hxx => ?_)
    exact upow_rel hw p hxx (hs.2 x hx) (hs'.2 x' hx')
  | un u a ih =>
    simp only [UTerm.eval]
    exact OutRel.bind (ih hs.1 hs'.1) (fun x x' hx hx' hxx =>
      uun_rel hw u hxx (fun hu => hs.2 hu x hx) (fun hu => hs'.2 hu x' hx'))
  | inUnits a d ih =>
    simp only [UTerm.eval]
    refine OutRel.bind (ih hs.1 hs'.1) (fun x x' hx hx' hxx => ?_)
    exact urescale_rel hw d hxx hs.2.1 (hs.2.2 x hx) (hs'.2.2 x' hx')

/-- C116: reported in a given unit, the numbers are the same: the values and the uncertainties. -/
theorem C116_report (hw : Reachable h w) (t : UTerm K) (d : Dim) (ρ σ : Env (Quantity K)) (μ ν : Env (UQ K))
    (hρ : EnvRel (PhysEq w) ρ σ) (hμ : EnvRel (MeasEq w) μ ν) (hs : (t.inUnits d).Safe w ρ μ)
    (hs' : (t.inUnits d).Safe w σ ν) :
    OutRel (fun x y => NDArr.Same x.val.mag y.val.mag ∧ NDArr.Same x.unc.mag y.unc.mag ∧
        SameContent x.val.dim d ∧ SameContent x.unc.dim d ∧ SameContent y.val.dim d ∧ SameContent y.unc.dim d)
      ((t.inUnits d).eval w ρ μ) ((t.inUnits d).eval w σ ν) := by
  have ht := C116_expression hw t ρ σ μ ν hρ hμ hs.1 hs'.1
  simp only [UTerm.eval]
  refine OutRel.bind ht (fun x x' hx hx' hxx => ?_)
  have hr := urescale_rel hw d hxx hs.2.1 (hs.2.2 x hx) (hs'.2.2 x' hx')
  refine hr.mono (fun r r' h1 h2 hrr => ?_)
  obtain ⟨c1, c2, -, -⟩ := C38_rescale hw x r d hxx.left hs.2.1 (hs.2.2 x hx) h1
  obtain ⟨d1, d2, -, -⟩ := C38_rescale hw x' r' d hxx.right hs.2.1 (hs'.2.2 x' hx') h2
  obtain ⟨v⟩ := exists_valuation hw.wf
  have o1 := hrr.left.ok hw.wf
  have o2 := hrr.right.ok hw.wf
  have hz : v.size r.val.dim = v.size r'.val.dim :=
    dsize_same v.val o1.vdim.canon.nodup o2.vdim.canon.nodup (c1.trans d1.symm)
  have hsm := hrr.same v
  refine ⟨⟨hsm.1, fun i hi => ?_⟩, ⟨by rw [c2.2, d2.2]; exact hsm.1, fun i hi => ?_⟩, c1, c2.1.trans c1, d1,
    d2.1.trans d1⟩
  · have := congrArg Meas.value (hsm.2 i hi)
    simp only [Valuation.meas, hz] at this
    exact mul_right_cancel₀ (v.size_pos _).ne' this
  · have := congrArg Meas.sigma (hsm.2 i (c2.2 ▸ hi))
    simp only [Valuation.meas, o1.size v, o2.size v, hz] at this
    exact mul_right_cancel₀ (v.size_pos _).ne' this

/-! ### The hypotheses are met -/

/-- `a`: one and two kilometres, uncertain. -/
noncomputable def exKm : Env (UQ ℝ) := fun x => if x = "a" then some exUQ else none

/-- No ordinary variables. -/
def exNoVars : Env (Quantity ℝ) := fun _ => none

theorem ex_sum_km {r : UQ ℝ} (hr : exUQ.sum exWorld .all = .ok r) : r.val.dim = dKm :=
  ((C39_total exWorld_reachable exUQ .all exUQ_built).2 r hr).1

/-- The same measurement in metres: the total is evaluated in both units and reported in metres. -/
example : ∃ r, exUQ.rescale exWorld dM = .ok r ∧
    EnvRel (MeasEq exWorld) exKm (exKm.set "a" r) ∧
    ((UTerm.un (.sum .all) (.var "a")).inUnits dM).Safe exWorld exNoVars exKm ∧
    ((UTerm.un (.sum .all) (.var "a")).inUnits dM).Safe exWorld exNoVars (exKm.set "a" r) ∧
    Returns (((UTerm.un (.sum .all) (.var "a")).inUnits dM).eval exWorld exNoVars exKm) := by
  have hd : DimOK exWorld dM := ex_dimOK _ (by simp)
  obtain ⟨r, hr⟩ := (C38_returns exWorld_reachable exUQ dM exUQ_built hd ex_safe_km_m).1.2 ex_compat
  obtain ⟨c1, -, c3, -⟩ := C38_rescale exWorld_reachable exUQ r dM exUQ_built hd ex_safe_km_m hr
  have br := UQ.Built.rescale exUQ_built hd ex_safe_km_m hr
  have ho := br.ok exWorld_wf
  have hc : Compatible exWorld r.val.dim dM := compat_content ho.vdim hd c1 (compatible_refl _ _)
  have hsum : ∃ s, exUQ.sum exWorld .all = .ok s := by
    rcases hs : exUQ.sum exWorld .all with e | s
    · have := ((C39_total exWorld_reachable exUQ .all exUQ_built).1 e).1 hs
      exact absurd this (by simp [NDArr.axisMask])
    · exact ⟨s, rfl⟩
  refine ⟨r, hr, fun x => ?_, ⟨⟨trivial, fun hu => absurd hu (by rintro ⟨⟩)⟩, hd, fun x hx => ?_⟩,
    ⟨⟨trivial, fun hu => absurd hu (by rintro ⟨⟩)⟩, hd, fun x hx => ?_⟩, ?_⟩
  · by_cases hx : x = "a"
    · subst hx
      exact Option.Rel.some ⟨exUQ_built, br, compatible_trans ex_compat (compatible_symm exWorld_wf hc),
        fun v => by rw [c3 v]; exact NDArr.Same.refl _⟩
    · simp only [exKm, Env.set, if_neg hx]
      exact Option.Rel.none
  · have hx' : exUQ.sum exWorld .all = .ok x := hx
    rw [ex_sum_km hx']
    exact ex_safe_km_m
  · have hx' : r.sum exWorld .all = .ok x := hx
    have hdim := ((C39_total exWorld_reachable r .all br).2 x hx').1
    rw [hdim]
    exact HashSafe.of_same exWorld_wf ho.vdim hd c1
  · obtain ⟨s, hs⟩ := hsum
    have hb := UQ.Built.sum exUQ_built hs
    have hd' := ex_sum_km hs
    obtain ⟨t, ht⟩ := (C38_returns exWorld_reachable s dM hb hd (by rw [hd']; exact ex_safe_km_m)).1.2
      (by rw [hd']; exact ex_compat)
    refine ⟨t, ?_⟩
    show (getVar exKm "a" >>= (UUn.sum .all).ap exWorld >>= fun x => x.rescale exWorld dM) = _
    have : getVar exKm "a" = .ok exUQ := rfl
    rw [this]
    show (exUQ.sum exWorld .all >>= fun x => x.rescale exWorld dM) = _
    rw [hs]
    exact ht

end PQ.Client
