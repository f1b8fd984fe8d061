import Verif.Spec.Variance
import Verif.Props.UncertainPrograms

/-!
# C118: uncertain expressions are computed by propagating variances
-/

set_option linter.unusedSectionVars false

namespace PQ.Client

open LawfulRPow World

variable {K : Type _} [Field K] [LinearOrder K] [IsStrictOrderedRing K] [RPow K] [LawfulRPow K] [PyFloor K]
variable {h : Hasher} {w : World K}

theorem bin_shape_none {α β γ : Type _} (f : α → β → γ) {a : NDArr α} {b : NDArr β}
    (hs : NDArr.bshape a.shape b.shape = none) : NDArr.bin f a b = .error .valueError := by
  unfold NDArr.bin; rw [hs]

/-- A call that returns exactly when the shapes can be broadcast, and computes elementwise. -/
theorem num_of {α β α' β' : Type _} {R : α → β → Meas K → Prop} {A : NDArr α} {B : NDArr β} {A' : NDArr α'}
    {B' : NDArr β'} {v : Valuation w} {d : Dim} {res : Py (UQ K)} (p : α → α') (q : β → β')
    (f : α' → β' → Spread K) (hA : NDArr.Same (A.map p) A') (hB : NDArr.Same (B.map q) B')
    (hret : Returns res ↔ (NDArr.bshape A.shape B.shape).isSome) (herr : ∀ e, res = .error e → e = .valueError)
    (hok : ∀ r, res = .ok r → UQ.Built w r ∧ Compatible w r.val.dim d ∧ Elementwise R A B (v.meas r))
    (hf : ∀ i j z, NDArr.InB A.shape i → NDArr.InB B.shape j → R (A.elem i) (B.elem j) z →
      Meas.spread z = f (p (A.elem i)) (q (B.elem j))) :
    OutRel (UDenotes w v d) res (NDArr.bin f A' B') := by
  have sA : A.shape = A'.shape := hA.1
  have sB : B.shape = B'.shape := hB.1
  rcases hr : res with e | r
  · rcases hs : NDArr.bshape A.shape B.shape with _ | s
    · rw [bin_shape_none f (by rw [← sA, ← sB]; exact hs)]
      exact herr e hr
    · rw [hs, hr] at hret
      exact absurd (hret.2 rfl) (not_returns_error _)
  · obtain ⟨o1, o2, o3, o4⟩ := hok r hr
    unfold NDArr.bin
    rw [← sA, ← sB, o3]
    refine ⟨o1, o2, rfl, fun i hi => ?_⟩
    have hi' : NDArr.InB (v.meas r).shape i := hi
    have iA := NDArr.bidx_inb o3 hi'
    have iB := NDArr.bidx_inb_right o3 hi'
    have := hf _ _ _ iA iB (o4 i hi')
    show Meas.spread ((v.meas r).elem i) = f (A'.elem _) (B'.elem _)
    rw [this, ← hA.2 _ iA, ← hB.2 _ iB]
    rfl

/-- A condition on the numbers holds of the measurements. -/
theorem UDenotes.all {v : Valuation w} {d : Dim} {x : UQ K} {m : NDArr (Spread K)} (hx : UDenotes w v d x m)
    {P : K → Prop} (hm : NDArr.All (fun z => P z.value) m) :
    ∀ i, NDArr.InB (v.meas x).shape i → P ((v.meas x).elem i).value := fun i hi => by
  have := hm i (hx.same.1 ▸ hi)
  rw [← hx.same.2 i hi] at this
  exact this

theorem UDenotes.conv {v : Valuation w} {d e : Dim} {r : UQ K} {m : NDArr (Spread K)} (hr : UDenotes w v d r m)
    (hc : Compatible w d e) : UDenotes w v e r m := ⟨hr.built, compatible_trans hr.kind hc, hr.same⟩

theorem spread_ext {z z' : Spread K} (h1 : z.value = z'.value) (h2 : z.variance = z'.variance) : z = z' := by
  cases z; cases z'; simp only at h1 h2; rw [h1, h2]

theorem uadd_num (hw : Reachable h w) (v : Valuation w) {x y : UQ K} {m n : NDArr (Spread K)} {d e : Dim}
    (hx : UDenotes w v d x m) (hy : UDenotes w v e y n) (hc : Compatible w e d)
    (hs : HashSafe w y.val.dim x.val.dim) :
    OutRel (UDenotes w v d) (x.add w (.uq y)) (NDArr.bin UArith.add.spread m n) := by
  obtain ⟨a1, a2, a3⟩ := C39_sum hw x y hx.built hy.built hs
  have hcomp : Compatible w y.val.dim x.val.dim :=
    compatible_trans (compatible_trans hy.kind hc) (compatible_symm hw.wf hx.kind)
  refine num_of Meas.spread Meas.spread _ hx.same hy.same (a1.trans (and_iff_right hcomp)) a2 (fun r hr => ?_)
    (R := IsSum) (fun i j z _ _ hz => ?_)
  · have br := UQ.Built.add hx.built hy.built hs hr
    exact ⟨br, compat_content (br.ok hw.wf).vdim (hx.built.ok hw.wf).vdim (a3 r hr).1 hx.kind, (a3 r hr).2 v⟩
  · exact spread_ext hz.1 hz.2.2

theorem usub_num (hw : Reachable h w) (v : Valuation w) {x y : UQ K} {m n : NDArr (Spread K)} {d e : Dim}
    (hx : UDenotes w v d x m) (hy : UDenotes w v e y n) (hc : Compatible w e d)
    (hs : HashSafe w y.val.dim x.val.dim) :
    OutRel (UDenotes w v d) (x.sub w (.uq y)) (NDArr.bin UArith.sub.spread m n) := by
  obtain ⟨a1, a2, a3⟩ := C39_difference hw x y hx.built hy.built hs
  have hcomp : Compatible w y.val.dim x.val.dim :=
    compatible_trans (compatible_trans hy.kind hc) (compatible_symm hw.wf hx.kind)
  refine num_of Meas.spread Meas.spread _ hx.same hy.same (a1.trans (and_iff_right hcomp)) a2 (fun r hr => ?_)
    (R := IsDifference) (fun i j z _ _ hz => ?_)
  · have br := UQ.Built.sub hx.built hy.built hs hr
    exact ⟨br, compat_content (br.ok hw.wf).vdim (hx.built.ok hw.wf).vdim (a3 r hr).1 hx.kind, (a3 r hr).2 v⟩
  · exact spread_ext hz.1 hz.2.2

theorem umul_num (hw : Reachable h w) (v : Valuation w) {x y : UQ K} {m n : NDArr (Spread K)} {d e : Dim}
    (hx : UDenotes w v d x m) (hy : UDenotes w v e y n) (nx : NDArr.All (fun z => z.value ≠ 0) m)
    (ny : NDArr.All (fun z => z.value ≠ 0) n) :
    OutRel (UDenotes w v (Dim.mul d e)) (x.mul w (.uq y)) (NDArr.bin UArith.mul.spread m n) := by
  obtain ⟨a1, a2, a3⟩ := C75_product_partial hw x y hx.built hy.built
  refine num_of Meas.spread Meas.spread _ hx.same hy.same a1 a2 (fun r hr => ?_)
    (R := fun x y z => x.value ≠ 0 → y.value ≠ 0 → IsProductUpToSign x y z ∧ (0 < z.value → IsProduct x y z))
    (fun i j z hi hj hz => ?_)
  · have br := UQ.Built.mul hx.built hy.built hr
    exact ⟨br, by rw [(a3 r hr).1]; exact compatible_mul hx.kind hy.kind, (a3 r hr).2 v⟩
  · obtain ⟨⟨h1, h2⟩, -⟩ := hz (hx.all (P := fun z => z ≠ 0) nx i hi) (hy.all (P := fun z => z ≠ 0) ny j hj)
    exact spread_ext h1 (by simp only [Meas.spread, UArith.spread]; rw [h2]; ring)

theorem udiv_num (hw : Reachable h w) (v : Valuation w) {x y : UQ K} {m n : NDArr (Spread K)} {d e : Dim}
    (hx : UDenotes w v d x m) (hy : UDenotes w v e y n) (nx : NDArr.All (fun z => z.value ≠ 0) m)
    (ny : NDArr.All (fun z => z.value ≠ 0) n) :
    OutRel (UDenotes w v (Dim.div d e)) (x.truediv w (.uq y)) (NDArr.bin UArith.div.spread m n) := by
  obtain ⟨a1, a2, a3⟩ := C75_quotient_partial hw x y hx.built hy.built
  refine num_of Meas.spread Meas.spread _ hx.same hy.same a1 a2 (fun r hr => ?_)
    (R := fun x y z => x.value ≠ 0 → y.value ≠ 0 → IsQuotientUpToSign x y z ∧ (0 < z.value → IsQuotient x y z))
    (fun i j z hi hj hz => ?_)
  · have br := UQ.Built.div hx.built hy.built hr
    exact ⟨br, by rw [(a3 r hr).1]; exact compatible_div hx.kind hy.kind, (a3 r hr).2 v⟩
  · obtain ⟨⟨h1, h2⟩, -⟩ := hz (hx.all (P := fun z => z ≠ 0) nx i hi) (hy.all (P := fun z => z ≠ 0) ny j hj)
    refine spread_ext h1 ?_
    simp only [Meas.spread, UArith.spread]
    rw [h2, div_pow, div_pow, mul_pow, ← pow_mul]

/-! ## Exact operands -/

/-- The exact operand has units of the kind of `d` and its value is `m`. -/
structure ODenotes (w : World K) (v : Valuation w) (d : Dim) (o : Operand K) (m : NDArr K) : Prop where
  ok : DimOK w o.dim
  kind : Compatible w o.dim d
  same : NDArr.Same (v.physOp o) m

theorem exact_num (hw : Reachable h w) (v : Valuation w) (Γ : Env Dim) (c : Exact K) (d : Dim)
    (hc : c.HasUnits w Γ d) (ρ : Env (Quantity K)) (σ : Env (NDArr K)) (hρ : Declares w Γ ρ)
    (hσ : EnvRel (IsValue v) ρ σ) (hs : c.Safe w ρ) : OutRel (ODenotes w v d) (c.eval w ρ) (c.num v σ) := by
  cases hc with
  | @quantity t _ ht =>
    have key := C101_term hw v Γ t d ht ρ σ hρ hσ hs
    show OutRel (ODenotes w v d) (t.eval w ρ >>= fun q => .ok (Operand.quantity q)) (t.num v σ)
    rcases h1 : t.eval w ρ with e | q <;> rcases h2 : t.num v σ with e' | m <;> rw [h1, h2] at key
    · exact key
    · exact key.elim
    · exact key.elim
    · exact ⟨key.ok, key.kind, key.same⟩
  | number c => exact ⟨DimOK.nil w, compatible_refl w _, NDArr.Same.refl _⟩

theorem ODenotes.meas {v : Valuation w} {d : Dim} {o : Operand K} {m : NDArr K} (ho : ODenotes w v d o m) :
    NDArr.Same ((v.measOp (.plain o)).map Meas.value) m := ⟨ho.same.1, ho.same.2⟩

theorem measOp_shape (v : Valuation w) (o : Operand K) : (v.measOp (.plain o)).shape = o.arr.shape := by
  cases o <;> rfl

theorem measOp_sigma (v : Valuation w) (o : Operand K) (i : List Nat) : ((v.measOp (.plain o)).elem i).sigma = 0 := rfl

theorem utimes_num (hw : Reachable h w) (v : Valuation w) {x : UQ K} {o : Operand K} {m : NDArr (Spread K)}
    {n : NDArr K} {d e : Dim} (hx : UDenotes w v d x m) (ho : ODenotes w v e o n) :
    OutRel (UDenotes w v (Dim.mul d e)) (x.mul w (.plain o))
      (NDArr.bin (fun (x : Spread K) c => (⟨x.value * c, c ^ 2 * x.variance⟩ : Spread K)) m n) := by
  obtain ⟨a1, a2, a3⟩ := C39_times_exact hw x o hx.built ho.ok
  refine num_of Meas.spread Meas.value _ hx.same ho.meas (a1.trans (by rw [measOp_shape]; rfl)) a2 (fun r hr => ?_)
    (R := fun (x : Meas K) y z => y.sigma = 0 → IsProduct x y z) (fun i j z hi hj hz => ?_)
  · have br := UQ.Built.mulPlain hx.built ho.ok hr
    obtain ⟨b1, b2⟩ := a3 r hr
    exact ⟨br, compat_content (br.ok hw.wf).vdim ((hx.built.ok hw.wf).vdim.mul ho.ok) b1
      (compatible_mul hx.kind ho.kind), (b2 v).1, fun i hi _ => (b2 v).2 i hi⟩
  · obtain ⟨⟨h1, h2⟩, -⟩ := hz (measOp_sigma v o j)
    refine spread_ext h1 ?_
    simp only [Meas.spread]
    rw [h2, measOp_sigma v o j]
    ring

theorem uover_num (hw : Reachable h w) (v : Valuation w) {x : UQ K} {o : Operand K} {m : NDArr (Spread K)}
    {n : NDArr K} {d e : Dim} (hx : UDenotes w v d x m) (ho : ODenotes w v e o n) :
    OutRel (UDenotes w v (Dim.div d e)) (x.truediv w (.plain o))
      (NDArr.bin (fun (x : Spread K) c => (⟨x.value / c, x.variance / c ^ 2⟩ : Spread K)) m n) := by
  obtain ⟨a1, a2, a3⟩ := C39_over_exact hw x o hx.built ho.ok
  refine num_of Meas.spread Meas.value _ hx.same ho.meas (a1.trans (by rw [measOp_shape]; rfl)) a2 (fun r hr => ?_)
    (R := fun (x : Meas K) y z => y.sigma = 0 → IsQuotient x y z) (fun i j z hi hj hz => ?_)
  · have br := UQ.Built.divPlain hx.built ho.ok hr
    obtain ⟨b1, b2⟩ := a3 r hr
    exact ⟨br, compat_content (br.ok hw.wf).vdim ((hx.built.ok hw.wf).vdim.div ho.ok) b1
      (compatible_div hx.kind ho.kind), (b2 v).1, fun i hi _ => (b2 v).2 i hi⟩
  · obtain ⟨⟨h1, h2⟩, -⟩ := hz (measOp_sigma v o j)
    refine spread_ext h1 ?_
    simp only [Meas.spread]
    rw [h2, measOp_sigma v o j, mul_zero, zero_div, div_pow]
    ring

theorem uminus_num (hw : Reachable h w) (v : Valuation w) {x : UQ K} {o : Operand K} {m : NDArr (Spread K)}
    {n : NDArr K} {d e : Dim} (hx : UDenotes w v d x m) (ho : ODenotes w v e o n) (hc : Compatible w e d)
    (hs : HashSafe w o.dim x.val.dim) :
    OutRel (UDenotes w v d) (x.rsub w (.plain o))
      (NDArr.bin (fun c (x : Spread K) => (⟨c - x.value, x.variance⟩ : Spread K)) n m) := by
  obtain ⟨a1, a2⟩ := C77_exact_minus_returns_partial hw x o hx.built ho.ok hs
  have hcomp : Compatible w o.dim x.val.dim :=
    compatible_trans (compatible_trans ho.kind hc) (compatible_symm hw.wf hx.kind)
  refine num_of Meas.value Meas.spread _ ho.meas hx.same ((a1.trans (and_iff_right hcomp)).trans
    (by rw [measOp_shape]; rfl)) a2 (fun r hr => ?_)
    (R := fun (x : Meas K) y z => x.sigma = 0 → IsDifference x y z) (fun i j z hi hj hz => ?_)
  · have br := UQ.Built.rsub hx.built ho.ok hs hr
    obtain ⟨b1, b2⟩ := C77_exact_minus_uncertain_partial hw x r o hx.built ho.ok hs hr
    exact ⟨br, compat_content (br.ok hw.wf).vdim (hx.built.ok hw.wf).vdim b1 hx.kind, (b2 v).1,
      fun i hi _ => (b2 v).2 i hi⟩
  · obtain ⟨h1, -, h2⟩ := hz (measOp_sigma v o i)
    refine spread_ext h1 ?_
    simp only [Meas.spread]
    rw [h2, measOp_sigma v o i]
    ring

theorem urover_num (hw : Reachable h w) (v : Valuation w) {x : UQ K} {o : Operand K} {m : NDArr (Spread K)}
    {n : NDArr K} {d e : Dim} (hx : UDenotes w v d x m) (ho : ODenotes w v e o n)
    (nx : NDArr.All (fun z => z.value ≠ 0) m) :
    OutRel (UDenotes w v (Dim.div e d)) (x.rtruediv w o)
      (NDArr.bin (fun c (x : Spread K) => (⟨c / x.value, c ^ 2 * x.variance / x.value ^ 4⟩ : Spread K)) n m) := by
  obtain ⟨a1, a2, -⟩ := C39_exact_over_returns hw x o hx.built ho.ok
  refine num_of Meas.value Meas.spread _ ho.meas hx.same (a1.trans (by rw [measOp_shape]; rfl)) a2 (fun r hr => ?_)
    (R := fun (x : Meas K) y z => x.sigma = 0 → y.value ≠ 0 → IsQuotient x y z) (fun i j z hi hj hz => ?_)
  · have br := UQ.Built.rdiv hx.built ho.ok hr
    obtain ⟨b1, b2⟩ := C39_exact_over hw x r o hx.built ho.ok hr
    exact ⟨br, compat_content (br.ok hw.wf).vdim (ho.ok.div (hx.built.ok hw.wf).vdim) b1
      (compatible_div ho.kind hx.kind), (b2 v).1, fun i hi _ => (b2 v).2 i hi⟩
  · obtain ⟨⟨h1, h2⟩, -⟩ := hz (measOp_sigma v o i) (hx.all (P := fun z => z ≠ 0) nx j hj)
    refine spread_ext h1 ?_
    simp only [Meas.spread]
    rw [h2, measOp_sigma v o i, zero_div, div_pow, mul_pow, ← pow_mul]
    ring

/-! ## One operand -/

theorem upow_num (hw : Reachable h w) (v : Valuation w) {x : UQ K} {m : NDArr (Spread K)} {d : Dim} (p : ℚ)
    (hx : UDenotes w v d x m) (hp : NDArr.All (fun z => 0 < z.value ∨ z.value ≠ 0 ∧ ∃ n : ℤ, p = n) m) :
    OutRel (UDenotes w v (Dim.pow d p)) (x.pow w (expOf p)) (.ok (m.map (Spread.pow p))) := by
  obtain ⟨a1, -⟩ := C75_power_returns_partial hw x (expOf p) hx.built
  have hb : (NDArr.bshape x.val.mag.shape (expOf p).vals.shape).isSome = true := by
    show (NDArr.bshape x.val.mag.shape []).isSome = true
    rw [NDArr.bshape_nil_right]; rfl
  obtain ⟨r, hr⟩ := a1.2 ⟨fun d hd => absurd (show (none : Option Dim) = some d from hd) (by simp),
    ⟨[], p, List.Forall₂.nil, rfl, fun _ _ => rfl⟩, hb⟩
  rw [hr]
  obtain ⟨q, b1, b2, b3⟩ := C75_power_partial hw x r (expOf p) hx.built hr
  obtain rfl : p = q := b1 [] List.Forall₂.nil
  have hsh : (v.meas x).shape = (v.meas r).shape := by
    have : NDArr.bshape (v.meas x).shape [] = some (v.meas r).shape := (b3 v).1
    rw [NDArr.bshape_nil_right] at this
    exact Option.some.inj this
  refine ⟨.pow hx.built hr, by rw [b2]; exact compatible_pow hw hx.kind p, hsh.symm.trans hx.same.1, fun i hi => ?_⟩
  have hi' : NDArr.InB (v.meas x).shape i := hsh ▸ hi
  have key := (b3 v).2 i hi
  rw [show NDArr.bidx (v.meas x).shape i = i from NDArr.bidx_self hi'] at key
  obtain ⟨⟨h1, h2⟩, -⟩ := key (hx.all (P := fun z => 0 < z ∨ z ≠ 0 ∧ ∃ n : ℤ, p = n) hp i hi')
  show Meas.spread _ = Spread.pow p (m.elem i)
  rw [← hx.same.2 i hi']
  exact spread_ext h1 (by simp only [Meas.spread, Spread.pow, NDArr.map]; rw [h2, mul_pow])

theorem uneg_num (hw : Reachable h w) (v : Valuation w) {x : UQ K} {m : NDArr (Spread K)} {d : Dim}
    (hx : UDenotes w v d x m) :
    OutRel (UDenotes w v d) (x.neg w) (.ok (m.map (fun x => ⟨-x.value, x.variance⟩))) := by
  obtain ⟨r, hr, r1, r2⟩ := C39_neg hw x hx.built
  rw [hr]
  have br := UQ.Built.neg hx.built hr
  obtain ⟨s1, s2⟩ := r2 v
  refine ⟨br, compat_content (br.ok hw.wf).vdim (hx.built.ok hw.wf).vdim r1 hx.kind, s1.trans hx.same.1, fun i hi => ?_⟩
  have hi' : NDArr.InB (v.meas x).shape i := s1 ▸ hi
  obtain ⟨h1, -, h2⟩ := s2 i hi'
  show Meas.spread _ = _
  simp only [NDArr.map]
  rw [← hx.same.2 i hi']
  exact spread_ext h1 h2

theorem select_map {α β : Type _} (f : α → β) (a : NDArr α) (k : Key) :
    (a.map f).select k = (a.select k).map (NDArr.map f) := by
  unfold NDArr.select
  show (match k a.shape with | .error e => _ | .ok (s, g) => _) = _
  rcases k a.shape with e | ⟨s, g⟩ <;> rfl

theorem uitem_num (hw : Reachable h w) (v : Valuation w) {x : UQ K} {m : NDArr (Spread K)} {d : Dim} (i : Int)
    (hx : UDenotes w v d x m) : OutRel (UDenotes w v d) (x.getitem w (Key.int i)) (m.select (Key.int i)) := by
  obtain ⟨a1, a2⟩ := C39_getitem hw x (Key.int i) hx.built
  have key := select_int_rel hx.same i
  rw [select_map] at key
  rcases h1 : x.getitem w (Key.int i) with e | r
  · have := (a1 e).1 h1
    have h2 : (v.meas x).select (Key.int i) = .error e := by
      unfold NDArr.select
      rw [show (v.meas x).shape = x.val.mag.shape from rfl, this]
    rw [h2] at key
    rcases h3 : m.select (Key.int i) with e' | n <;> rw [h3] at key
    · exact key
    · exact key.elim
  · rw [(a2 r h1).2 v] at key
    rcases h2 : m.select (Key.int i) with e | n <;> rw [h2] at key
    · exact key
    · exact ⟨.getitem hx.built h1, by rw [(a2 r h1).1]; exact hx.kind, key⟩

theorem ureduce_num (v : Valuation w) {x : UQ K} {m : NDArr (Spread K)} {d : Dim} {ax : Axis} {res : Py (UQ K)}
    {R : List (Meas K) → Meas K → Prop} (f : List (Spread K) → Spread K) (hx : UDenotes w v d x m)
    (herr : ∀ e, res = .error e ↔ NDArr.axisMask x.val.mag.shape.length ax = .error e)
    (hok : ∀ r, res = .ok r → UQ.Built w r ∧ r.val.dim = x.val.dim ∧ ReducedBy R ax (v.meas x) (v.meas r))
    (hf : ∀ l z, R l z → Meas.spread z = f (l.map Meas.spread)) :
    OutRel (UDenotes w v d) res (m.reduce f ax) := by
  have key := reduce_rel f ax hx.same
  rcases h1 : res with e | r
  · have := (herr e).1 h1
    unfold NDArr.reduce
    rw [← hx.same.1]
    show OutRel _ _ (match NDArr.axisMask x.val.mag.shape.length ax with | .error e => _ | .ok m => _)
    rw [this]
    rfl
  · obtain ⟨b1, b2, L, l1, l2, l3⟩ := hok r h1
    have e1 : ((v.meas x).map Meas.spread).reduce f ax = .ok (L.map (fun l => f (l.map Meas.spread))) := by
      unfold NDArr.reduce at l1 ⊢
      rw [show ((v.meas x).map Meas.spread).shape = (v.meas x).shape from rfl]
      rcases hm : NDArr.axisMask (v.meas x).shape.length ax with e | mk <;> rw [hm] at l1
      · exact absurd l1 (by simp)
      · simp only [Except.ok.injEq] at l1 ⊢
        subst l1
        simp only [NDArr.reduceMask, NDArr.map, id, List.map_map]
        rfl
    rw [e1] at key
    rcases h2 : m.reduce f ax with e | n <;> rw [h2] at key
    · exact key.elim
    · refine ⟨b1, by rw [b2]; exact hx.kind, l2.symm.trans key.1, fun i hi => ?_⟩
      have hi' : NDArr.InB (v.meas r).shape i := hi
      show Meas.spread ((v.meas r).elem i) = n.elem i
      rw [← key.2 i (l2 ▸ hi'), hf _ _ (l3 i hi')]
      rfl

theorem usum_num (hw : Reachable h w) (v : Valuation w) {x : UQ K} {m : NDArr (Spread K)} {d : Dim} (ax : Axis)
    (hx : UDenotes w v d x m) : OutRel (UDenotes w v d) (x.sum w ax) (m.reduce Spread.total ax) := by
  obtain ⟨a1, a2⟩ := C39_total hw x ax hx.built
  refine ureduce_num v (R := IsTotal) Spread.total hx a1
    (fun r hr => ⟨.sum hx.built hr, (a2 r hr).1, (a2 r hr).2 v⟩) (fun l z hz => ?_)
  refine spread_ext ?_ ?_
  · show z.value = _
    rw [hz.1]; simp only [Spread.total, List.map_map]; rfl
  · show z.sigma ^ 2 = _
    rw [hz.2.2]; simp only [Spread.total, List.map_map]; rfl

theorem umean_num (hw : Reachable h w) (v : Valuation w) {x : UQ K} {m : NDArr (Spread K)} {d : Dim} (ax : Axis)
    (hax : ∀ l, ax ≠ .many l) (hx : UDenotes w v d x m) :
    OutRel (UDenotes w v d) (x.mean w ax) (m.reduce Spread.average ax) := by
  have hr := C39_average_returns hw x ax hx.built
  refine ureduce_num v (R := IsAverage) Spread.average hx (fun e => ?_)
    (fun r hr => ⟨.mean hx.built hr, (C39_average hw x r ax hx.built hr).1, (C39_average hw x r ax hx.built hr).2 v⟩)
    (fun l z hz => ?_)
  · constructor
    · intro he
      rcases hm : NDArr.axisMask x.val.mag.shape.length ax with e0 | mk
      · have : x.mean w ax = .error e0 := by unfold UQ.mean NDArr.reduce; rw [hm]; rfl
        rw [he] at this
        rw [Except.error.inj this]
      · exact absurd (hr.2 ⟨⟨mk, hm⟩, hax⟩) (by rw [he]; exact not_returns_error _)
    · intro hm
      unfold UQ.mean NDArr.reduce; rw [hm]; rfl
  · refine spread_ext ?_ ?_
    · show z.value = _
      rw [hz.1]; simp only [Spread.average, List.map_map, List.length_map]; rfl
    · show z.sigma ^ 2 = _
      rw [hz.2.2]; simp only [Spread.average, List.map_map, List.length_map]; rfl

theorem ubest_num (hw : Reachable h w) (v : Valuation w) {x : UQ K} {m : NDArr (Spread K)} {d : Dim}
    (lt : K → K → Bool) (hlt : ∀ s : K, 0 < s → ∀ a b, lt (a * s) (b * s) = lt a b) (hx : UDenotes w v d x m) :
    OutRel (UDenotes w v d) (UQ.best lt w x) (bestOf lt m) := by
  have hsh : x.val.mag.shape = m.shape := hx.same.1
  have hval : NDArr.Same (x.val.mag.map (· * v.size x.val.dim)) (m.map Spread.value) :=
    ⟨hsh, fun i hi => by
      have := congrArg Spread.value (hx.same.2 i hi)
      exact this⟩
  have harg : (m.map Spread.value).argreduce lt .all = x.val.mag.argreduce lt .all := by
    rw [← NDArr.argreduce_map (hlt _ (v.size_pos x.val.dim)) .all x.val.mag]
    unfold NDArr.argreduce NDArr.size
    simp only
    rw [NDArr.toList_congr hval, hval.1]
  unfold UQ.best bestOf
  rw [harg]
  rcases x.val.mag.argreduce lt .all with e | p
  · rfl
  · simp only [except_bind_ok]
    have hget : m.toList[p.elem []]? = ((NDArr.indices x.val.mag.shape)[p.elem []]?).map m.elem := by
      unfold NDArr.toList; rw [List.getElem?_map, hsh]
    rw [hget]
    rcases hi : (NDArr.indices x.val.mag.shape)[p.elem []]? with _ | i
    · rfl
    · have hin : NDArr.InB x.val.mag.shape i := NDArr.mem_indices.1 (List.mem_of_getElem? hi)
      obtain ⟨a1, a2⟩ := uq_getitem_spec (hx.built.ok hw.wf) (fun _ => .ok ([], fun _ => i))
      simp only [Option.map_some]
      rcases h1 : x.getitem w (fun _ => .ok ([], fun _ => i)) with e | r
      · exact absurd ((a1 e).1 h1) (by simp)
      · have e1 := (a2 r h1).2.2 v
        simp only [NDArr.select, Except.ok.injEq] at e1
        refine ⟨.getitem hx.built h1, by rw [(a2 r h1).2.1]; exact hx.kind, ?_⟩
        unfold IsSpread
        rw [← e1]
        exact ⟨rfl, fun j _ => hx.same.2 i hin⟩

theorem uun_num (hw : Reachable h w) (v : Valuation w) {x : UQ K} {m : NDArr (Spread K)} {d : Dim} (u : UUn)
    (hu : u.Fine) (hx : UDenotes w v d x m) (hp : u = .sqrt → NDArr.All (fun z => 0 < z.value) m) :
    OutRel (UDenotes w v (u.kind d)) (u.ap w x) (u.num m) := by
  cases u with
  | neg => exact uneg_num hw v hx
  | sqrt => exact upow_num hw v (1/2) hx (fun i hi => .inl (hp rfl i hi))
  | item i => exact uitem_num hw v i hx
  | sum ax => exact usum_num hw v ax hx
  | mean ax => exact umean_num hw v ax hu hx
  | max ax => exact ubest_num hw v _ (fun s hs a b => by simp [mul_lt_mul_iff_left₀ hs]) hx
  | min ax => exact ubest_num hw v _ (fun s hs a b => by simp [mul_lt_mul_iff_left₀ hs]) hx

/-! ## C118 -/

/-- C118: an expression with uncertain quantities whose units check has the units announced; its values and
variances are those computed on bare numbers, in any one coherent system of units, by the textbook rules; and it
raises only the exceptions that the computation on bare numbers raises. -/
theorem C118_expression (hw : Reachable h w) (v : Valuation w) (Γ Δ : Env Dim) (t : UTerm K) (d : Dim)
    (ht : UHasUnits w Γ Δ t d) (ρ : Env (Quantity K)) (σ : Env (NDArr K)) (μ : Env (UQ K)) (τ : Env (NDArr (Spread K)))
    (hρ : Declares w Γ ρ) (hσ : EnvRel (IsValue v) ρ σ) (hμ : UDeclares w Δ μ) (hτ : EnvRel (IsSpread v) μ τ)
    (hs : t.Safe w ρ μ) (hg : t.Regular v σ τ) :
    OutRel (UDenotes w v d) (t.eval w ρ μ) (t.num v σ τ) := by
  induction ht with
  | @var x d hx =>
    obtain ⟨q, hq, q1, q2⟩ := hμ x d hx
    have := hτ x
    simp only [UTerm.eval, UTerm.num, getVar]
    rw [hq] at this ⊢
    rcases hm : τ x with _ | m <;> rw [hm] at this
    · cases this
    · cases this with | some hh => exact ⟨q1, q2, hh⟩
  | @sum op a b d e hop ha hb hc iha ihb =>
    simp only [UTerm.eval, UTerm.num]
    refine OutRel.bind (iha hs.1 hg.1) (fun x m hx _ hxm => ?_)
    refine OutRel.bind (ihb hs.2.1 hg.2.1) (fun y n hy _ hyn => ?_)
    rcases hop with rfl | rfl
    · exact uadd_num hw v hxm hyn hc (hs.2.2 (.inl rfl) x y hx hy)
    · exact usub_num hw v hxm hyn hc (hs.2.2 (.inr rfl) x y hx hy)
  | @mul a b d e ha hb iha ihb =>
    simp only [UTerm.eval, UTerm.num]
    refine OutRel.bind (iha hs.1 hg.1) (fun x m hx hm hxm => ?_)
    refine OutRel.bind (ihb hs.2.1 hg.2.1) (fun y n hy hn hyn => ?_)
    exact umul_num hw v hxm hyn ((hg.2.2 (.inl rfl)).1 m hm) ((hg.2.2 (.inl rfl)).2 n hn)
  | @div a b d e ha hb iha ihb =>
    simp only [UTerm.eval, UTerm.num]
    refine OutRel.bind (iha hs.1 hg.1) (fun x m hx hm hxm => ?_)
    refine OutRel.bind (ihb hs.2.1 hg.2.1) (fun y n hy hn hyn => ?_)
    exact udiv_num hw v hxm hyn ((hg.2.2 (.inr rfl)).1 m hm) ((hg.2.2 (.inr rfl)).2 n hn)
  | @times a c d e ha hc iha =>
    simp only [UTerm.eval, UTerm.num]
    refine OutRel.bind (iha hs.1 hg) (fun x m hx hm hxm => ?_)
    exact OutRel.bind (exact_num hw v Γ c e hc ρ σ hρ hσ hs.2) (fun o n _ _ hon => utimes_num hw v hxm hon)
  | @over a c d e ha hc iha =>
    simp only [UTerm.eval, UTerm.num]
    refine OutRel.bind (iha hs.1 hg) (fun x m hx hm hxm => ?_)
    exact OutRel.bind (exact_num hw v Γ c e hc ρ σ hρ hσ hs.2) (fun o n _ _ hon => uover_num hw v hxm hon)
  | @exactTimes a c d e hc ha iha =>
    simp only [UTerm.eval, UTerm.num]
    refine OutRel.bind (exact_num hw v Γ c e hc ρ σ hρ hσ hs.1) (fun o n _ _ hon => ?_)
    exact OutRel.bind (iha hs.2 hg) (fun x m hx hm hxm => utimes_num hw v hxm hon)
  | @exactMinus a c d e hc ha hcd iha =>
    simp only [UTerm.eval, UTerm.num]
    refine OutRel.bind (exact_num hw v Γ c e hc ρ σ hρ hσ hs.1) (fun o n ho _ hon => ?_)
    exact OutRel.bind (iha hs.2.1 hg) (fun x m hx hm hxm => uminus_num hw v hxm hon hcd (hs.2.2 o x ho hx))
  | @exactOver a c d e hc ha iha =>
    simp only [UTerm.eval, UTerm.num]
    refine OutRel.bind (exact_num hw v Γ c e hc ρ σ hρ hσ hs.1) (fun o n ho _ hon => ?_)
    exact OutRel.bind (iha hs.2.1 hg.1) (fun x m hx hm hxm => urover_num hw v hxm hon (hg.2 m hm))
  | @pow a d p ha iha =>
    simp only [UTerm.eval, UTerm.num]
    exact OutRel.bind (iha hs.1 hg.1) (fun x m hx hm hxm => upow_num hw v p hxm (hg.2 m hm))
  | @un a d u hu ha iha =>
    simp only [UTerm.eval, UTerm.num]
    exact OutRel.bind (iha hs.1 hg.1) (fun x m hx hm hxm => uun_num hw v u hu hxm (fun h => hg.2 h m hm))
  | @inUnits a d e ha hc iha =>
    have ih := iha hs.1 hg
    simp only [UTerm.eval, UTerm.num]
    rcases hx : a.eval w ρ μ with err | x <;> rcases hm : a.num v σ τ with err' | m <;> rw [hx, hm] at ih
    · exact ih
    · exact ih.elim
    · exact ih.elim
    · obtain ⟨r, hr⟩ := (C38_returns hw x e ih.built hs.2.1 (hs.2.2 x hx)).1.2 (compatible_trans ih.kind hc)
      obtain ⟨c1, -, c3, -⟩ := C38_rescale hw x r e ih.built hs.2.1 (hs.2.2 x hx) hr
      have br := UQ.Built.rescale ih.built hs.2.1 (hs.2.2 x hx) hr
      show OutRel _ (x.rescale w e) _
      rw [hr]
      refine ⟨br, compatible_of_same (br.ok hw.wf).vdim.canon.nodup hs.2.1.canon.nodup c1, ?_⟩
      unfold IsSpread
      rw [c3 v]
      exact ih.same
  | @conv a d e ha hc iha =>
    exact (iha hs hg).mono (fun r m _ _ hrm => hrm.conv hc)

/-! ## A concrete case -/

/-- Two measured lengths, in kilometres and in metres. -/
noncomputable def exLengths : Env (UQ ℝ) := fun x => if x = "a" then some exUQ else if x = "b" then some exUM else none

/-- Their declared units. -/
def exLengthUnits : Env Dim := fun x => if x = "a" then some dKm else if x = "b" then some dM else none

/-- `(a * b).sum()`, the total of products of measured lengths, meets the hypotheses of `C118_expression`. -/
example (v : Valuation exWorld) :
    UHasUnits exWorld (fun _ => none) exLengthUnits
      (.un (.sum .all) (.bin .mul (.var "a") (.var "b")) : UTerm ℝ) (Dim.mul dKm dM) ∧
    UDeclares exWorld exLengthUnits exLengths ∧
    EnvRel (IsSpread v) exLengths (fun x => (exLengths x).map (fun q => (v.meas q).map Meas.spread)) ∧
    (.un (.sum .all) (.bin .mul (.var "a") (.var "b")) : UTerm ℝ).Safe exWorld exNoVars exLengths ∧
    (.un (.sum .all) (.bin .mul (.var "a") (.var "b")) : UTerm ℝ).Regular v (fun _ => none)
      (fun x => (exLengths x).map (fun q => (v.meas q).map Meas.spread)) := by
  refine ⟨.un _ trivial (.mul (.var rfl) (.var rfl)), fun x d hx => ?_, fun x => ?_,
    ⟨⟨trivial, trivial, fun hu => absurd hu (by simp)⟩, fun hu => absurd hu (by simp)⟩,
    ⟨⟨trivial, trivial, fun _ => ⟨fun m hm => ?_, fun m hm => ?_⟩⟩, fun hu => absurd hu (by simp)⟩⟩
  · by_cases ha : x = "a"
    · subst ha
      cases hx
      exact ⟨exUQ, rfl, exUQ_built, compatible_refl _ _⟩
    · by_cases hb : x = "b"
      · subst hb
        cases hx
        exact ⟨exUM, rfl, exUM_built, compatible_refl _ _⟩
      · simp only [exLengthUnits, if_neg ha, if_neg hb] at hx
        cases hx
  · show Option.Rel _ (exLengths x) ((exLengths x).map _)
    rcases exLengths x with _ | q
    · exact .none
    · exact .some (NDArr.Same.refl _)
  · cases hm
    intro i _
    show (if i = [0] then (3 : ℝ) else 4) * v.size dKm ≠ 0
    exact mul_ne_zero (by split <;> norm_num) (v.size_pos _).ne'
  · cases hm
    intro i _
    show (500 : ℝ) * v.size dM ≠ 0
    exact mul_ne_zero (by norm_num) (v.size_pos _).ne'

end PQ.Client
