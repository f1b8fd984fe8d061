import Verif.Spec.Uncertain
import Verif.Lemmas.Arith
import Verif.Lemmas.Reduce2
import Mathlib.Tactic.FieldSimp
import Mathlib.Tactic.Linarith
import Mathlib.Tactic.Positivity

/-! # Lemmas about uncertain quantities -/

namespace PQ

open Dict LawfulRPow World

namespace NDArr

theorem bshapeRev_self (s : List Nat) : bshapeRev s s = some s := by
  induction s with
  | nil => rfl
  | cons n s ih => simp [bshapeRev, baxis, ih]

theorem bshape_self (s : List Nat) : bshape s s = some s := by
  simp [bshape, bshapeRev_self]

theorem bshape_nil_right (s : List Nat) : bshape s [] = some s := by
  rw [bshape_comm]; simp [bshape, bshapeRev]

theorem bidx_self {s i : List Nat} (h : InB s i) : bidx s i = i := by
  have hl : i.length = s.length := h.length_eq
  unfold bidx
  rw [hl, Nat.sub_self, List.drop_zero]
  unfold InB at h
  clear hl
  induction h with
  | nil => rfl
  | @cons j n i s hj _ ih =>
    simp only [List.zipWith_cons_cons, ih, List.cons.injEq, and_true]
    split
    · omega
    · rfl

theorem bidx_length {s i : List Nat} (h : s.length ≤ i.length) : (bidx s i).length = s.length := by
  simp [bidx]; omega

theorem bin_elim {α β γ : Type _} {f : α → β → γ} {a : NDArr α} {b : NDArr β} {c : NDArr γ}
    (h : bin f a b = .ok c) : bshape a.shape b.shape = some c.shape ∧
      ∀ i, c.elem i = f (a.elem (bidx a.shape i)) (b.elem (bidx b.shape i)) := by
  unfold bin at h
  rcases hs : bshape a.shape b.shape with _ | s
  · simp [hs] at h
  · simp only [hs, Except.ok.injEq] at h
    subst h
    exact ⟨rfl, fun _ => rfl⟩

theorem bin_intro {α β γ : Type _} (f : α → β → γ) {a : NDArr α} {b : NDArr β} {s : List Nat}
    (h : bshape a.shape b.shape = some s) :
    bin f a b = .ok ⟨s, fun i => f (a.elem (bidx a.shape i)) (b.elem (bidx b.shape i))⟩ := by
  unfold bin; rw [h]

/-- Elements of an elementwise operation of two arrays of the same shape. -/
theorem bin_elim_same {α β γ : Type _} {f : α → β → γ} {a : NDArr α} {b : NDArr β} {c : NDArr γ}
    (h : bin f a b = .ok c) (hs : a.shape = b.shape) : c.shape = a.shape ∧
      ∀ i, InB a.shape i → c.elem i = f (a.elem i) (b.elem i) := by
  obtain ⟨h1, h2⟩ := bin_elim h
  rw [← hs, bshape_self, Option.some.injEq] at h1
  refine ⟨h1.symm, fun i hi => ?_⟩
  rw [h2, ← hs, bidx_self hi]

theorem bin_same_shape_ok {α β γ : Type _} (f : α → β → γ) {a : NDArr α} {b : NDArr β}
    (hs : a.shape = b.shape) : Returns (bin f a b) := by
  rw [bin_ok_iff, hs, bshape_self]; rfl

end NDArr

variable {K : Type _}

section
variable [Field K] [LinearOrder K] [IsStrictOrderedRing K] [RPow K] [LawfulRPow K]

/-! ### square roots -/

omit [IsStrictOrderedRing K] in
theorem rpow_two (x : K) : rpow x 2 = x ^ 2 := by
  have := LawfulRPow.rpow_natCast x 2
  simpa using this

theorem rpow_half_nonneg {x : K} (h : 0 ≤ x) : 0 ≤ rpow x (1/2) := by
  rcases h.lt_or_eq with h | h
  · exact (LawfulRPow.rpow_pos _ _ h).le
  · rw [← h, LawfulRPow.zero_rpow _ (by norm_num)]

theorem rpow_half_sq {x : K} (h : 0 ≤ x) : rpow x (1/2) ^ 2 = x := by
  rcases h.lt_or_eq with h | h
  · rw [← rpow_two, LawfulRPow.rpow_rpow _ _ _ h]; norm_num [LawfulRPow.rpow_one]
  · rw [← h, LawfulRPow.zero_rpow _ (by norm_num)]; norm_num

theorem rpow_half_of_sq (x : K) : rpow (x ^ 2) (1/2) = |x| := by
  have h1 := rpow_half_sq (sq_nonneg x)
  have h2 := rpow_half_nonneg (sq_nonneg x)
  rw [← abs_of_nonneg h2]
  exact sq_eq_sq_iff_abs_eq_abs _ _ |>.1 h1

/-! ### pieces of the operators -/

omit [Field K] [LinearOrder K] [IsStrictOrderedRing K] [LawfulRPow K] in
theorem pow_expOf (q : Quantity K) (p : ℚ) :
    q.pow (expOf p) = .ok ⟨⟨q.mag.shape, fun i => rpow (q.mag.elem (NDArr.bidx q.mag.shape i)) p⟩,
      Dim.pow q.dim p⟩ := by
  have hu : uniformExp (expOf p).vals = .ok p := rfl
  unfold Quantity.pow dPower
  rw [hu]
  simp only [expOf, hasDims, Bool.false_eq_true, if_false]
  rw [NDArr.bin_intro _ (show NDArr.bshape q.mag.shape (NDArr.scalar p).shape = some q.mag.shape from
    NDArr.bshape_nil_right _)]
  rfl

omit [LinearOrder K] [IsStrictOrderedRing K] [LawfulRPow K] in
theorem add_deq [DecidableEq K] {w : World K} {x y : Quantity K} (h : w.deq y.dim x.dim = true) :
    x.add w (.quantity y) = (NDArr.bin (· + ·) x.mag y.mag).map (fun m => ⟨m, x.dim⟩) := by
  unfold Quantity.add Quantity.scaleOther
  simp only [Operand.toQuantity, dne_eq, h, Bool.not_true, Bool.false_eq_true, if_false, applyUF2,
    ufunc2Dim, dCheckUniform, deq_comm w x.dim y.dim, if_true, Operand.arr]
  rcases NDArr.bin (fun a b => a + b) x.mag y.mag with e | m <;> rfl

omit [LinearOrder K] [IsStrictOrderedRing K] [LawfulRPow K] in
theorem sub_deq [DecidableEq K] {w : World K} {x y : Quantity K} (h : w.deq y.dim x.dim = true) :
    x.sub w (.quantity y) = (NDArr.bin (· - ·) x.mag y.mag).map (fun m => ⟨m, x.dim⟩) := by
  unfold Quantity.sub Quantity.scaleOther
  simp only [Operand.toQuantity, dne_eq, h, Bool.not_true, Bool.false_eq_true, if_false, applyUF2,
    ufunc2Dim, dCheckUniform, deq_comm w x.dim y.dim, if_true, Operand.arr]
  rcases NDArr.bin (fun a b => a - b) x.mag y.mag with e | m <;> rfl

omit [LinearOrder K] [IsStrictOrderedRing K] [RPow K] [LawfulRPow K] in
theorem mul_qq [DecidableEq K] {w : World K} {x y : Quantity K} :
    x.mul w (.quantity y) = (NDArr.bin (· * ·) x.mag y.mag).map (fun m => ⟨m, Dim.mul x.dim y.dim⟩) := by
  simp only [Quantity.mul, applyUF2, ufunc2Dim, dMultiply, Operand.arr]
  rcases NDArr.bin (fun a b => a * b) x.mag y.mag with e | m <;> rfl

omit [LinearOrder K] [IsStrictOrderedRing K] [RPow K] [LawfulRPow K] in
theorem mul_qa [DecidableEq K] {w : World K} {x : Quantity K} {y : NDArr K} :
    x.mul w (.array y) = (NDArr.bin (· * ·) x.mag y).map (fun m => ⟨m, x.dim⟩) := by
  simp only [Quantity.mul, applyUF2, ufunc2Dim, dMultiply, Operand.arr]
  rcases NDArr.bin (fun a b => a * b) x.mag y with e | m <;> rfl

omit [LinearOrder K] [IsStrictOrderedRing K] [RPow K] [LawfulRPow K] in
theorem div_qq [DecidableEq K] {w : World K} {x y : Quantity K} :
    x.truediv w (.quantity y) = (NDArr.bin (· / ·) x.mag y.mag).map (fun m => ⟨m, Dim.div x.dim y.dim⟩) := by
  simp only [Quantity.truediv, applyUF2, ufunc2Dim, dDivide, Operand.arr]
  rcases NDArr.bin (fun a b => a / b) x.mag y.mag with e | m <;> rfl

omit [LinearOrder K] [IsStrictOrderedRing K] [RPow K] [LawfulRPow K] in
theorem div_qa [DecidableEq K] {w : World K} {x : Quantity K} {y : NDArr K} :
    x.truediv w (.array y) = (NDArr.bin (· / ·) x.mag y).map (fun m => ⟨m, x.dim⟩) := by
  simp only [Quantity.truediv, applyUF2, ufunc2Dim, dDivide, Operand.arr]
  rcases NDArr.bin (fun a b => a / b) x.mag y with e | m <;> rfl

theorem HashSafe.of_same {w : World K} (hw : WF w) {a b : Dim} (ha : DimOK w a) (hb : DimOK w b)
    (h : SameContent a b) : HashSafe w a b :=
  (HashSafe.refl w a).congr hw ha ha ha hb (SameContent.refl _) h

omit [IsStrictOrderedRing K] [LawfulRPow K] in
theorem UQ.OK.size {w : World K} {u : UQ K} (h : u.OK w) (v : Valuation w) :
    v.size u.unc.dim = v.size u.val.dim :=
  dsize_same v.val h.udim.canon.nodup h.vdim.canon.nodup h.aligned.1

/-- The `uncertainty` setter. -/
theorem setUncertainty_spec {w : World K} (hw : WF w) {self r : UQ K} {o : Operand K}
    (hv : DimOK w self.val.dim) (ho : DimOK w o.dim) (hs : HashSafe w o.dim self.val.dim)
    (h : self.setUncertainty w o = .ok r) :
    r.OK w ∧ r.val = self.val ∧ ∀ v : Valuation w, v.phys r.unc = v.physOp o := by
  unfold UQ.setUncertainty at h
  simp only at h
  split at h
  · rename_i hsh
    split at h
    · rcases hr : o.toQuantity.rescale w self.val.dim with e | u'
      · rw [hr] at h; simp at h
      · rw [hr] at h
        simp only [Except.ok.injEq] at h; subst h
        have ho' : DimOK w o.toQuantity.dim := by rw [Operand.toQuantity_dim]; exact ho
        have hs' : HashSafe w o.toQuantity.dim self.val.dim := by
          rw [Operand.toQuantity_dim]; exact hs
        obtain ⟨h1, h2, h3, _⟩ := rescale_ok hw ho' hv hs' hr
        refine ⟨⟨hv, h3, h2, by rw [h1, ← hsh]⟩, rfl, fun v => ?_⟩
        rw [rescale_phys hw ho' hv hs' hr v, physOp_eq]
    · rename_i hd
      simp only [Except.ok.injEq] at h; subst h
      rw [dne_eq] at hd
      have hd' : w.deq o.dim self.val.dim = true := by
        rw [← Operand.toQuantity_dim]; simpa using hd
      refine ⟨⟨hv, ?_, ?_, hsh.symm⟩, rfl, fun v => (physOp_eq v o).symm⟩
      · simp only [Operand.toQuantity_dim]; exact ho
      · simp only [Operand.toQuantity_dim]; exact hs.direct hd'
  · simp at h

omit [IsStrictOrderedRing K] [LawfulRPow K] in
/-- The setter given an uncertainty in the units of the value. -/
theorem setUncertainty_same {w : World K} {self : UQ K} {u : Quantity K}
    (hv : Nodup self.val.dim) (hu : Nodup u.dim) (h : SameContent u.dim self.val.dim) :
    self.setUncertainty w (.quantity u) =
      if self.val.mag.shape = u.mag.shape then .ok ⟨self.val, u⟩ else .error .valueError := by
  unfold UQ.setUncertainty
  simp only [Operand.toQuantity, dne_eq, deq_same hu hv h, Bool.not_true, Bool.false_eq_true, if_false]

omit [IsStrictOrderedRing K] [LawfulRPow K] in
/-- Building an uncertain quantity from a value and an uncertainty already in its units. -/
theorem new_same {w : World K} {q u : Quantity K} (hv : Nodup q.dim) (hu : Nodup u.dim)
    (h : SameContent u.dim q.dim) :
    UQ.new w (.quantity q) [] (some (.quantity u)) =
      if q.mag.shape = u.mag.shape then .ok ⟨q, u⟩ else .error .valueError := by
  have hr : UQ.mkQuantity w (.quantity u) q.dim = .ok u := by
    simp only [UQ.mkQuantity]
    split
    · rfl
    · unfold Quantity.rescale; rw [if_pos (deq_same hu hv h)]
  unfold UQ.new
  rw [show UQ.mkQuantity w (.quantity q) [] = .ok q from rfl]
  simp only [hr]
  exact setUncertainty_same hv hu h

/-- `rescale` keeps the measurements. -/
theorem uq_rescale_spec {w : World K} (hw : WF w) {u r : UQ K} {d : Dim} (hu : u.OK w)
    (hd : DimOK w d) (hs : HashSafe w u.val.dim d) (h : u.rescale w d = .ok r) :
    r.OK w ∧ SameContent r.val.dim d ∧ r.val.mag.shape = u.val.mag.shape ∧
      (∀ v : Valuation w, v.meas r = v.meas u) ∧
      ∃ cf : K, 0 < cf ∧ r.val.mag = u.val.mag.map (fun x => cf * x) ∧
        r.unc.mag = u.unc.mag.map (fun x => cf * x) := by
  have hs' : HashSafe w u.unc.dim d :=
    hs.congr hw hu.vdim hu.udim hd hd hu.aligned.1.symm (SameContent.refl _)
  unfold UQ.rescale at h
  rcases h1 : u.val.rescale w d with e | q
  · rw [h1] at h; simp at h
  · rw [h1] at h
    rcases h2 : u.unc.rescale w d with e | q'
    · rw [h2] at h; simp at h
    · rw [h2] at h
      simp only at h
      obtain ⟨a1, a2, a3, a4, c1, a5, a6, a7⟩ := rescale_ok hw hu.vdim hd hs h1
      obtain ⟨b1, b2, b3, b4, c2, b5, b6, b7⟩ := rescale_ok hw hu.udim hd hs' h2
      rw [setUncertainty_same a3.canon.nodup b3.canon.nodup (b2.trans a2.symm)] at h
      split at h
      · rename_i hsh
        simp only [Except.ok.injEq] at h; subst h
        have hc : c1 = c2 := by
          obtain ⟨v⟩ := exists_valuation hw
          have := b7 v
          rw [hu.size v, a7 v] at this
          exact mul_right_cancel₀ (v.size_pos d).ne' this
        subst hc
        refine ⟨⟨a3, b3, b2.trans a2.symm, hsh.symm⟩, a2, a1, fun v => ?_, c1, a5, a6, b6⟩
        have p1 := rescale_phys hw hu.vdim hd hs h1 v
        have p2 := rescale_phys hw hu.udim hd hs' h2 v
        unfold Valuation.meas
        simp only [NDArr.mk.injEq]
        refine ⟨a1, ?_⟩
        funext i
        have q1 := congrArg (fun a : NDArr K => a.elem i) p1
        have q2 := congrArg (fun a : NDArr K => a.elem i) p2
        simp only [Valuation.phys, NDArr.map] at q1 q2
        rw [q1, q2]
      · simp at h

theorem uq_rescale_returns {w : World K} (hw : WF w) {u : UQ K} {d : Dim} (hu : u.OK w)
    (hd : DimOK w d) (hs : HashSafe w u.val.dim d) :
    (Returns (u.rescale w d) ↔ Compatible w u.val.dim d) ∧
    (∀ e, u.rescale w d = .error e → e = .valueError) := by
  have hs' : HashSafe w u.unc.dim d :=
    hs.congr hw hu.vdim hu.udim hd hd hu.aligned.1.symm (SameContent.refl _)
  have k1 := rescale_returns hw hu.vdim hd hs
  have k2 := rescale_returns hw hu.udim hd hs'
  have kc : Compatible w u.unc.dim d ↔ Compatible w u.val.dim d := by
    have := compatible_of_same (w := w) hu.udim.canon.nodup hu.vdim.canon.nodup hu.aligned.1
    exact ⟨compatible_trans (compatible_symm hw this), compatible_trans this⟩
  unfold UQ.rescale
  rcases h1 : u.val.rescale w d with e | q
  · rw [h1] at k1
    refine ⟨⟨fun h => absurd h (not_returns_error _), fun h => absurd (k1.2 h) (not_returns_error _)⟩, ?_⟩
    intro e' he'; simp only [Except.error.injEq] at he'; subst he'; exact rescale_error h1
  · obtain ⟨a1, a2, a3, _⟩ := rescale_ok hw hu.vdim hd hs h1
    have hc := k1.1 ⟨q, h1⟩
    obtain ⟨q', h2⟩ := k2.2 (kc.2 hc)
    obtain ⟨b1, b2, b3, _⟩ := rescale_ok hw hu.udim hd hs' h2
    rw [h2]
    simp only
    rw [setUncertainty_same a3.canon.nodup b3.canon.nodup (b2.trans a2.symm),
      if_pos (by rw [a1, b1]; exact hu.aligned.2.symm)]
    exact ⟨⟨fun _ => hc, fun _ => returns_ok _⟩, fun e he => absurd he (by simp)⟩

end
end PQ
