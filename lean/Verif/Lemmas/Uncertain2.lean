import Verif.Lemmas.Uncertain

/-! # Operators of uncertain quantities -/

namespace PQ

open Dict LawfulRPow World

variable {K : Type _}
variable [Field K] [LinearOrder K] [IsStrictOrderedRing K] [RPow K] [LawfulRPow K]

/-- `((d^2)^(1/2))` has the content of `d`. -/
theorem sqrt_sq_dim {w : World K} {a : Dim} (ha : DimOK w a) :
    SameContent (Dim.pow (Dim.pow a 2) (1/2)) a := by
  refine (canon_pow (canon_pow ha.canon 2) (1/2)).sameContent ha.canon (fun u => ?_)
  rw [expo_pow, expo_pow]; ring

theorem SameContent.pow {a b : Dim} (ha : Canon a) (hb : Canon b) (h : SameContent a b) (p : ℚ) :
    SameContent (Dim.pow a p) (Dim.pow b p) := by
  refine (canon_pow ha p).sameContent (canon_pow hb p) (fun u => ?_)
  rw [expo_pow, expo_pow, expo_eq h]

/-- `(a**2 + b**2)**0.5` for quantities in the same units. -/
theorem quad_spec {w : World K} {a b : Quantity K} (ha : DimOK w a.dim) (hb : DimOK w b.dim)
    (h : SameContent b.dim a.dim) :
    (Returns (UQ.quad w a b) ↔ (NDArr.bshape a.mag.shape b.mag.shape).isSome) ∧
    (∀ e, UQ.quad w a b = .error e → e = .valueError) ∧
    (∀ r, UQ.quad w a b = .ok r → DimOK w r.dim ∧ SameContent r.dim a.dim ∧
      NDArr.bshape a.mag.shape b.mag.shape = some r.mag.shape ∧
      ∀ i, NDArr.InB r.mag.shape i → 0 ≤ r.mag.elem i ∧
        r.mag.elem i ^ 2 = a.mag.elem (NDArr.bidx a.mag.shape i) ^ 2 +
          b.mag.elem (NDArr.bidx b.mag.shape i) ^ 2) := by
  have hd : w.deq (Dim.pow b.dim 2) (Dim.pow a.dim 2) = true :=
    deq_same (canon_pow hb.canon 2).nodup (canon_pow ha.canon 2).nodup
      (h.pow hb.canon ha.canon 2)
  have key : UQ.quad w a b =
      ((NDArr.bin (· + ·)
        (⟨a.mag.shape, fun i => rpow (a.mag.elem (NDArr.bidx a.mag.shape i)) 2⟩ : NDArr K)
        (⟨b.mag.shape, fun i => rpow (b.mag.elem (NDArr.bidx b.mag.shape i)) 2⟩ : NDArr K)).map
        (fun m => ⟨m, Dim.pow a.dim 2⟩ : NDArr K → Quantity K)).bind (fun s => s.pow (expOf (1/2))) := by
    unfold UQ.quad
    simp only [pow_expOf, bind, Except.bind]
    rw [add_deq hd]
  rw [key]
  rcases hs : NDArr.bshape a.mag.shape b.mag.shape with _ | s
  · have he : NDArr.bin (· + ·)
        (⟨a.mag.shape, fun i => rpow (a.mag.elem (NDArr.bidx a.mag.shape i)) 2⟩ : NDArr K)
        (⟨b.mag.shape, fun i => rpow (b.mag.elem (NDArr.bidx b.mag.shape i)) 2⟩ : NDArr K)
        = .error .valueError := by unfold NDArr.bin; simp [hs]
    rw [he]
    refine ⟨⟨fun hr => absurd hr (not_returns_error _), fun hr => by simp at hr⟩, ?_, ?_⟩
    · intro e he; simp only [Except.map, Except.bind, Except.error.injEq] at he; exact he.symm
    · intro r hr; simp [Except.map, Except.bind] at hr
  · have hbi := NDArr.bin_intro (fun x y : K => x + y)
      (a := ⟨a.mag.shape, fun i => rpow (a.mag.elem (NDArr.bidx a.mag.shape i)) 2⟩)
      (b := ⟨b.mag.shape, fun i => rpow (b.mag.elem (NDArr.bidx b.mag.shape i)) 2⟩) hs
    rw [hbi]
    simp only [Except.map, Except.bind, pow_expOf]
    refine ⟨⟨fun _ => rfl, fun _ => returns_ok _⟩, fun e he => absurd he (by simp), ?_⟩
    intro r hr
    simp only [Except.ok.injEq] at hr; subst hr
    refine ⟨(ha.pow 2).pow (1/2), sqrt_sq_dim ha, rfl, fun i hi => ?_⟩
    simp only at hi ⊢
    rw [NDArr.bidx_self hi, NDArr.bidx_self (NDArr.bidx_inb hs hi),
      NDArr.bidx_self (NDArr.bidx_inb_right hs hi), rpow_two, rpow_two]
    exact ⟨rpow_half_nonneg (by positivity), rpow_half_sq (by positivity)⟩

/-- `scale_other_units` on an uncertain operand. -/
theorem uq_scaleOther_spec {w : World K} (hw : WF w) {a b : UQ K} (ha : a.OK w) (hb : b.OK w)
    (hs : HashSafe w b.val.dim a.val.dim) :
    (Returns (a.scaleOther w (.uq b)) ↔ Compatible w b.val.dim a.val.dim) ∧
    (∀ e, a.scaleOther w (.uq b) = .error e → e = .valueError) ∧
    (∀ o, a.scaleOther w (.uq b) = .ok o → ∃ b', o = .uq b' ∧ b'.OK w ∧
      SameContent b'.val.dim a.val.dim ∧ b'.val.mag.shape = b.val.mag.shape ∧
      ∀ v : Valuation w, v.meas b' = v.meas b) := by
  obtain ⟨k1, k2⟩ := uq_rescale_returns hw hb ha.vdim hs
  unfold UQ.scaleOther
  simp only
  by_cases hd : w.deq b.val.dim a.val.dim = true
  · have hsame := hs.direct hd
    simp only [dne_eq, hd, Bool.not_true, Bool.false_eq_true, if_false]
    refine ⟨⟨fun _ => compatible_of_same hb.vdim.canon.nodup ha.vdim.canon.nodup hsame,
      fun _ => returns_ok _⟩, fun e he => absurd he (by simp), fun o ho => ?_⟩
    simp only [Except.ok.injEq] at ho; subst ho
    exact ⟨b, rfl, hb, hsame, rfl, fun _ => rfl⟩
  · simp only [dne_eq, Bool.eq_false_iff.2 hd, Bool.not_false, if_true]
    rcases hr : b.rescale w a.val.dim with e | b'
    · rw [hr] at k1 k2
      refine ⟨⟨fun h => absurd h (not_returns_error _), fun h => absurd (k1.2 h) (not_returns_error _)⟩,
        ?_, fun o ho => absurd ho (by simp)⟩
      intro e' he'; simp only [Except.error.injEq] at he'; subst he'; exact k2 _ rfl
    · rw [hr] at k1
      refine ⟨⟨fun _ => k1.1 (returns_ok _), fun _ => returns_ok _⟩, fun e he => absurd he (by simp), ?_⟩
      intro o ho
      simp only [Except.ok.injEq] at ho; subst ho
      obtain ⟨c1, c2, c3, c4, _⟩ := uq_rescale_spec hw hb ha.vdim hs hr
      exact ⟨b', rfl, c1, c2, c3, c4⟩

/-- The common part of `__add__` and `__sub__`. -/
theorem uq_sumLike {w : World K} (hw : WF w) {a b : UQ K} (ha : a.OK w) (hb : b.OK w)
    (hs : HashSafe w b.val.dim a.val.dim) (g : K → K → K)
    (hg : ∀ s x y : K, g (x * s) (y * s) = g x y * s)
    (R : Meas K → Meas K → Meas K → Prop)
    (hR : ∀ x y z, R x y z ↔ z.value = g x.value y.value ∧ 0 ≤ z.sigma ∧
      z.sigma ^ 2 = x.sigma ^ 2 + y.sigma ^ 2)
    (opq : World K → Quantity K → Operand K → Py (Quantity K))
    (hop : ∀ {x y : Quantity K}, w.deq y.dim x.dim = true →
      opq w x (.quantity y) = (NDArr.bin g x.mag y.mag).map (fun m => ⟨m, x.dim⟩))
    (res : Py (UQ K))
    (hres : res = (do
      match ← a.scaleOther w (.uq b) with
      | .uq b =>
        let r ← opq w a.val (.quantity b.val)
        let u ← UQ.quad w a.unc b.unc
        UQ.new w (.quantity r) [] (some (.quantity u))
      | .plain o =>
        let _ ← opq w a.val o
        .error .attributeError)) :
    (Returns res ↔ Compatible w b.val.dim a.val.dim ∧
      (NDArr.bshape a.val.mag.shape b.val.mag.shape).isSome) ∧
    (∀ e, res = .error e → e = .valueError) ∧
    (∀ r, res = .ok r → r.OK w ∧ SameContent r.val.dim a.val.dim ∧
      ∀ v : Valuation w, Elementwise R (v.meas a) (v.meas b) (v.meas r)) := by
  obtain ⟨s1, s2, s3⟩ := uq_scaleOther_spec hw ha hb hs
  rcases hso : a.scaleOther w (.uq b) with e | o
  · rw [hso] at hres s1 s2
    simp only [bind, Except.bind] at hres
    subst hres
    refine ⟨⟨fun h => absurd h (not_returns_error _), fun h => absurd (s1.2 h.1) (not_returns_error _)⟩,
      ?_, fun r hr => absurd hr (by simp)⟩
    intro e' he'; simp only [Except.error.injEq] at he'; subst he'; exact s2 _ rfl
  · obtain ⟨b', rfl, ob, sb, shb, mb⟩ := s3 o hso
    have hcompat : Compatible w b.val.dim a.val.dim := s1.1 ⟨_, hso⟩
    have hdeq : w.deq b'.val.dim a.val.dim = true :=
      deq_same ob.vdim.canon.nodup ha.vdim.canon.nodup sb
    have hunc : SameContent b'.unc.dim a.unc.dim :=
      (ob.aligned.1.trans sb).trans ha.aligned.1.symm
    obtain ⟨q1, q2, q3⟩ := quad_spec ha.udim ob.udim hunc
    rw [hso] at hres
    simp only [bind, Except.bind] at hres
    rw [hop hdeq] at hres
    rcases hbin : NDArr.bin g a.val.mag b'.val.mag with e | m
    · rw [hbin] at hres
      simp only [Except.map] at hres
      subst hres
      have := NDArr.bin_error hbin
      refine ⟨⟨fun h => absurd h (not_returns_error _), fun h => ?_⟩, ?_,
        fun r hr => absurd hr (by simp)⟩
      · have h1 := (NDArr.bin_ok_iff g a.val.mag b'.val.mag).2 (by rw [shb]; exact h.2)
        rw [hbin] at h1; exact absurd h1 (not_returns_error _)
      · intro e' he'; simp only [Except.error.injEq] at he'; subst he'; exact this
    · obtain ⟨m1, m2⟩ := NDArr.bin_elim hbin
      have hqret : Returns (UQ.quad w a.unc b'.unc) := q1.2 (by
        rw [ha.aligned.2, ob.aligned.2, m1]; rfl)
      obtain ⟨u, hu⟩ := hqret
      obtain ⟨u1, u2, u3, u4⟩ := q3 u hu
      rw [ha.aligned.2, ob.aligned.2, m1, Option.some.injEq] at u3
      rw [hbin, hu] at hres
      simp only [Except.map] at hres
      rw [new_same (q := ⟨m, a.val.dim⟩) ha.vdim.canon.nodup u1.canon.nodup (u2.trans ha.aligned.1), if_pos u3] at hres
      subst hres
      refine ⟨⟨fun _ => ⟨hcompat, by rw [← shb, m1]; rfl⟩, fun _ => returns_ok _⟩,
        fun e he => absurd he (by simp), ?_⟩
      intro r hr
      simp only [Except.ok.injEq] at hr; subst hr
      refine ⟨⟨ha.vdim, u1, u2.trans ha.aligned.1, u3.symm⟩, SameContent.refl _, fun v => ?_⟩
      rw [← mb v]
      refine ⟨m1, fun i hi => ?_⟩
      have hi' : NDArr.InB u.mag.shape i := by rw [← u3]; exact hi
      obtain ⟨w1, w2⟩ := u4 i hi'
      have z1 : v.size b'.val.dim = v.size a.val.dim :=
        dsize_same v.val ob.vdim.canon.nodup ha.vdim.canon.nodup sb
      have z2 : v.size u.dim = v.size a.val.dim :=
        dsize_same v.val u1.canon.nodup ha.vdim.canon.nodup (u2.trans ha.aligned.1)
      rw [hR]
      simp only [Valuation.meas, ha.size v, ob.size v, z1, z2]
      refine ⟨?_, mul_nonneg w1 (v.size_pos _).le, ?_⟩
      · rw [m2, hg]
      · rw [mul_pow, w2, ha.aligned.2, ob.aligned.2]; ring

/-! ### products -/

theorem relative_spec {w : World K} {a : UQ K} (ha : a.OK w) {r : NDArr K}
    (h : a.relative = .ok r) : r.shape = a.val.mag.shape ∧
      ∀ i, NDArr.InB a.val.mag.shape i → r.elem i = a.unc.mag.elem i / a.val.mag.elem i := by
  obtain ⟨h1, h2⟩ := NDArr.bin_elim_same h ha.aligned.2
  rw [ha.aligned.2] at h1 h2
  exact ⟨h1, h2⟩

theorem relative_returns {w : World K} {a : UQ K} (ha : a.OK w) : Returns a.relative :=
  NDArr.bin_same_shape_ok _ ha.aligned.2

/-- The part of `__mul__` and `__truediv__` after the value is computed, uncertain other operand. -/
theorem uq_relPart {w : World K} {a b : UQ K} (ha : a.OK w) (hb : b.OK w) {q : Quantity K}
    (hq : NDArr.bshape a.val.mag.shape b.val.mag.shape = some q.mag.shape) :
    ∃ u, (do
      let sru ← a.relative
      let oru ← b.relative
      let ru ← UQ.quadRel sru oru
      let u ← q.mul w (.array ru)
      return (⟨q, u⟩ : UQ K)) = .ok ⟨q, u⟩ ∧ u.dim = q.dim ∧ u.mag.shape = q.mag.shape ∧
      ∀ i, NDArr.InB q.mag.shape i → u.mag.elem i = q.mag.elem i *
        rpow ((a.unc.mag.elem (NDArr.bidx a.val.mag.shape i) /
            a.val.mag.elem (NDArr.bidx a.val.mag.shape i)) ^ 2 +
          (b.unc.mag.elem (NDArr.bidx b.val.mag.shape i) /
            b.val.mag.elem (NDArr.bidx b.val.mag.shape i)) ^ 2) (1/2) := by
  obtain ⟨ra, hra⟩ := relative_returns ha
  obtain ⟨rb, hrb⟩ := relative_returns hb
  obtain ⟨sa, ea⟩ := relative_spec ha hra
  obtain ⟨sb, eb⟩ := relative_spec hb hrb
  have h1 : NDArr.bshape ra.shape rb.shape = some q.mag.shape := by rw [sa, sb]; exact hq
  have h2 := NDArr.bin_intro (fun x y : K => rpow (rpow x 2 + rpow y 2) (1/2)) h1
  have h3 : NDArr.bshape q.mag.shape q.mag.shape = some q.mag.shape := NDArr.bshape_self _
  rw [hra, hrb]
  simp only [bind, Except.bind, UQ.quadRel, h2, mul_qa]
  have hbi := NDArr.bin_intro (fun x y : K => x * y) (a := q.mag)
    (b := ⟨q.mag.shape, fun i => rpow (rpow (ra.elem (NDArr.bidx ra.shape i)) 2 +
      rpow (rb.elem (NDArr.bidx rb.shape i)) 2) (1 / 2)⟩) h3
  rw [hbi]
  simp only [Except.map, pure, Except.pure]
  refine ⟨_, rfl, rfl, rfl, fun i hi => ?_⟩
  have ia := NDArr.bidx_inb hq hi
  have ib := NDArr.bidx_inb_right hq hi
  simp only [NDArr.bidx_self hi, rpow_two, sa, sb, ea _ ia, eb _ ib]

/-- The value and the uncertainty of a product of uncertain quantities. -/
theorem uq_mul_uq {w : World K} {a b : UQ K} (ha : a.OK w) (hb : b.OK w) :
    (Returns (a.mul w (.uq b)) ↔ (NDArr.bshape a.val.mag.shape b.val.mag.shape).isSome) ∧
    (∀ e, a.mul w (.uq b) = .error e → e = .valueError) ∧
    (∀ r, a.mul w (.uq b) = .ok r → r.OK w ∧ r.val.dim = Dim.mul a.val.dim b.val.dim ∧
      ∀ v : Valuation w,
        NDArr.bshape (v.meas a).shape (v.meas b).shape = some (v.meas r).shape ∧
        ∀ i, NDArr.InB r.val.mag.shape i →
          let x := (v.meas a).elem (NDArr.bidx (v.meas a).shape i)
          let y := (v.meas b).elem (NDArr.bidx (v.meas b).shape i)
          let z := (v.meas r).elem i
          z.value = x.value * y.value ∧
          z.sigma = z.value * rpow ((x.sigma / x.value) ^ 2 + (y.sigma / y.value) ^ 2) (1/2)) := by
  unfold UQ.mul
  simp only [UOperand.op, mul_qq]
  rcases hs : NDArr.bshape a.val.mag.shape b.val.mag.shape with _ | s
  · have he : NDArr.bin (· * ·) a.val.mag b.val.mag = .error .valueError := by
      unfold NDArr.bin; simp [hs]
    rw [he]
    refine ⟨⟨fun hr => absurd hr (not_returns_error _), fun hr => by simp at hr⟩, ?_, ?_⟩
    · intro e he; simp only [bind, Except.map, Except.bind, Except.error.injEq] at he; exact he.symm
    · intro r hr; simp [bind, Except.map, Except.bind] at hr
  · rw [NDArr.bin_intro _ hs]
    simp only [Except.map]
    obtain ⟨u, h1, h2, h3, h4⟩ := uq_relPart ha hb
      (q := ⟨⟨s, fun i => a.val.mag.elem (NDArr.bidx a.val.mag.shape i) *
        b.val.mag.elem (NDArr.bidx b.val.mag.shape i)⟩, Dim.mul a.val.dim b.val.dim⟩) hs
    rw [show ∀ (x : Quantity K) (f : Quantity K → Py (UQ K)),
      ((Except.ok x : Py (Quantity K)) >>= f) = f x from fun _ _ => rfl]
    rw [h1]
    refine ⟨⟨fun _ => rfl, fun _ => returns_ok _⟩, fun e he => absurd he (by simp), ?_⟩
    intro r hr
    simp only [Except.ok.injEq] at hr; subst hr
    have hdim := ha.vdim.mul hb.vdim
    refine ⟨⟨hdim, by simp only [h2]; exact hdim, by simp only [h2]; exact SameContent.refl _, h3⟩, rfl, fun v => ⟨hs, fun i hi => ?_⟩⟩
    have e := h4 i hi
    simp only [Valuation.meas, e, h2, ha.size v, hb.size v]
    have sz : v.size (Dim.mul a.val.dim b.val.dim) = v.size a.val.dim * v.size b.val.dim :=
      dsize_mul v.pos _ _
    have za := (v.size_pos a.val.dim).ne'
    have zb := (v.size_pos b.val.dim).ne'
    rw [mul_div_mul_right _ _ za, mul_div_mul_right _ _ zb, sz]
    exact ⟨by ring, by ring⟩

/-- The value and the uncertainty of a quotient of uncertain quantities. -/
theorem uq_div_uq {w : World K} {a b : UQ K} (ha : a.OK w) (hb : b.OK w) :
    (Returns (a.truediv w (.uq b)) ↔ (NDArr.bshape a.val.mag.shape b.val.mag.shape).isSome) ∧
    (∀ e, a.truediv w (.uq b) = .error e → e = .valueError) ∧
    (∀ r, a.truediv w (.uq b) = .ok r → r.OK w ∧ r.val.dim = Dim.div a.val.dim b.val.dim ∧
      ∀ v : Valuation w,
        NDArr.bshape (v.meas a).shape (v.meas b).shape = some (v.meas r).shape ∧
        ∀ i, NDArr.InB r.val.mag.shape i →
          let x := (v.meas a).elem (NDArr.bidx (v.meas a).shape i)
          let y := (v.meas b).elem (NDArr.bidx (v.meas b).shape i)
          let z := (v.meas r).elem i
          z.value = x.value / y.value ∧
          z.sigma = z.value * rpow ((x.sigma / x.value) ^ 2 + (y.sigma / y.value) ^ 2) (1/2)) := by
  unfold UQ.truediv
  simp only [UOperand.op, div_qq]
  rcases hs : NDArr.bshape a.val.mag.shape b.val.mag.shape with _ | s
  · have he : NDArr.bin (· / ·) a.val.mag b.val.mag = .error .valueError := by
      unfold NDArr.bin; simp [hs]
    rw [he]
    refine ⟨⟨fun hr => absurd hr (not_returns_error _), fun hr => by simp at hr⟩, ?_, ?_⟩
    · intro e he; simp only [bind, Except.map, Except.bind, Except.error.injEq] at he; exact he.symm
    · intro r hr; simp [bind, Except.map, Except.bind] at hr
  · rw [NDArr.bin_intro _ hs]
    simp only [Except.map]
    obtain ⟨u, h1, h2, h3, h4⟩ := uq_relPart ha hb
      (q := ⟨⟨s, fun i => a.val.mag.elem (NDArr.bidx a.val.mag.shape i) /
        b.val.mag.elem (NDArr.bidx b.val.mag.shape i)⟩, Dim.div a.val.dim b.val.dim⟩) hs
    rw [show ∀ (x : Quantity K) (f : Quantity K → Py (UQ K)),
      ((Except.ok x : Py (Quantity K)) >>= f) = f x from fun _ _ => rfl]
    rw [h1]
    refine ⟨⟨fun _ => rfl, fun _ => returns_ok _⟩, fun e he => absurd he (by simp), ?_⟩
    intro r hr
    simp only [Except.ok.injEq] at hr; subst hr
    have hdim := ha.vdim.div hb.vdim
    refine ⟨⟨hdim, by simp only [h2]; exact hdim, by simp only [h2]; exact SameContent.refl _, h3⟩, rfl, fun v => ⟨hs, fun i hi => ?_⟩⟩
    have e := h4 i hi
    simp only [Valuation.meas, e, h2, ha.size v, hb.size v]
    have sz : v.size (Dim.div a.val.dim b.val.dim) = v.size a.val.dim / v.size b.val.dim :=
      dsize_div v.pos _ _
    have za := (v.size_pos a.val.dim).ne'
    have zb := (v.size_pos b.val.dim).ne'
    rw [mul_div_mul_right _ _ za, mul_div_mul_right _ _ zb, sz]
    refine ⟨?_, by ring⟩
    rw [div_mul_div_comm]

end PQ
