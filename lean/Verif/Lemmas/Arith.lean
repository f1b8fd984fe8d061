import Verif.Lemmas.Quantity
import Verif.Lemmas.NDArr

/-! # Lemmas about operators on quantities -/

namespace PQ

open Dict LawfulRPow World

variable {K : Type _}

theorem Operand.toQuantity_dim (o : Operand K) : o.toQuantity.dim = o.dim := by cases o <;> rfl
theorem Operand.toQuantity_mag (o : Operand K) : o.toQuantity.mag = o.arr := by cases o <;> rfl

section
variable [Field K] [LinearOrder K] [IsStrictOrderedRing K] [RPow K] [LawfulRPow K]

omit [IsStrictOrderedRing K] [LawfulRPow K] in
theorem physOp_eq {w : World K} (v : Valuation w) (o : Operand K) :
    v.physOp o = v.phys o.toQuantity := by
  cases o with
  | quantity q => rfl
  | array a =>
    simp only [Valuation.physOp, Valuation.phys, Operand.toQuantity, Valuation.size, dsize_nil]
    exact (NDArr.map_id' (fun x => mul_one x) _).symm

omit [IsStrictOrderedRing K] [LawfulRPow K] in
theorem physOp_eq' {w : World K} (v : Valuation w) (o : Operand K) :
    v.physOp o = o.arr.map (fun x => x * v.size o.dim) := by
  rw [physOp_eq, Valuation.phys, Operand.toQuantity_mag, Operand.toQuantity_dim]

omit [LinearOrder K] [IsStrictOrderedRing K] [LawfulRPow K] in
theorem scaleOther_def (w : World K) (self : Quantity K) (other : Operand K) :
    Quantity.scaleOther w self other = if w.deq other.toQuantity.dim self.dim = true then
      .ok other.toQuantity else other.toQuantity.rescale w self.dim := by
  unfold Quantity.scaleOther
  by_cases h : w.deq other.toQuantity.dim self.dim = true
  · rw [if_pos h, if_neg (by rw [dne_eq, h]; simp)]
  · rw [if_neg h, if_pos (by rw [dne_eq]; simpa using h)]

/-- What `scale_other_units` delivers. -/
theorem scaleOther_spec {w : World K} (hw : WF w) {self : Quantity K} {other : Operand K}
    (hq : DimOK w self.dim) (ho : DimOK w other.dim) (hs : HashSafe w other.dim self.dim) :
    (Returns (Quantity.scaleOther w self other) ↔ Compatible w other.dim self.dim) ∧
    (∀ e, Quantity.scaleOther w self other = .error e → e = .valueError) ∧
    (∀ o, Quantity.scaleOther w self other = .ok o → SameContent o.dim self.dim ∧ DimOK w o.dim ∧
      o.mag.shape = other.arr.shape ∧ ∀ v : Valuation w, v.phys o = v.physOp other) := by
  have ho' : DimOK w other.toQuantity.dim := by rw [Operand.toQuantity_dim]; exact ho
  have hs' : HashSafe w other.toQuantity.dim self.dim := by rw [Operand.toQuantity_dim]; exact hs
  rw [scaleOther_def]
  by_cases hd : w.deq other.toQuantity.dim self.dim = true
  swap
  · rw [if_neg hd]
    refine ⟨?_, fun e he => rescale_error he, ?_⟩
    · rw [rescale_returns hw ho' hq hs', Operand.toQuantity_dim]
    · intro o h
      obtain ⟨h1, h2, h3, _⟩ := rescale_ok hw ho' hq hs' h
      refine ⟨h2, h3, by rw [h1, Operand.toQuantity_mag], fun v => ?_⟩
      rw [rescale_phys hw ho' hq hs' h v, physOp_eq]
  · rw [if_pos hd]
    have hc := hs'.direct hd
    refine ⟨⟨fun _ => ?_, fun _ => returns_ok _⟩, fun e he => absurd he (by simp), ?_⟩
    · rw [← Operand.toQuantity_dim]
      exact compatible_of_same ho'.canon.nodup hq.canon.nodup hc
    · intro o h
      simp only [Except.ok.injEq] at h; subst h
      exact ⟨hc, ho', by rw [Operand.toQuantity_mag], fun v => (physOp_eq v other).symm⟩

/-- A function of two numbers that scales: `g (s x) (s y) = s g x y`. -/
def Homog (g : K → K → K) : Prop := ∀ s x y : K, 0 < s → g (x * s) (y * s) = g x y * s

/-- The sum-like operators: `self` and the rescaled other operand go through a ufunc of the
`_d_check_uniform` group; `swap` is the reflected form. -/
theorem sumLike_spec {w : World K} (hw : WF w) {self : Quantity K} {other : Operand K}
    (hq : DimOK w self.dim) (ho : DimOK w other.dim) (hs : HashSafe w other.dim self.dim)
    (f : UF2) (hf : ∀ x y, ufunc2Dim w f x y = dCheckUniform w x y) (g : K → K → K) (hg : Homog g)
    (swap : Bool) (res : Py (Quantity K))
    (hres : res = (match Quantity.scaleOther w self other with
      | .error e => .error e
      | .ok o => if swap then applyUF2 w f g (.quantity o) (.quantity self)
        else applyUF2 w f g (.quantity self) (.quantity o))) :
    (Returns res ↔ Compatible w other.dim self.dim ∧
      (NDArr.bshape self.mag.shape other.arr.shape).isSome) ∧
    (∀ e, res = .error e → e = .valueError) ∧
    (∀ r, res = .ok r → SameContent r.dim self.dim ∧ DimOK w r.dim ∧ ∀ v : Valuation w,
      (if swap then NDArr.bin g (v.physOp other) (v.phys self)
        else NDArr.bin g (v.phys self) (v.physOp other)) = .ok (v.phys r)) := by
  obtain ⟨s1, s2, s3⟩ := scaleOther_spec hw hq ho hs
  rcases hso : Quantity.scaleOther w self other with e | o
  · rw [hso] at hres s1 s2
    simp only at hres
    subst hres
    refine ⟨⟨fun h => absurd h (not_returns_error _), fun h => ?_⟩, ?_, fun r hr => absurd hr (by simp)⟩
    · exact absurd (s1.2 h.1) (not_returns_error _)
    · intro e' he'; simp only [Except.error.injEq] at he'; subst he'; exact s2 _ rfl
  · obtain ⟨t1, t2, t3, t4⟩ := s3 o hso
    have hdeq1 : w.deq self.dim o.dim = true :=
      deq_same hq.canon.nodup t2.canon.nodup t1.symm
    have hdeq2 : w.deq o.dim self.dim = true := deq_same t2.canon.nodup hq.canon.nodup t1
    have hcompat : Compatible w other.dim self.dim := s1.1 (by rw [hso]; exact returns_ok _)
    have hsize : ∀ v : Valuation w, v.size o.dim = v.size self.dim := fun v =>
      dsize_same v.val t2.canon.nodup hq.canon.nodup t1
    rw [hso] at hres
    simp only [applyUF2, hf, dCheckUniform, hdeq1, hdeq2, if_true, Operand.arr] at hres
    cases swap with
    | true =>
      simp only [if_true] at hres ⊢
      have hb : ∀ v : Valuation w, NDArr.bin g (v.physOp other) (v.phys self)
          = (NDArr.bin g o.mag self.mag).map (NDArr.map (fun x => x * v.size o.dim)) := by
        intro v
        rw [← t4 v]; simp only [Valuation.phys]
        rw [NDArr.bin_map, NDArr.map_bin]
        exact NDArr.bin_congr (fun x y => by rw [hsize v]; exact hg _ _ _ (v.size_pos _)) _ _
      rcases hbin : NDArr.bin g o.mag self.mag with e | m
      · rw [hbin] at hres; simp only at hres; subst hres
        have := NDArr.bin_error hbin
        refine ⟨⟨fun h => absurd h (not_returns_error _), fun h => ?_⟩, ?_,
          fun r hr => absurd hr (by simp)⟩
        · have h1 := (NDArr.bin_ok_iff g o.mag self.mag).2 (by
            rw [NDArr.bshape_comm, t3]; exact h.2)
          rw [hbin] at h1; exact absurd h1 (not_returns_error _)
        · intro e' he'; simp only [Except.error.injEq] at he'; subst he'; exact this
      · rw [hbin] at hres; simp only at hres; subst hres
        refine ⟨⟨fun _ => ⟨hcompat, ?_⟩, fun _ => returns_ok _⟩, fun e he => absurd he (by simp), ?_⟩
        · have h1 := (NDArr.bin_ok_iff g o.mag self.mag).1 ⟨m, hbin⟩
          rw [NDArr.bshape_comm, t3] at h1; exact h1
        · intro r hr
          simp only [Except.ok.injEq] at hr; subst hr
          refine ⟨t1, t2, fun v => ?_⟩
          rw [hb v, hbin]; rfl
    | false =>
      simp only [Bool.false_eq_true, if_false] at hres ⊢
      have hb : ∀ v : Valuation w, NDArr.bin g (v.phys self) (v.physOp other)
          = (NDArr.bin g self.mag o.mag).map (NDArr.map (fun x => x * v.size self.dim)) := by
        intro v
        rw [← t4 v]; simp only [Valuation.phys]
        rw [NDArr.bin_map, NDArr.map_bin]
        exact NDArr.bin_congr (fun x y => by rw [hsize v]; exact hg _ _ _ (v.size_pos _)) _ _
      rcases hbin : NDArr.bin g self.mag o.mag with e | m
      · rw [hbin] at hres; simp only at hres; subst hres
        have := NDArr.bin_error hbin
        refine ⟨⟨fun h => absurd h (not_returns_error _), fun h => ?_⟩, ?_,
          fun r hr => absurd hr (by simp)⟩
        · have h1 := (NDArr.bin_ok_iff g self.mag o.mag).2 (by rw [t3]; exact h.2)
          rw [hbin] at h1; exact absurd h1 (not_returns_error _)
        · intro e' he'; simp only [Except.error.injEq] at he'; subst he'; exact this
      · rw [hbin] at hres; simp only at hres; subst hres
        refine ⟨⟨fun _ => ⟨hcompat, ?_⟩, fun _ => returns_ok _⟩, fun e he => absurd he (by simp), ?_⟩
        · have h1 := (NDArr.bin_ok_iff g self.mag o.mag).1 ⟨m, hbin⟩
          rw [t3] at h1; exact h1
        · intro r hr
          simp only [Except.ok.injEq] at hr; subst hr
          refine ⟨SameContent.refl _, hq, fun v => ?_⟩
          rw [hb v, hbin]; rfl

omit [IsStrictOrderedRing K] [RPow K] [LawfulRPow K] in
theorem homog_add : Homog (fun x y : K => x + y) := fun s x y _ => by ring

omit [IsStrictOrderedRing K] [RPow K] [LawfulRPow K] in
theorem homog_sub : Homog (fun x y : K => x - y) := fun s x y _ => by ring

omit [IsStrictOrderedRing K] [RPow K] [LawfulRPow K] in
theorem homog_mod [PyFloor K] : Homog (modK : K → K → K) := fun s x y hs => by
  unfold modK; rw [mul_div_mul_right _ _ hs.ne']; ring

omit [IsStrictOrderedRing K] [RPow K] [LawfulRPow K] in
theorem applyUF2_spec {w : World K} {f : UF2} {x y : Operand K} {d : Dim}
    (hd : ufunc2Dim w f x y = .ok d) (g : K → K → K) :
    (Returns (applyUF2 w f g x y) ↔ (NDArr.bshape x.arr.shape y.arr.shape).isSome) ∧
    (∀ e, applyUF2 w f g x y = .error e → e = .valueError) ∧
    (∀ r, applyUF2 w f g x y = .ok r → r.dim = d ∧ NDArr.bin g x.arr y.arr = .ok r.mag) := by
  have h1 := NDArr.bin_ok_iff g x.arr y.arr
  unfold applyUF2
  rw [hd]
  rcases hbin : NDArr.bin g x.arr y.arr with e | m
  · rw [hbin] at h1
    refine ⟨⟨fun h => absurd h (not_returns_error _), fun h => absurd (h1.2 h) (not_returns_error _)⟩,
      ?_, fun r hr => absurd hr (by simp)⟩
    intro e' he'
    simp only [Except.error.injEq] at he'; subst he'
    exact NDArr.bin_error hbin
  · rw [hbin] at h1
    refine ⟨⟨fun _ => h1.1 (returns_ok _), fun _ => returns_ok _⟩, fun e he => absurd he (by simp), ?_⟩
    intro r hr
    simp only [Except.ok.injEq] at hr; subst hr
    exact ⟨rfl, rfl⟩

omit [IsStrictOrderedRing K] [LawfulRPow K] in
/-- A binary operation that scales by `size d` when its operands scale by their units. -/
theorem applyUF2_phys {w : World K} {f : UF2} {x y : Operand K} {d : Dim}
    (hd : ufunc2Dim w f x y = .ok d) (g : K → K → K) (v : Valuation w)
    (hg : ∀ a b, g (a * v.size x.dim) (b * v.size y.dim) = g a b * v.size d)
    {r : Quantity K} (hr : applyUF2 w f g x y = .ok r) :
    NDArr.bin g (v.physOp x) (v.physOp y) = .ok (v.phys r) := by
  obtain ⟨h1, h2⟩ := (applyUF2_spec hd g).2.2 r hr
  rw [physOp_eq', physOp_eq', NDArr.bin_map, Valuation.phys, h1]
  have := NDArr.map_bin g (fun z => z * v.size d) x.arr y.arr
  rw [h2] at this
  refine Eq.trans ?_ this.symm
  exact NDArr.bin_congr hg _ _

end
end PQ
