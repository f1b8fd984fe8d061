import Verif.Lemmas.Arith
import Verif.Lemmas.Example

/-!
# Properties C13-C16, C43, C46: arithmetic on quantities

`v.phys q` is the array of physical values of `q`, `v.physOp` the same for an operand that may be a
plain array (a pure number). `NDArr.bin f` is numpy's broadcasting elementwise operation.
-/

namespace PQ

open Dict LawfulRPow World

variable {K : Type _} [Field K] [LinearOrder K] [IsStrictOrderedRing K] [RPow K] [LawfulRPow K]
variable {h : Hasher} {w : World K}

/-! ## C13 -/

/-- C13 (`a + b`): defined exactly when the units are compatible and the shapes broadcast, otherwise
`ValueError`; the result is in the units of `a` and its physical value is the sum. -/
theorem C13_add (hw : Reachable h w) (a : Quantity K) (b : Operand K)
    (ha : DimOK w a.dim) (hb : DimOK w b.dim) (hs : HashSafe w b.dim a.dim) :
    (Returns (a.add w b) ↔ Compatible w b.dim a.dim ∧
      (NDArr.bshape a.mag.shape b.arr.shape).isSome) ∧
    (∀ e, a.add w b = .error e → e = .valueError) ∧
    (∀ r, a.add w b = .ok r → SameContent r.dim a.dim ∧
      ∀ v : Valuation w, NDArr.bin (· + ·) (v.phys a) (v.physOp b) = .ok (v.phys r)) := by
  have := sumLike_spec hw.wf ha hb hs .add (fun _ _ => rfl) (fun x y => x + y) homog_add false
    (a.add w b) rfl
  exact ⟨this.1, this.2.1, fun r hr => ⟨(this.2.2 r hr).1, fun v => by simpa using (this.2.2 r hr).2.2 v⟩⟩

/-- C13 (`b + a` when the reflected method of `a` runs). -/
theorem C13_radd (hw : Reachable h w) (a : Quantity K) (b : Operand K)
    (ha : DimOK w a.dim) (hb : DimOK w b.dim) (hs : HashSafe w b.dim a.dim) :
    (Returns (a.radd w b) ↔ Compatible w b.dim a.dim ∧
      (NDArr.bshape a.mag.shape b.arr.shape).isSome) ∧
    (∀ e, a.radd w b = .error e → e = .valueError) ∧
    (∀ r, a.radd w b = .ok r → SameContent r.dim a.dim ∧
      ∀ v : Valuation w, NDArr.bin (· + ·) (v.physOp b) (v.phys a) = .ok (v.phys r)) := by
  have := sumLike_spec hw.wf ha hb hs .add (fun _ _ => rfl) (fun x y => x + y) homog_add true
    (a.radd w b) rfl
  exact ⟨this.1, this.2.1, fun r hr => ⟨(this.2.2 r hr).1, fun v => by simpa using (this.2.2 r hr).2.2 v⟩⟩

/-- C13 (`a - b`). -/
theorem C13_sub (hw : Reachable h w) (a : Quantity K) (b : Operand K)
    (ha : DimOK w a.dim) (hb : DimOK w b.dim) (hs : HashSafe w b.dim a.dim) :
    (Returns (a.sub w b) ↔ Compatible w b.dim a.dim ∧
      (NDArr.bshape a.mag.shape b.arr.shape).isSome) ∧
    (∀ e, a.sub w b = .error e → e = .valueError) ∧
    (∀ r, a.sub w b = .ok r → SameContent r.dim a.dim ∧
      ∀ v : Valuation w, NDArr.bin (· - ·) (v.phys a) (v.physOp b) = .ok (v.phys r)) := by
  have := sumLike_spec hw.wf ha hb hs .subtract (fun _ _ => rfl) (fun x y => x - y) homog_sub false
    (a.sub w b) rfl
  exact ⟨this.1, this.2.1, fun r hr => ⟨(this.2.2 r hr).1, fun v => by simpa using (this.2.2 r hr).2.2 v⟩⟩

/-- C13 (`b - a` when the reflected method of `a` runs). -/
theorem C13_rsub (hw : Reachable h w) (a : Quantity K) (b : Operand K)
    (ha : DimOK w a.dim) (hb : DimOK w b.dim) (hs : HashSafe w b.dim a.dim) :
    (Returns (a.rsub w b) ↔ Compatible w b.dim a.dim ∧
      (NDArr.bshape a.mag.shape b.arr.shape).isSome) ∧
    (∀ e, a.rsub w b = .error e → e = .valueError) ∧
    (∀ r, a.rsub w b = .ok r → SameContent r.dim a.dim ∧
      ∀ v : Valuation w, NDArr.bin (· - ·) (v.physOp b) (v.phys a) = .ok (v.phys r)) := by
  have := sumLike_spec hw.wf ha hb hs .subtract (fun _ _ => rfl) (fun x y => x - y) homog_sub true
    (a.rsub w b) rfl
  exact ⟨this.1, this.2.1, fun r hr => ⟨(this.2.2 r hr).1, fun v => by simpa using (this.2.2 r hr).2.2 v⟩⟩

/-- 500 m, a scalar. -/
noncomputable def exQ2 : Quantity ℝ := ⟨NDArr.scalar 500, dM⟩
/-- (3 km, 4 km). -/
noncomputable def exQ1 : Quantity ℝ := ⟨⟨[2], fun i => if i = [0] then 3 else 4⟩, dKm⟩

theorem exAddReturns : Returns (exQ1.add exWorld (.quantity exQ2)) :=
  (C13_add exWorld_reachable exQ1 (.quantity exQ2) (ex_dimOK _ (by simp [exQ1]))
    (ex_dimOK _ (by simp [exQ2, Operand.dim])) ex_safe_m_km).1.2
    ⟨compatible_symm exWorld_wf ex_compat, by decide⟩

example : HashSafe exWorld exQ2.dim exQ1.dim ∧ Returns (exQ1.add exWorld (.quantity exQ2)) :=
  ⟨ex_safe_m_km, exAddReturns⟩

/-! ## C43 -/

/-- C43: adding or subtracting a plain number is accepted exactly when the
quantity is dimensionless (compatible with a pure number). -/
theorem C43_add_number (hw : Reachable h w) (a : Quantity K) (x : K) (ha : DimOK w a.dim)
    (hs : HashSafe w [] a.dim) :
    (Returns (a.add w (.array (NDArr.scalar x))) ↔ Compatible w [] a.dim) ∧
    (Returns (a.sub w (.array (NDArr.scalar x))) ↔ Compatible w [] a.dim) := by
  have hsh : (NDArr.bshape a.mag.shape []).isSome := by
    rw [NDArr.bshape_comm]; simp [NDArr.bshape, NDArr.bshapeRev]
  have h1 := (C13_add hw a (.array (NDArr.scalar x)) ha (DimOK.nil w) hs).1
  have h2 := (C13_sub hw a (.array (NDArr.scalar x)) ha (DimOK.nil w) hs).1
  simp only [Operand.dim, Operand.arr, NDArr.scalar, hsh, and_true] at h1 h2
  exact ⟨h1, h2⟩

example : HashSafe exWorld [] ([] : Dim) ∧ DimOK exWorld [] := ⟨HashSafe.refl _ _, DimOK.nil _⟩

/-! ## C14 -/

/-- The operator rules of C14: `op` fails only for shapes, and the result denotes `f` of the physical
values with unit exponents combined by `k`. -/
private theorem prodLike (a b : Operand K) (f : UF2) (g : K → K → K) (k : ℚ → ℚ → ℚ) {d : Dim}
    (hd : ufunc2Dim w f a b = .ok d) (hok : DimOK w d)
    (he : ∀ u, expo d u = k (expo a.dim u) (expo b.dim u))
    (hg : ∀ (v : Valuation w) (x y : K), g (x * v.size a.dim) (y * v.size b.dim) = g x y * v.size d) :
    (Returns (applyUF2 w f g a b) ↔ (NDArr.bshape a.arr.shape b.arr.shape).isSome) ∧
    (∀ r, applyUF2 w f g a b = .ok r →
      DimOK w r.dim ∧ (∀ u, expo r.dim u = k (expo a.dim u) (expo b.dim u)) ∧
      ∀ v : Valuation w, NDArr.bin g (v.physOp a) (v.physOp b) = .ok (v.phys r)) := by
  obtain ⟨h1, -, h3⟩ := applyUF2_spec hd g
  refine ⟨h1, fun r hr => ?_⟩
  obtain ⟨t1, -⟩ := h3 r hr
  exact ⟨t1 ▸ hok, fun u => by rw [t1]; exact he u, fun v => applyUF2_phys hd g v (hg v) hr⟩

/-- C14 (`a * b`): never fails because of units (only shapes matter), unit exponents add, and the
physical value is the product. -/
theorem C14_mul (a : Quantity K) (b : Operand K) (ha : DimOK w a.dim) (hb : DimOK w b.dim) :
    (Returns (a.mul w b) ↔ (NDArr.bshape a.mag.shape b.arr.shape).isSome) ∧
    (∀ r, a.mul w b = .ok r → DimOK w r.dim ∧ (∀ u, expo r.dim u = expo a.dim u + expo b.dim u) ∧
      ∀ v : Valuation w, NDArr.bin (· * ·) (v.phys a) (v.physOp b) = .ok (v.phys r)) := by
  cases b with
  | quantity q =>
    exact prodLike (.quantity a) (.quantity q) .multiply (· * ·) (· + ·) rfl (ha.mul hb)
      (fun u => expo_mul ha.canon.nodup hb.canon.nodup u) (fun v x y => by
        have := dsize_mul v.pos a.dim q.dim
        simp only [Valuation.size, Operand.dim, this]; ring)
  | array x =>
    exact prodLike (.quantity a) (.array x) .multiply (· * ·) (· + ·) rfl ha
      (fun u => by simp [Operand.dim]) (fun v x y => by
        simp only [Valuation.size, Operand.dim, dsize_nil]; ring)

/-- C14 (`b * a` when the reflected method of `a` runs). -/
theorem C14_rmul (a : Quantity K) (b : Operand K) (ha : DimOK w a.dim) (hb : DimOK w b.dim) :
    (Returns (a.rmul w b) ↔ (NDArr.bshape b.arr.shape a.mag.shape).isSome) ∧
    (∀ r, a.rmul w b = .ok r → DimOK w r.dim ∧ (∀ u, expo r.dim u = expo b.dim u + expo a.dim u) ∧
      ∀ v : Valuation w, NDArr.bin (· * ·) (v.physOp b) (v.phys a) = .ok (v.phys r)) := by
  cases b with
  | quantity q =>
    exact prodLike (.quantity q) (.quantity a) .multiply (· * ·) (· + ·) rfl (hb.mul ha)
      (fun u => expo_mul hb.canon.nodup ha.canon.nodup u) (fun v x y => by
        have := dsize_mul v.pos q.dim a.dim
        simp only [Valuation.size, Operand.dim, this]; ring)
  | array x =>
    exact prodLike (.array x) (.quantity a) .multiply (· * ·) (· + ·) rfl ha
      (fun u => by simp [Operand.dim]) (fun v x y => by
        simp only [Valuation.size, Operand.dim, dsize_nil]; ring)

/-- C14 (`a / b`). -/
theorem C14_truediv (a : Quantity K) (b : Operand K) (ha : DimOK w a.dim) (hb : DimOK w b.dim) :
    (Returns (a.truediv w b) ↔ (NDArr.bshape a.mag.shape b.arr.shape).isSome) ∧
    (∀ r, a.truediv w b = .ok r →
      DimOK w r.dim ∧ (∀ u, expo r.dim u = expo a.dim u - expo b.dim u) ∧
      ∀ v : Valuation w, NDArr.bin (· / ·) (v.phys a) (v.physOp b) = .ok (v.phys r)) := by
  cases b with
  | quantity q =>
    exact prodLike (.quantity a) (.quantity q) .trueDivide (· / ·) (· - ·) rfl (ha.div hb)
      (fun u => expo_div ha.canon.nodup hb.canon.nodup u) (fun v x y => by
        have := dsize_div v.pos a.dim q.dim
        simp only [Valuation.size, Operand.dim, this]; exact mul_div_mul_comm _ _ _ _)
  | array x =>
    exact prodLike (.quantity a) (.array x) .trueDivide (· / ·) (· - ·) rfl ha
      (fun u => by simp [Operand.dim]) (fun v x y => by
        simp only [Valuation.size, Operand.dim, dsize_nil, mul_one]; ring)

/-- C14 (`b / a` when the reflected method of `a` runs). -/
theorem C14_rtruediv (a : Quantity K) (b : Operand K) (ha : DimOK w a.dim) (hb : DimOK w b.dim) :
    (Returns (a.rtruediv w b) ↔ (NDArr.bshape b.arr.shape a.mag.shape).isSome) ∧
    (∀ r, a.rtruediv w b = .ok r →
      DimOK w r.dim ∧ (∀ u, expo r.dim u = expo b.dim u - expo a.dim u) ∧
      ∀ v : Valuation w, NDArr.bin (· / ·) (v.physOp b) (v.phys a) = .ok (v.phys r)) := by
  cases b with
  | quantity q =>
    exact prodLike (.quantity q) (.quantity a) .trueDivide (· / ·) (· - ·) rfl (hb.div ha)
      (fun u => expo_div hb.canon.nodup ha.canon.nodup u) (fun v x y => by
        have := dsize_div v.pos q.dim a.dim
        simp only [Valuation.size, Operand.dim, this]; exact mul_div_mul_comm _ _ _ _)
  | array x =>
    exact prodLike (.array x) (.quantity a) .trueDivide (· / ·) (· - ·) rfl (ha.pow _)
      (fun u => by simp [Operand.dim, expo_pow]) (fun v x y => by
        have h1 := dsize_pow v.pos a.dim (-1)
        have h2 : rpow (dsize v.val a.dim) (-1) = (dsize v.val a.dim)⁻¹ :=
          rpow_neg_one (v.size_pos _)
        simp only [Valuation.size, Operand.dim, dsize_nil, mul_one, h1, h2]
        rw [div_mul_eq_div_div, div_eq_mul_inv (_ / _)])

example : Returns (exQ1.mul exWorld (.quantity exQ2)) ∧ Returns (exQ1.rtruediv exWorld (.quantity exQ2)) :=
  ⟨(C14_mul exQ1 (.quantity exQ2) (ex_dimOK _ (by simp [exQ1]))
      (ex_dimOK _ (by simp [exQ2, Operand.dim]))).1.2 (by decide),
   (C14_rtruediv exQ1 (.quantity exQ2) (ex_dimOK _ (by simp [exQ1]))
      (ex_dimOK _ (by simp [exQ2, Operand.dim]))).1.2 (by decide)⟩

/-! ## C15 -/

/-- C15, rejected exponents: an exponent with units, or an exponent array with two different values,
raises `ValueError`. -/
theorem C15_pow_rejects (a : Quantity K) (e : ExpArg) :
    ((∃ d, e.dim = some d ∧ d ≠ []) → a.pow e = .error .valueError) ∧
    ((∃ i j, NDArr.InB e.vals.shape i ∧ NDArr.InB e.vals.shape j ∧ e.vals.elem i ≠ e.vals.elem j) →
      a.pow e = .error .valueError) := by
  refine ⟨?_, ?_⟩
  · rintro ⟨d, hd, h0⟩
    have : hasDims e.dim = true := by
      rw [hd]; cases d with
      | nil => exact absurd rfl h0
      | cons _ _ => rfl
    unfold Quantity.pow; rw [if_pos this]
  · rintro ⟨i, j, hi, hj, hne⟩
    have : uniformExp e.vals = .error .valueError := by
      have mi := NDArr.mem_toList.2 ⟨i, hi, rfl⟩
      have mj := NDArr.mem_toList.2 ⟨j, hj, rfl⟩
      unfold uniformExp
      rcases hl : e.vals.toList with _ | ⟨p, ps⟩
      · rfl
      · rw [hl] at mi mj
        refine if_neg ?_
        intro hall
        have hall' : ∀ x ∈ ps, x = p := by simpa using hall
        have h1 : ∀ x ∈ p :: ps, x = p := by
          intro x hx
          rcases List.mem_cons.1 hx with rfl | hx
          · rfl
          · exact hall' x hx
        exact hne ((h1 _ mi).trans (h1 _ mj).symm)
    unfold Quantity.pow
    split
    · rfl
    · rw [this]

/-- The exponents for which a power of the elements of `a` is taken literally: any for positive
elements, natural ones always, integers for non-zero elements. -/
def PowOK (a : NDArr K) (p : ℚ) : Prop :=
  NDArr.All (fun x => 0 < x) a ∨ (∃ n : ℕ, p = n) ∨ (NDArr.All (fun x => x ≠ 0) a ∧ ∃ n : ℤ, p = n)

/-- C15: a returned power has a uniform dimensionless exponent `p`, multiplies every unit exponent by
`p`, and denotes the `p`-th power of the physical value. -/
theorem C15_pow (a r : Quantity K) (e : ExpArg) (ha : DimOK w a.dim) (hr : a.pow e = .ok r) :
    ∃ p : ℚ, NDArr.All (fun x => x = p) e.vals ∧ (∀ d, e.dim = some d → d = []) ∧ DimOK w r.dim ∧
      (∀ u, expo r.dim u = expo a.dim u * p) ∧
      (PowOK a.mag p → ∀ v : Valuation w, ∃ m, NDArr.bin (fun x q => rpow x q) (v.phys a) e.vals = .ok m ∧
        NDArr.Same m (v.phys r)) := by
  unfold Quantity.pow at hr
  split at hr
  · exact absurd hr (by simp)
  rename_i hd
  rcases hu : uniformExp e.vals with err | p
  · rw [hu] at hr; exact absurd hr (by simp)
  have hall : NDArr.All (fun x => x = p) e.vals := by
    rw [NDArr.all_iff_toList]
    unfold uniformExp at hu
    rcases hl : e.vals.toList with _ | ⟨q, ps⟩
    · rw [hl] at hu; exact absurd hu (by simp)
    · rw [hl] at hu
      simp only at hu
      split at hu
      · rename_i hps
        simp only [Except.ok.injEq] at hu; subst hu
        intro x hx
        rcases List.mem_cons.1 hx with rfl | hx
        · rfl
        · have : ∀ x ∈ ps, x = q := by simpa using hps
          exact this x hx
      · exact absurd hu (by simp)
  have hdim : dPower (.quantity a) e = .ok (Dim.pow a.dim p) := by
    unfold dPower; rw [if_neg hd, hu]
  rw [hu, hdim] at hr
  simp only at hr
  rcases hb : NDArr.bin (fun (x : K) q => rpow x q) a.mag e.vals with err | m
  · rw [hb] at hr; exact absurd hr (by simp)
  rw [hb] at hr
  simp only [Except.ok.injEq] at hr; subst hr
  refine ⟨p, hall, ?_, ha.pow p, fun u => by simp [expo_pow], ?_⟩
  · intro d hd'
    rw [hd'] at hd
    cases d with
    | nil => rfl
    | cons _ _ => exact absurd rfl hd
  · intro hok v
    have hsz : v.size (Dim.pow a.dim p) = rpow (v.size a.dim) p := dsize_pow v.pos a.dim p
    have hmb := NDArr.map_bin (fun (x : K) q => rpow x q) (fun z => z * v.size (Dim.pow a.dim p))
      a.mag e.vals
    rw [hb] at hmb
    have key : ∃ P : K → Prop, NDArr.All P a.mag ∧ ∀ x, P x →
        rpow x p * v.size (Dim.pow a.dim p) = rpow (x * v.size a.dim) p := by
      rcases hok with h1 | ⟨n, rfl⟩ | ⟨h1, n, rfl⟩
      · exact ⟨_, h1, fun x hx => by rw [hsz, mul_rpow _ _ _ hx (v.size_pos _)]⟩
      · exact ⟨fun _ => True, fun _ _ => trivial, fun x _ => by
          rw [hsz, rpow_natCast, rpow_natCast, rpow_natCast, mul_pow]⟩
      · exact ⟨_, h1, fun x hx => by
          have hs0 := (v.size_pos a.dim).ne'
          rw [hsz, rpow_intCast _ _ hx, rpow_intCast _ _ hs0, rpow_intCast _ _ (mul_ne_zero hx hs0),
            mul_zpow]⟩
    obtain ⟨P, hP, hfun⟩ := key
    obtain ⟨m', hm', hsame⟩ := NDArr.bin_same (g := fun x q => rpow (x * v.size a.dim) q) hP hall
      (fun x y hx hy => by subst hy; exact hfun x hx) hmb.symm
    refine ⟨m', ?_, hsame.symm⟩
    have hbm := NDArr.bin_map (fun (x : K) (q : ℚ) => rpow x q) (fun x => x * v.size a.dim) id
      a.mag e.vals
    rw [NDArr.map_id' (f := id) (fun x => rfl)] at hbm
    exact hbm.trans hm'

/-- C15: a power returns exactly when the exponent has no units, is one and the same number throughout, and its
shape broadcasts with the base; otherwise it raises `ValueError`. A number as exponent always works. -/
theorem C15_pow_returns (a : Quantity K) :
    (∀ e : ExpArg, Returns (a.pow e) ↔ (∀ d, e.dim = some d → d = []) ∧
      (∃ i p, NDArr.InB e.vals.shape i ∧ e.vals.elem i = p ∧ NDArr.All (fun x => x = p) e.vals) ∧
      (NDArr.bshape a.mag.shape e.vals.shape).isSome) ∧
    (∀ (e : ExpArg) x, a.pow e = .error x → x = .valueError) ∧
    ∀ p : ℚ, Returns (a.pow ⟨NDArr.scalar p, none⟩) := by
  have hdims : ∀ d : Option Dim, hasDims d = false ↔ ∀ x, d = some x → x = [] := by
    rintro (_ | _ | _) <;> simp [hasDims]
  have huni : ∀ (v : NDArr ℚ) (p : ℚ), uniformExp v = .ok p ↔
      (∃ i, NDArr.InB v.shape i ∧ v.elem i = p) ∧ NDArr.All (fun x => x = p) v := by
    intro v p
    rw [NDArr.all_iff_toList, ← NDArr.mem_toList]
    unfold uniformExp
    rcases v.toList with _ | ⟨q, l⟩
    · simp
    · simp only
      by_cases hl : (l.all fun x => decide (x = q)) = true
      · rw [if_pos hl]
        have hl' : ∀ x ∈ l, x = q := by simpa using hl
        simp only [Except.ok.injEq, List.mem_cons]
        constructor
        · rintro rfl
          exact ⟨.inl rfl, fun x hx => hx.elim id (hl' x)⟩
        · rintro ⟨-, h⟩
          exact h q (.inl rfl)
      · rw [if_neg hl]
        simp only [reduceCtorEq, false_iff, not_and]
        rintro - h
        refine hl ?_
        have hq := h q List.mem_cons_self
        simpa using fun x hx => (h x (List.mem_cons_of_mem _ hx)).trans hq.symm
  have hres : ∀ e : ExpArg, Returns (a.pow e) ↔ (∀ d, e.dim = some d → d = []) ∧
      (∃ i p, NDArr.InB e.vals.shape i ∧ e.vals.elem i = p ∧ NDArr.All (fun x => x = p) e.vals) ∧
      (NDArr.bshape a.mag.shape e.vals.shape).isSome := by
    intro e
    rw [← hdims, ← NDArr.bin_ok_iff (f := fun (x : K) p => rpow x p)]
    have e2 : (∃ i p, NDArr.InB e.vals.shape i ∧ e.vals.elem i = p ∧ NDArr.All (fun x => x = p) e.vals) ↔
        ∃ p, uniformExp e.vals = .ok p := by
      simp only [huni]
      constructor
      · rintro ⟨i, p, h1, h2, h3⟩; exact ⟨p, ⟨i, h1, h2⟩, h3⟩
      · rintro ⟨p, ⟨i, h1, h2⟩, h3⟩; exact ⟨i, p, h1, h2, h3⟩
    rw [e2]
    unfold Quantity.pow dPower
    rcases hasDims e.dim with _ | _ <;> rcases uniformExp e.vals with x | p <;>
      rcases NDArr.bin (fun (x : K) p => rpow x p) a.mag e.vals with y | m <;> simp [Returns]
  refine ⟨hres, fun e x hx => ?_, fun p => (hres _).2 ⟨by simp, ⟨[], p, ?_, rfl, ?_⟩, ?_⟩⟩
  · unfold Quantity.pow dPower at hx
    have hu : ∀ x, uniformExp e.vals = .error x → x = .valueError := by
      intro x hx
      unfold uniformExp at hx
      split at hx
      · simpa using hx.symm
      · split at hx <;> simp at hx; exact hx.symm
    rcases hh : hasDims e.dim with _ | _ <;> rcases hv : uniformExp e.vals with y | p <;>
      rcases hb : NDArr.bin (fun (x : K) p => rpow x p) a.mag e.vals with z | m <;>
      rw [hh, hv] at hx <;> simp [hb] at hx <;> subst hx <;>
      first | rfl | exact hu _ hv | exact NDArr.bin_error hb
  · exact .nil
  · intro i _; rfl
  · rw [NDArr.bshape_comm]
    simp [NDArr.bshape, NDArr.bshapeRev, NDArr.scalar]

/-- C14: an exception raised by a product or quotient is a `ValueError` about shapes. -/
theorem C14_errors (w : World K) (a : Quantity K) (b : Operand K) (e : PyErr)
    (h : a.mul w b = .error e ∨ a.rmul w b = .error e ∨ a.truediv w b = .error e ∨ a.rtruediv w b = .error e) :
    e = .valueError := by
  have key : ∀ (f : UF2) (g : K → K → K) (x y : Operand K) (d : Dim), ufunc2Dim w f x y = .ok d →
      applyUF2 w f g x y = .error e → e = .valueError := by
    intro f g x y d hd hx
    unfold applyUF2 at hx
    rw [hd] at hx
    rcases hb : NDArr.bin g x.arr y.arr with z | m
    · simp only [hb, Except.error.injEq] at hx
      subst hx; exact NDArr.bin_error hb
    · simp [hb] at hx
  rcases h with h | h | h | h
  · cases b <;> exact key .multiply _ _ _ _ rfl h
  · cases b <;> exact key .multiply _ _ _ _ rfl h
  · cases b <;> exact key .trueDivide _ _ _ _ rfl h
  · cases b <;> exact key .trueDivide _ _ _ _ rfl h

example : PowOK exQ1.mag (1/2) ∧ Returns (exQ1.pow ⟨NDArr.scalar (1/2), none⟩) := by
  refine ⟨Or.inl ?_, (C15_pow_returns _).2.2 _⟩
  intro i _
  simp only [exQ1]; split <;> norm_num

/-! ## C16 -/

/-- C16 (`a % b`): defined exactly for compatible units and broadcastable shapes, in the units of
`a`, and denotes the remainder of the physical values. -/
theorem C16_mod [PyFloor K] (hw : Reachable h w) (a : Quantity K) (b : Operand K)
    (ha : DimOK w a.dim) (hb : DimOK w b.dim) (hs : HashSafe w b.dim a.dim) :
    (Returns (a.mod w b) ↔ Compatible w b.dim a.dim ∧
      (NDArr.bshape a.mag.shape b.arr.shape).isSome) ∧
    (∀ e, a.mod w b = .error e → e = .valueError) ∧
    (∀ r, a.mod w b = .ok r → SameContent r.dim a.dim ∧
      ∀ v : Valuation w, NDArr.bin (fun x y => x - y * pfloor (x / y)) (v.phys a) (v.physOp b)
        = .ok (v.phys r)) := by
  have := sumLike_spec hw.wf ha hb hs .remainder (fun _ _ => rfl) modK homog_mod false
    (a.mod w b) rfl
  exact ⟨this.1, this.2.1, fun r hr => ⟨(this.2.2 r hr).1, fun v => (this.2.2 r hr).2.2 v⟩⟩

/-- C16: over the reals that remainder is `x` minus a whole multiple of `y`, between 0 and `y`, with
the sign of `y`. -/
theorem C16_mod_meaning (x y : ℝ) :
    (∃ n : ℤ, x = n * y + modK x y) ∧ (0 < y → 0 ≤ modK x y ∧ modK x y < y) ∧
    (y < 0 → y < modK x y ∧ modK x y ≤ 0) := by
  have hf : modK x y = x - y * (⌊x / y⌋ : ℤ) := rfl
  have h1 := Int.floor_le (x / y)
  have h2 := Int.lt_floor_add_one (x / y)
  refine ⟨⟨⌊x / y⌋, by rw [hf]; ring⟩, fun hp => ?_, fun hn => ?_⟩
  · rw [hf]
    have h3 := (le_div_iff₀ hp).1 h1
    have h4 := (div_lt_iff₀ hp).1 h2
    constructor <;> nlinarith
  · rw [hf]
    have h3 := (le_div_iff_of_neg hn).1 h1
    have h4 := (div_lt_iff_of_neg hn).1 h2
    constructor <;> nlinarith

/-- C63 (`a // b`), the part that holds: when `b` already has the units of `a`, the result is a pure
number and is the floor of the physical quotient.  Missing: operands in different compatible units,
for which it fails (`C63_floordiv_false`). -/
theorem C63_floordiv_partial [PyFloor K] (a b r : Quantity K) (ha : DimOK w a.dim)
    (hb : DimOK w b.dim) (hsame : SameContent a.dim b.dim)
    (hr : a.floordiv w (.quantity b) = .ok r) :
    r.dim = [] ∧ ∀ v : Valuation w,
      NDArr.bin (fun x y => pfloor (x / y)) (v.phys a) (v.phys b) = .ok (v.phys r) := by
  have hd : ufunc2Dim w .floorDivide (.quantity a) (.quantity b) = .ok (Dim.div a.dim b.dim) := rfl
  have h0 : Dim.div a.dim b.dim = [] := by
    refine (ha.div hb).canon.eq_nil fun u => ?_
    rw [expo_div ha.canon.nodup hb.canon.nodup]
    unfold expo
    rw [hsame u, sub_self]
  obtain ⟨h1, -⟩ := (applyUF2_spec hd floorDivK).2.2 r hr
  refine ⟨h1.trans h0, fun v => applyUF2_phys hd floorDivK v (fun x y => ?_) hr⟩
  have e : v.size a.dim = v.size b.dim :=
    dsize_same v.val ha.canon.nodup hb.canon.nodup hsame
  have hz : v.size (Dim.div a.dim b.dim) = 1 := by rw [h0]; rfl
  simp only [Operand.dim, e, hz, mul_one, floorDivK]
  rw [mul_div_mul_right _ _ (v.size_pos _).ne']

/-- 1.5 km, 1 m -/
noncomputable def exFa : Quantity ℝ := ⟨NDArr.scalar (3/2), dKm⟩
noncomputable def exFb : Quantity ℝ := ⟨NDArr.scalar 1, dM⟩

/-- C63 as stated is false of `//`: `1.5 km // 1 m` returns 1 km/m, that is 1000, while the physical
quotient is 1500. -/
theorem C63_floordiv_false : ∃ r, exFa.floordiv exWorld (.quantity exFb) = .ok r ∧
    ∀ v : Valuation exWorld,
      NDArr.bin (fun x y => pfloor (x / y)) (v.phys exFa) (v.phys exFb) ≠ .ok (v.phys r) := by
  refine ⟨⟨NDArr.scalar (floorDivK (3/2) 1), Dim.div dKm dM⟩, rfl, fun v hv => ?_⟩
  have hkm : v.size dKm = 1000 * v.size dM := by
    have := v.defined uKm (exWorld.info uKm |>.get (by rfl)) ⟨1000, dM⟩ (by rfl) (by rfl)
    simp only [Valuation.size, dKm, dM, dsize_cons, dsize_nil, mul_one, LawfulRPow.rpow_one] at this ⊢
    exact this
  have hdiv : v.size (Dim.div dKm dM) = 1000 := by
    have := dsize_div v.pos dKm dM
    change dsize v.val (Dim.div dKm dM) = 1000
    rw [this]
    change v.size dKm / v.size dM = 1000
    rw [hkm]
    have := (v.size_pos dM).ne'
    field_simp
  have hel : ((⌊((3/2 : ℝ) * v.size dKm) / (1 * v.size dM)⌋ : ℤ) : ℝ)
      = ((⌊(3/2 : ℝ) / 1⌋ : ℤ) : ℝ) * v.size (Dim.div dKm dM) := by
    have := congrArg (fun x : Py (NDArr ℝ) => match x with | .ok m => m.elem [] | .error _ => 0) hv
    exact this
  have hm := (v.size_pos dM).ne'
  have e1 : ((3/2 : ℝ) * v.size dKm) / (1 * v.size dM) = 1500 := by rw [hkm]; field_simp; norm_num
  have e2 : ⌊(3/2 : ℝ) / 1⌋ = 1 := by norm_num
  rw [e1, e2, hdiv] at hel
  norm_num at hel

/-! ## C46 -/

/-- C46: `dimensionless_magnitude` returns exactly the physical pure numbers, and exists exactly when
the units of `q` are compatible with a pure number. -/
theorem C46_dimensionless_magnitude (hw : Reachable h w) (q : Quantity K) (hq : DimOK w q.dim)
    (hs : HashSafe w q.dim []) :
    (Returns (q.dimensionlessMagnitude w) ↔ Compatible w q.dim []) ∧
    (∀ e, q.dimensionlessMagnitude w = .error e → e = .valueError) ∧
    (∀ m, q.dimensionlessMagnitude w = .ok m → ∀ v : Valuation w, m = v.phys q) := by
  have h1 := rescale_returns hw.wf hq (DimOK.nil w) hs
  unfold Quantity.dimensionlessMagnitude
  rcases hr : q.rescale w [] with e | r
  · rw [hr] at h1
    refine ⟨⟨fun h => absurd h (not_returns_error _), fun h => absurd (h1.2 h) (not_returns_error _)⟩,
      ?_, fun m hm => absurd hm (by simp [Except.map])⟩
    intro e' he'
    have : e = e' := by simpa [Except.map] using he'
    subst this
    exact rescale_error hr
  · rw [hr] at h1
    refine ⟨⟨fun _ => h1.1 (returns_ok _), fun _ => ⟨_, rfl⟩⟩, fun e he => absurd he (by simp [Except.map]), ?_⟩
    intro m hm v
    have : r.mag = m := by simpa [Except.map] using hm
    subst this
    rw [← rescale_phys hw.wf hq (DimOK.nil w) hs hr v]
    obtain ⟨-, hc, -, hz, -⟩ := rescale_ok hw.wf hq (DimOK.nil w) hs hr
    have hsz : v.size r.dim = 1 := by rw [hz v]; rfl
    exact (NDArr.map_id' (fun x => by rw [hsz, mul_one]) _).symm

end PQ
