import Verif.Lemmas.Quantity
import Verif.Lemmas.Example

/-!
# Properties C09-C12: unit conversion

`w` ranges over all worlds reachable by any history of unit definitions and default changes, `v` over
all assignments of sizes to units that agree with the definitions (`Spec/Physical.lean`).
`HashSafe w a b` says that the two hash comparisons made during the conversion do not answer `True`
for different contents.
-/

namespace PQ

open Dict World

variable {K : Type _} [Field K] [LinearOrder K] [IsStrictOrderedRing K] [RPow K] [LawfulRPow K]
variable {h : Hasher} {w : World K}

/-- C09: a successful `rescale` keeps the shape and, for every valuation, the physical value of every
element, and the result is expressed in the requested units. -/
theorem C09_rescale_preserves_value (hw : Reachable h w) (q r : Quantity K) (d : Dim)
    (hq : DimOK w q.dim) (hd : DimOK w d) (hs : HashSafe w q.dim d)
    (hr : q.rescale w d = .ok r) :
    (∀ v : Valuation w, v.phys r = v.phys q) ∧ r.mag.shape = q.mag.shape ∧ SameContent r.dim d :=
  ⟨rescale_phys hw.wf hq hd hs hr, (rescale_ok hw.wf hq hd hs hr).1, (rescale_ok hw.wf hq hd hs hr).2.1⟩

/-- Valuations exist in every reachable world, for any choice of sizes of the base units, so C09 is
not vacuous. -/
theorem C09_valuations_exist (hw : Reachable h w) (b : UKey → K) (hb : ∀ u, 0 < b u) :
    ∃ v : Valuation w, ∀ u, (∀ i, w.info u = some i → i.definition = none) →
      u.cls ≠ .dimensionless → v.val u = b u := by
  refine ⟨mkValuation hw.wf b hb, fun u hu hc => mkVal_base ?_ hc⟩
  rcases hi : w.info u with _ | i
  · simp [World.convRef, hi]
  · rw [convRef_of_info hi, hw.wf.conv u i hi, hu i hi]; rfl

/-- C10: `rescale` returns exactly when the ratio of the two units is fixed by the definitions, and
raises `ValueError` otherwise. -/
theorem C10_rescale_iff_compatible (hw : Reachable h w) (q : Quantity K) (d : Dim)
    (hq : DimOK w q.dim) (hd : DimOK w d) (hs : HashSafe w q.dim d) :
    (Returns (q.rescale w d) ↔ Compatible w q.dim d) ∧
    (q.rescale w d = .error .valueError ↔ ¬ Compatible w q.dim d) :=
  ⟨rescale_returns hw.wf hq hd hs, rescale_eq_error_iff hw.wf hq hd hs⟩

/-- C10, without any assumption on hashing: `rescale` never raises anything but `ValueError`, and
compatible units always convert. -/
theorem C10_compatible_converts (hw : Reachable h w) (q : Quantity K) (d : Dim)
    (hq : DimOK w q.dim) (hd : DimOK w d) :
    (Compatible w q.dim d → Returns (q.rescale w d)) ∧
    (∀ e, q.rescale w d = .error e → e = .valueError) := by
  refine ⟨fun hc => ?_, fun e he => rescale_error he⟩
  have hsame := (compatible_iff hw.wf hq hd).1 hc
  have hdq := deq_same (w := w) (refUnits_spec hw.wf hq).2.1.canon.nodup
    (refUnits_spec hw.wf hd).2.1.canon.nodup hsame
  unfold Quantity.rescale
  split
  · exact returns_ok _
  · rw [convFactor_def, if_pos hdq]; exact returns_ok _

/-- C11: rescaling to the units a quantity already has does nothing (no assumption on hashing or
arithmetic). -/
theorem C11_rescale_same {K : Type _} [One K] [Mul K] [Div K] [RPow K] (w : World K)
    (q : Quantity K) (d : Dim) (hq : Dict.Nodup q.dim) (hd : Dict.Nodup d)
    (h : SameContent q.dim d) : q.rescale w d = .ok q := by
  unfold Quantity.rescale; rw [if_pos (deq_same hq hd h)]

/-- C11: converting to `d₁` and then to `d₂` is converting to `d₂`. -/
theorem C11_rescale_compose (hw : Reachable h w) (q r r₂ : Quantity K) (d₁ d₂ : Dim)
    (hq : DimOK w q.dim) (h₁ : DimOK w d₁) (h₂ : DimOK w d₂) (s₁ : HashSafe w q.dim d₁)
    (s₂ : HashSafe w d₁ d₂) (s₃ : HashSafe w q.dim d₂)
    (e₁ : q.rescale w d₁ = .ok r) (e₂ : r.rescale w d₂ = .ok r₂) :
    ∃ r₃, q.rescale w d₂ = .ok r₃ ∧ r₃.mag = r₂.mag ∧ SameContent r₃.dim r₂.dim := by
  obtain ⟨_, c1, ok1, z1, cf1, p1, m1, f1⟩ := rescale_ok hw.wf hq h₁ s₁ e₁
  have s₂' : HashSafe w r.dim d₂ := s₂.congr hw.wf h₁ ok1 h₂ h₂ c1.symm (SameContent.refl _)
  obtain ⟨_, c2, ok2, z2, cf2, p2, m2, f2⟩ := rescale_ok hw.wf ok1 h₂ s₂' e₂
  have hc : Compatible w q.dim d₂ := ⟨cf1 * cf2, fun v => by rw [f1 v, ← z1 v, f2 v]; ring⟩
  obtain ⟨r₃, e₃⟩ := (rescale_returns hw.wf hq h₂ s₃).2 hc
  obtain ⟨_, c3, ok3, z3, cf3, p3, m3, f3⟩ := rescale_ok hw.wf hq h₂ s₃ e₃
  refine ⟨r₃, e₃, ?_, c3.trans c2.symm⟩
  obtain ⟨v⟩ := exists_valuation hw.wf
  have hcf : cf3 = cf2 * cf1 := by
    have := f3 v
    rw [f1 v, ← z1 v, f2 v] at this
    have hp := (v.size_pos d₂).ne'
    have h4 : cf3 * v.size d₂ = (cf2 * cf1) * v.size d₂ := by rw [← this]; ring
    exact mul_right_cancel₀ hp h4
  rw [m3, m2, m1, NDArr.map_map, hcf]
  exact NDArr.map_congr (fun x => by ring) _

/-- C11: converting to `d` and back gives the original quantity. -/
theorem C11_rescale_roundtrip (hw : Reachable h w) (q r : Quantity K) (d : Dim)
    (hq : DimOK w q.dim) (hd : DimOK w d) (s : HashSafe w q.dim d)
    (e : q.rescale w d = .ok r) :
    ∃ q', r.rescale w q.dim = .ok q' ∧ q'.mag = q.mag ∧ SameContent q'.dim q.dim := by
  obtain ⟨_, c1, ok1, z1, cf1, p1, m1, f1⟩ := rescale_ok hw.wf hq hd s e
  have s' : HashSafe w r.dim q.dim :=
    s.symm.congr hw.wf hd ok1 hq hq c1.symm (SameContent.refl _)
  have hc : Compatible w r.dim q.dim :=
    compatible_symm hw.wf ⟨cf1, fun v => by rw [f1 v, z1 v]⟩
  obtain ⟨q', e'⟩ := (rescale_returns hw.wf ok1 hq s').2 hc
  obtain ⟨_, c2, ok2, z2, cf2, p2, m2, f2⟩ := rescale_ok hw.wf ok1 hq s' e'
  refine ⟨q', e', ?_, c2⟩
  obtain ⟨v⟩ := exists_valuation hw.wf
  have hcf : cf2 * cf1 = 1 := by
    have h3 := f2 v
    rw [f1 v, z1 v] at h3
    have hp := (v.size_pos d).ne'
    have h4 : (cf2 * cf1) * v.size d = 1 * v.size d := by rw [one_mul]; rw [mul_assoc, ← h3]
    exact mul_right_cancel₀ hp h4
  rw [m2, m1, NDArr.map_map]
  exact NDArr.map_id' (fun x => by rw [← mul_assoc, hcf, one_mul]) _

/-- C12: on an array that owns its memory, assigning `units` gives what `rescale` returns; if
`rescale` raises, so does the assignment, and the quantity is unchanged. -/
theorem C12_setUnits_agrees (q : Quantity K) (d : Dim) :
    (∀ r, q.rescale w d = .ok r → q.setUnits w d = (none, r)) ∧
    (∀ e, q.rescale w d = .error e → q.setUnits w d = (some .valueError, q)) := by
  unfold Quantity.rescale Quantity.setUnits
  split
  · refine ⟨fun r hr => ?_, fun e he => absurd he (by simp)⟩
    simp only [Except.ok.injEq] at hr; rw [hr]
  · rcases hc : w.convFactor q.dim d with e | cf
    · have := convFactor_error hc
      subst this
      refine ⟨fun r hr => absurd hr (by simp), fun e he => rfl⟩
    · refine ⟨fun r hr => ?_, fun e he => absurd he (by simp)⟩
      simp only [Except.ok.injEq] at hr
      subst hr
      simp only [Prod.mk.injEq, true_and, Quantity.mk.injEq, and_true]
      exact NDArr.map_congr (fun x => mul_comm _ _) _

/-! ### The hypotheses are satisfiable -/

/-- 3 km (an array of shape `(2,)`: 3 km, 4 km). -/
noncomputable def exQ : Quantity ℝ := ⟨⟨[2], fun i => if i = [0] then 3 else 4⟩, dKm⟩

example : Reachable exH exWorld ∧ DimOK exWorld exQ.dim ∧ DimOK exWorld dM ∧
    HashSafe exWorld exQ.dim dM ∧ ∃ r, exQ.rescale exWorld dM = .ok r :=
  ⟨exWorld_reachable, ex_dimOK _ (by simp [exQ]), ex_dimOK _ (by simp), ex_safe_km_m,
    (C10_rescale_iff_compatible exWorld_reachable _ _ (ex_dimOK _ (by simp [exQ]))
      (ex_dimOK _ (by simp)) ex_safe_km_m).1.2 ex_compat⟩

example : exQ.rescale exWorld dS = .error .valueError :=
  (C10_rescale_iff_compatible exWorld_reachable _ _ (ex_dimOK _ (by simp [exQ]))
      (ex_dimOK _ (by simp)) ex_safe_km_s).2.2 ex_incompat

example : ∃ q', (exQ.rescale exWorld dM).bind (fun r => r.rescale exWorld dKm) = .ok q' ∧
    q'.mag = exQ.mag := by
  obtain ⟨r, hr⟩ := (C10_rescale_iff_compatible exWorld_reachable exQ dM (ex_dimOK _ (by simp [exQ]))
      (ex_dimOK _ (by simp)) ex_safe_km_m).1.2 ex_compat
  obtain ⟨q', h1, h2, _⟩ := C11_rescale_roundtrip exWorld_reachable exQ r dM
    (ex_dimOK _ (by simp [exQ])) (ex_dimOK _ (by simp)) ex_safe_km_m hr
  exact ⟨q', by rw [hr]; exact h1, h2⟩

end PQ
