import Verif.Lemmas.ShippedConstants
import Verif.Props.Standards
import Mathlib.Analysis.Real.Pi.Bounds

/-!
# C144: the physical constants

The specification `Spec/Constants.lean` lists accepted values and the relations of physics.
-/

namespace PQ

open World Dict LawfulRPow Shipped

attribute [local irreducible] table unitTable constTable dims coefs unitLabels keyCodes

variable {K : Type _} [Field K] [LinearOrder K] [IsStrictOrderedRing K] [RPow K] [LawfulRPow K]

/-- C144: every constant of the list has its accepted value, and the constants obey the laws that relate them, within the
tolerances listed; `math.pi` is between the bounds. -/
theorem C144_laws (h : Hasher) {π : K} (hlo : (314159265358979 : K) / 10 ^ 14 < π)
    (hhi : π < (314159265358980 : K) / 10 ^ 14) {s : Law} (hs : s ∈ laws) : s.Holds (loaded saneTable π h) π := by
  obtain ⟨k1, k2, rs, f, ρ, hρ, hv⟩ := law_sound h hlo hhi (List.all_eq_true.1 laws_ok s hs)
  refine ⟨k1, k2, rs.map Row.key, ?_, ρ, hρ, fun v => ?_⟩
  · rw [List.forall₂_map_right_iff]
    exact f.imp fun x r hr => row_bound h π hr.1 hr.2
  · rw [hv v, List.zipWith_map_right]

/-- C144: so rescaling a quantity in units of a constant to its SI unit multiplies by the accepted value, up to the
tolerance. -/
theorem C144_rescale (h : Hasher) {π : K} (hlo : (314159265358979 : K) / 10 ^ 14 < π)
    (hhi : π < (314159265358980 : K) / 10 ^ 14) {s : Law} (hs : s ∈ laws) (hc : s.consts = []) {us : List UKey}
    (hus : List.Forall₂ (fun (x : String × Int) k => get? (loaded saneTable π h).registry x.1 = some k) s.units us)
    {d : Dim} (hd : DimOK (loaded saneTable π h) d)
    (hsize : ∀ v : Valuation (loaded saneTable π h),
      v.size d = (List.zipWith (fun (x : String × Int) k => v.size (unitDim k) ^ x.2) s.units us).prod)
    (hsafe : HashSafe (loaded saneTable π h) (unitDim ⟨.constant, s.name⟩) d) (m : NDArr K) :
    ∃ (r : Quantity K) (ρ : K), |ρ - 1| ≤ 1 / 10 ^ s.tol ∧
      (⟨m, unitDim ⟨.constant, s.name⟩⟩ : Quantity K).rescale (loaded saneTable π h) d = .ok r ∧ SameContent r.dim d ∧
      r.mag = m.map (fun x => ρ * ((s.p : K) / s.q * π ^ s.pi) * x) := by
  have hπ : (0 : K) < π := lt_trans (by positivity) hlo
  obtain ⟨k1, -, us', f, ρ, hρ, hv⟩ := C144_laws h hlo hhi hs
  have e : us' = us := by
    have g : ∀ (l : List (String × Int)) (a b : List UKey),
        List.Forall₂ (fun (x : String × Int) k => get? (loaded saneTable π h).registry x.1 = some k) l a →
        List.Forall₂ (fun (x : String × Int) k => get? (loaded saneTable π h).registry x.1 = some k) l b → a = b := by
      intro l a b h1
      induction h1 generalizing b with
      | nil => intro h2; cases h2; rfl
      | cons x _ ih =>
        intro h2
        cases h2 with
        | cons x' y' => rw [Option.some.inj (x.symm.trans x'), ih _ y']
    exact g _ _ _ f hus
  subst e
  obtain ⟨r, r1, r2, r3⟩ := rescale_by (sane_reachable h hπ).wf (unitDim_ok k1) hd hsafe
    (c := ρ * ((s.p : K) / s.q * π ^ s.pi)) (fun v => by
      rw [hv v, hsize v, hc, List.map_nil, List.prod_nil, one_mul]; ring) m
  exact ⟨r, ρ, hρ, r1, r2, r3⟩

theorem pi_lo : (314159265358979 : ℝ) / 10 ^ 14 < Real.pi := by
  have := Real.pi_gt_d20; norm_num at this ⊢; linarith

theorem pi_hi : Real.pi < (314159265358980 : ℝ) / 10 ^ 14 := by
  have := Real.pi_lt_d20; norm_num at this ⊢; linarith

/-- C144: the list leaves out no constant with a positive value but the golden ratio. -/
theorem C144_covered {r : Row} (hr : r ∈ constTable) (hp : r.positive = true) (hg : r.name ≠ "golden_ratio") :
    ∃ s ∈ laws, s.name = r.name := by
  have h := List.all_eq_true.1 covered r hr
  simp only [Bool.or_eq_true, Bool.not_eq_true', beq_iff_eq, List.any_eq_true] at h
  rcases h with (h | h) | h
  · rw [hp] at h; cases h
  · exact absurd h hg
  · exact h

/-- The elementary charge is within a millionth of its value of 2018, `1.602176634e-19 C`. -/
example : ∃ (u : UKey) (ρ : ℝ), get? (loaded saneTable Real.pi libH).registry "coulomb" = some u ∧ |ρ - 1| ≤ 1 / 10 ^ 6 ∧
    ∀ v : Valuation (loaded saneTable Real.pi libH), v.size (unitDim ⟨.constant, "elementary_charge"⟩) =
      ρ * (801088317 / 5 / 10 ^ 27) * v.size (unitDim u) := by
  have hs : laws[2]? = some ⟨"elementary_charge", 801088317, 5 * 10 ^ 27, 0, [], [("coulomb", 1)], 6⟩ := by rfl
  obtain ⟨-, -, us, f, ρ, hρ, hv⟩ := C144_laws libH pi_lo pi_hi (List.mem_of_getElem? hs)
  obtain ⟨u, us, hu, f, rfl⟩ := List.forall₂_cons_left_iff.1 f
  cases f
  refine ⟨u, ρ, hu, hρ, fun v => ?_⟩
  rw [hv v]
  simp
  ring

end PQ
