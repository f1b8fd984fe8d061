import Verif.Lemmas.Example

/-! # The example world with the units of angle (`units/angle.py` 8-13, 33-42) -/

namespace PQ

open Dict World

/-- Radian. -/
def uRad : UKey := ⟨.unitQuantity, "radian"⟩
/-- Degree; `degree` is an alias of `arcdegree`. -/
def uDeg : UKey := ⟨.unitQuantity, "arcdegree"⟩

/-- `radian = UnitQuantity('radian', 1*dimensionless, symbol='rad', ...)`. -/
noncomputable def opRad : Op ℝ :=
  .newUnit { cls := .unitQuantity, name := "radian", definition := .quantity ⟨1, []⟩,
             symbol := some "rad", aliases := ["radians"] }

/-- `degree = UnitQuantity('arcdegree', pi/180*radian, symbol='deg', aliases=['degree', ...])`. -/
noncomputable def opDeg : Op ℝ :=
  .newUnit { cls := .unitQuantity, name := "arcdegree",
             definition := .quantity ⟨Real.pi / 180, [(uRad, 1)]⟩, symbol := some "deg",
             aliases := ["degree", "degrees"] }

/-- `exWorld` and the radian. -/
noncomputable def exRad : World ℝ := (opRad.run exWorld).2
/-- `exWorld`, the radian and the degree. -/
noncomputable def exAngle : World ℝ := (opDeg.run exRad).2

theorem exRadKeys : exRad.units.map Prod.fst =
  [⟨.dimensionless, "dimensionless"⟩, uM, uKm, uS, uHz, uRad] := by rfl

theorem exAngleKeys : exAngle.units.map Prod.fst =
  [⟨.dimensionless, "dimensionless"⟩, uM, uKm, uS, uHz, uRad, uDeg] := by rfl

theorem exRad_reachable : Reachable exH exRad := by
  refine Reachable.step opRad exWorld_reachable ⟨?_, by simp⟩
  simp only [DefArg.toDef, Option.some.injEq, forall_eq']
  exact ⟨by norm_num, DimOK.nil _⟩

theorem exAngle_reachable : Reachable exH exAngle := by
  refine Reachable.step opDeg exRad_reachable ⟨?_, by simp⟩
  simp only [DefArg.toDef, Option.some.injEq, forall_eq']
  refine ⟨by have := Real.pi_pos; positivity, ⟨⟨by decide, by simp⟩, ?_, by simp [uRad]⟩⟩
  intro kv hk
  have : kv.1 ∈ exRad.units.map Prod.fst := by
    rw [exRadKeys]; simp only [List.mem_singleton] at hk; simp [hk]
  exact this

theorem exAngle_wf : WF exAngle := exAngle_reachable.wf

/-- `rad` -/
def dRad : Dim := [(uRad, 1)]
/-- `deg` -/
def dDeg : Dim := [(uDeg, 1)]

theorem exAngle_dimOK (d : Dim) (h : d = dRad ∨ d = dDeg ∨ d = dM ∨ d = dKm) : DimOK exAngle d := by
  rcases h with rfl | rfl | rfl | rfl <;>
  exact ⟨⟨by decide, by simp [dRad, dDeg, dM, dKm]⟩,
    by rw [exAngleKeys]; simp [dRad, dDeg, dM, dKm], by simp [dRad, dDeg, dM, dKm, uRad, uDeg, uM, uKm]⟩

theorem exAngle_labels : exAngle.labelDim "radian" = .ok dRad ∧ exAngle.labelDim "degree" = .ok dDeg := by
  constructor <;> rfl

theorem exAngle_info_rad : ∃ i, exAngle.info uRad = some i ∧ i.definition = some ⟨1, []⟩ := ⟨_, rfl, rfl⟩

theorem exAngle_info_deg : ∃ i, exAngle.info uDeg = some i ∧
    i.definition = some ⟨Real.pi / 180, [(uRad, 1)]⟩ := ⟨_, rfl, rfl⟩

theorem exAngleRef_rad : (exAngle.refUnits dRad).dim = [] := by decide +kernel
theorem exAngleRef_deg : (exAngle.refUnits dDeg).dim = [] := by decide +kernel
theorem exAngleRef_m : (exAngle.refUnits dM).dim = [(uM, 1)] := by decide +kernel
theorem exAngleRef_km : (exAngle.refUnits dKm).dim = [(uM, 1)] := by decide +kernel
theorem exAngleRef_nil : (exAngle.refUnits []).dim = [] := rfl

theorem exAngle_deq_deg_rad : exAngle.deq dDeg dRad = false := by
  simp only [World.deq, Dim.eq, dDeg, dRad]
  rw [show exAngle.hasher = exH from rfl, exHash1, exHash1]
  decide

theorem exAngle_deq_nil (u : UKey) (hu : u = uRad ∨ u = uDeg ∨ u = uM) :
    exAngle.deq [(u, 1)] [] = false := by
  simp only [World.deq, Dim.eq]
  rw [show exAngle.hasher = exH from rfl, exHash1]
  have e : Dim.hash exH exAngle.order [] = 7#64 := by
    unfold Dim.hash
    rw [rawHash_eq]
    rfl
  rw [e]
  rcases hu with rfl | rfl | rfl <;> decide

theorem exAngle_safe_deg_rad : HashSafe exAngle dDeg dRad :=
  ⟨fun h => by rw [exAngle_deq_deg_rad] at h; exact absurd h (by simp),
   fun _ => by rw [exAngleRef_deg, exAngleRef_rad]; exact SameContent.refl _⟩

theorem exAngle_safe_deg_nil : HashSafe exAngle dDeg [] :=
  ⟨fun h => by
    rw [show dDeg = [(uDeg, 1)] from rfl, exAngle_deq_nil uDeg (by simp)] at h
    exact absurd h (by simp),
   fun _ => by rw [exAngleRef_deg, exAngleRef_nil]; exact SameContent.refl _⟩

theorem exAngle_compat : Compatible exAngle dDeg dRad :=
  (compatible_iff exAngle_wf (exAngle_dimOK _ (by simp)) (exAngle_dimOK _ (by simp))).2
    (by rw [exAngleRef_deg, exAngleRef_rad]; exact SameContent.refl _)

theorem exAngle_compat_nil : Compatible exAngle dDeg [] :=
  (compatible_iff exAngle_wf (exAngle_dimOK _ (by simp)) (DimOK.nil _)).2
    (by rw [exAngleRef_deg, exAngleRef_nil]; exact SameContent.refl _)

theorem exAngle_incompat : ¬ Compatible exAngle dM dRad := by
  rw [compatible_iff exAngle_wf (exAngle_dimOK _ (by simp)) (exAngle_dimOK _ (by simp)),
    exAngleRef_m, exAngleRef_rad]
  intro h
  have := h uM
  simp [Dict.get?_cons] at this

end PQ
