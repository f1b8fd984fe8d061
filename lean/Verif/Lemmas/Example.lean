import Verif.Lemmas.Reach
import Verif.Lemmas.PyHash

/-! # A concrete reachable world used to show that hypotheses are satisfiable -/

namespace PQ

open Dict World

/-- A hash function that separates the units and exponents used in the examples. -/
def exH : Hasher where
  base := 7
  key u := u.name.length
  pair a b := BitVec.ofInt 64 (a * 1000 + b)

/-- Metre. -/
def uM : UKey := ⟨.length, "meter"⟩
/-- Kilometre. -/
def uKm : UKey := ⟨.length, "kilometer"⟩
/-- Second. -/
def uS : UKey := ⟨.time, "second"⟩
/-- Hertz. -/
def uHz : UKey := ⟨.unitQuantity, "hertz"⟩

/-- `dimensionless = Dimensionless('dimensionless')` and four units. -/
noncomputable def exOps : List (Op ℝ) :=
  [.newUnit { cls := .dimensionless, name := "dimensionless", definition := .none },
   .newUnit { cls := .length, name := "meter", definition := .none, symbol := some "m" },
   .newUnit { cls := .length, name := "kilometer", definition := .quantity ⟨1000, [(uM, 1)]⟩,
              symbol := some "km" },
   .newUnit { cls := .time, name := "second", definition := .none, symbol := some "s" },
   .newUnit { cls := .unitQuantity, name := "hertz", definition := .quantity ⟨1, [(uS, -1)]⟩,
              symbol := some "Hz" }]

/-- The world after the first `n` operations of the example. -/
noncomputable def exWorldN (n : Nat) : World ℝ :=
  (exOps.take n).foldl (fun w op => (op.run w).2) (World.init exH)

/-- The example world. -/
noncomputable def exWorld : World ℝ := exWorldN 5

example : (exWorldN 5).units.map Prod.fst = [⟨.dimensionless, "dimensionless"⟩, uM, uKm, uS, uHz] := by
  rfl

theorem exKeys1 : (exWorldN 1).units.map Prod.fst = [⟨.dimensionless, "dimensionless"⟩] := by rfl
theorem exKeys2 : (exWorldN 2).units.map Prod.fst = [⟨.dimensionless, "dimensionless"⟩, uM] := by rfl
theorem exKeys4 : (exWorldN 4).units.map Prod.fst =
  [⟨.dimensionless, "dimensionless"⟩, uM, uKm, uS] := by rfl
theorem exKeys : exWorld.units.map Prod.fst =
  [⟨.dimensionless, "dimensionless"⟩, uM, uKm, uS, uHz] := by rfl

theorem exReach0 : Reachable exH (exWorldN 0) := Reachable.init
theorem exValid0 : (exOps[0]'(by decide)).Valid (exWorldN 0) := ⟨by simp [DefArg.toDef], by simp [DefArg.toDef]⟩
theorem exReach1 : Reachable exH (exWorldN 1) := Reachable.step _ exReach0 exValid0
theorem exValid1 : (exOps[1]'(by decide)).Valid (exWorldN 1) := ⟨by simp [DefArg.toDef], by simp⟩
theorem exReach2 : Reachable exH (exWorldN 2) := Reachable.step _ exReach1 exValid1
theorem exValid2 : (exOps[2]'(by decide)).Valid (exWorldN 2) := by
  refine ⟨?_, by simp⟩
  simp only [DefArg.toDef, Option.some.injEq, forall_eq']
  exact ⟨by norm_num, ⟨⟨by decide, by simp⟩, (by
    intro kv hk
    have : kv.1 ∈ (exWorldN 2).units.map Prod.fst := by
      rw [exKeys2]; simp only [List.mem_singleton] at hk; simp [hk]
    exact this), by simp [uM]⟩⟩
theorem exReach3 : Reachable exH (exWorldN 3) := Reachable.step _ exReach2 exValid2
theorem exValid3 : (exOps[3]'(by decide)).Valid (exWorldN 3) := ⟨by simp [DefArg.toDef], by simp⟩
theorem exReach4 : Reachable exH (exWorldN 4) := Reachable.step _ exReach3 exValid3
theorem exValid4 : (exOps[4]'(by decide)).Valid (exWorldN 4) := by
  refine ⟨?_, by simp⟩
  simp only [DefArg.toDef, Option.some.injEq, forall_eq']
  exact ⟨by norm_num, ⟨⟨by decide, by simp⟩, (by
      intro kv hk
      have : kv.1 ∈ (exWorldN 4).units.map Prod.fst := by
        rw [exKeys4]; simp only [List.mem_singleton] at hk; simp [hk]
      exact this), by simp [uS]⟩⟩
theorem exWorld_reachable : Reachable exH exWorld := Reachable.step _ exReach4 exValid4

theorem exWorld_wf : WF exWorld := exWorld_reachable.wf

/-- `km` -/
def dKm : Dim := [(uKm, 1)]
/-- `m` -/
def dM : Dim := [(uM, 1)]
/-- `s` -/
def dS : Dim := [(uS, 1)]
/-- `Hz` -/
def dHz : Dim := [(uHz, 1)]

theorem ex_dimOK (d : Dim) (h : d = dKm ∨ d = dM ∨ d = dS ∨ d = dHz) : DimOK exWorld d := by
  rcases h with rfl | rfl | rfl | rfl <;>
  exact ⟨⟨by decide, by simp [dKm, dM, dS, dHz]⟩,
    by rw [exKeys]; simp [dKm, dM, dS, dHz], by simp [dKm, dM, dS, dHz, uKm, uM, uS, uHz]⟩

theorem exConv_m : exWorld.convRef uM = none := rfl
theorem exConv_s : exWorld.convRef uS = none := rfl

theorem exRef_km : (exWorld.refUnits dKm).dim = [(uM, 1)] := by decide +kernel
theorem exRef_m : (exWorld.refUnits dM).dim = [(uM, 1)] := by decide +kernel
theorem exRef_s : (exWorld.refUnits dS).dim = [(uS, 1)] := by decide +kernel
theorem exRef_hz : (exWorld.refUnits dHz).dim = [(uS, -1)] := by decide +kernel

theorem exHash1 (u : UKey) (ord : UKey → Nat × Nat) : Dim.hash exH ord [(u, 1)] =
    (let r := 7#64 ^^^ BitVec.ofInt 64 ((u.name.length : Int) * 1000 + 1)
     if r = -1#64 then -2#64 else r) := by
  have e : pyHashNum (hashedExponent 1) = 1 := by
    have h1 : hashedExponent 1 = ((1 : ℕ) : ℚ) := by
      unfold hashedExponent; rw [if_neg (by norm_num)]; norm_num
    rw [h1, pyHashNum_nat]; decide
  simp only [Dim.hash, rawHash_eq, List.foldl_cons, List.foldl_nil, Hasher.item, e]
  rfl

theorem ex_deq_km_m : exWorld.deq dKm dM = false := by
  simp only [World.deq, Dim.eq, dKm, dM]
  rw [show exWorld.hasher = exH from rfl, exHash1, exHash1]
  decide

theorem ex_deq_km_s : exWorld.deq dKm dS = false := by
  simp only [World.deq, Dim.eq, dKm, dS]
  rw [show exWorld.hasher = exH from rfl, exHash1, exHash1]
  decide

theorem ex_deq_m_s : exWorld.deq dM dS = false := by
  simp only [World.deq, Dim.eq, dM, dS]
  rw [show exWorld.hasher = exH from rfl, exHash1, exHash1]
  decide

theorem ex_safe_km_m : HashSafe exWorld dKm dM :=
  ⟨fun h => by rw [ex_deq_km_m] at h; exact absurd h (by simp),
   fun _ => by rw [exRef_km, exRef_m]; exact SameContent.refl _⟩

theorem ex_deq_m_km : exWorld.deq dM dKm = false := by
  have := ex_deq_km_m
  simp only [World.deq, Dim.eq] at this ⊢
  rw [Bool.beq_comm]; exact this

theorem ex_safe_m_km : HashSafe exWorld dM dKm :=
  ⟨fun h => by rw [ex_deq_m_km] at h; exact absurd h (by simp),
   fun _ => by rw [exRef_km, exRef_m]; exact SameContent.refl _⟩

theorem ex_safe_km_s : HashSafe exWorld dKm dS :=
  ⟨fun h => by rw [ex_deq_km_s] at h; exact absurd h (by simp),
   fun h => by rw [exRef_km, exRef_s] at h; exact absurd h (by
      rw [show ([(uM, 1)] : Dim) = dM from rfl, show ([(uS, 1)] : Dim) = dS from rfl, ex_deq_m_s]
      simp)⟩

theorem ex_compat : Compatible exWorld dKm dM :=
  (compatible_iff exWorld_wf (ex_dimOK _ (by simp)) (ex_dimOK _ (by simp))).2
    (by rw [exRef_km, exRef_m]; exact SameContent.refl _)

theorem ex_incompat : ¬ Compatible exWorld dKm dS := by
  rw [compatible_iff exWorld_wf (ex_dimOK _ (by simp)) (ex_dimOK _ (by simp)), exRef_km, exRef_s]
  intro h
  have := h uM
  simp [Dict.get?_cons, uM, uS] at this

end PQ
