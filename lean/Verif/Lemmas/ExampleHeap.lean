import Verif.Lemmas.Heap5
import Verif.Lemmas.Quantity
import Verif.Lemmas.Example

/-! # Concrete programs with views -/

namespace PQ

open NDArr Heap

/-- The subscript `[1:]` of a one-dimensional array. -/
def kTail : Key := fun s =>
  match s with
  | [n + 1] => .ok ([n], fun i => i.map (· + 1))
  | _ => .error .indexError

theorem kTail_basic : kTail.Basic := by
  have key : ∀ s s' f, kTail s = .ok (s', f) → ∃ n, s = [n + 1] ∧ s' = [n] ∧ f = fun i => i.map (· + 1) := by
    intro s s' f h
    unfold kTail at h
    split at h
    · cases h; exact ⟨_, rfl, rfl, rfl⟩
    · cases h
  constructor
  · intro s s' f h i hi
    obtain ⟨n, rfl, rfl, rfl⟩ := key s s' f h
    cases hi with
    | cons h1 h2 =>
      cases h2
      exact .cons (by simpa using h1) .nil
  · intro s s' f h i j hi hj e
    obtain ⟨n, rfl, rfl, rfl⟩ := key s s' f h
    cases hi with
    | cons h1 h2 =>
      cases h2
      cases hj with
      | cons h3 h4 =>
        cases h4
        simpa using e

/-- The subscript `[...]`. -/
def kAll : Key := fun s => .ok (s, id)

theorem kAll_basic : kAll.Basic :=
  ⟨fun s s' f h i hi => by cases h; exact hi, fun s s' f h i j _ _ e => by cases h; exact e⟩

theorem kTail_sound : kTail.Sound := kTail_basic.sound

/-- `[1.0, 2.0, 3.0]` -/
noncomputable def exArr : NDArr ℝ := ⟨[3], fun i => (i.headD 0 : ℝ) + 1⟩

/-- `q = [1, 2, 3] * km` (object 1; object 0 is the array that owns the memory). -/
noncomputable def exHeap1 : Heap ℝ := (Heap.empty.run false exWorld (.newQuantity exArr dKm)).2

/-- `v = q[1:]` (object 2). -/
noncomputable def exHeap2 : Heap ℝ := (exHeap1.run false exWorld (.view 1 kTail)).2

theorem exHeap1_reached : Reached false exWorld exHeap1 := .step _ .empty trivial

theorem exHeap2_reached : Reached false exWorld exHeap2 := .step _ exHeap1_reached kTail_basic

theorem ex_safe_s_km : HashSafe exWorld dS dKm := by
  have sym : ∀ a b, exWorld.deq a b = exWorld.deq b a := by
    intro a b
    simp only [World.deq, Dim.eq]
    rw [Bool.beq_comm]
  refine ⟨fun h => ?_, fun h => ?_⟩
  · rw [sym, ex_deq_km_s] at h; cases h
  · rw [sym] at h
    exact fun u => (ex_safe_km_s.refs h u).symm

theorem ex_convFactor_m_km : exWorld.convFactor dM dKm = .ok (1 / 1000) := by
  have hret : Returns (exWorld.convFactor dM dKm) :=
    (convFactor_returns exWorld_wf (ex_dimOK dM (by simp)) (ex_dimOK dKm (by simp)) ex_safe_m_km.refs).2
      ((compatible_iff exWorld_wf (ex_dimOK _ (by simp)) (ex_dimOK _ (by simp))).2
        (by rw [exRef_km, exRef_m]; exact SameContent.refl _))
  obtain ⟨cf, h⟩ := hret
  obtain ⟨v⟩ := exists_valuation exWorld_wf
  obtain ⟨_, hv⟩ := convFactor_ok exWorld_wf (ex_dimOK dM (by simp)) (ex_dimOK dKm (by simp))
    ex_safe_m_km.refs h
  have hkm : v.size dKm = 1000 * v.size dM := by
    have := v.defined uKm (exWorld.info uKm |>.get (by rfl)) ⟨1000, dM⟩ (by rfl) (by rfl)
    simp only [Valuation.size, dKm, dM, dsize_cons, dsize_nil, mul_one, LawfulRPow.rpow_one] at this ⊢
    exact this
  have h2 := hv v
  rw [hkm] at h2
  have hm := (v.size_pos dM).ne'
  have h3 : (1 : ℝ) * v.size dM = (cf * 1000) * v.size dM := by linarith
  have h4 : (1 : ℝ) = cf * 1000 := mul_right_cancel₀ hm h3
  have : cf = 1 / 1000 := by linarith
  rw [h, this]

end PQ
