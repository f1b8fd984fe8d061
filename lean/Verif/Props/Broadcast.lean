import Verif.Lemmas.Broadcast
import Verif.Props.Arithmetic
import Verif.Props.Compare

/-!
# C128: operations on arrays of different shapes, element by element

C13-C17 are stated with the elementwise operation of the model of numpy; here the elements are named.
-/

namespace PQ

open Dict LawfulRPow World NDArr

variable {K : Type _} [Field K] [LinearOrder K] [IsStrictOrderedRing K] [RPow K] [LawfulRPow K]
variable {h : Hasher} {w : World K}

/-- `a + b` and `a - b` return exactly when the units are compatible and the shapes can be broadcast, and
then every element has the physical value of the sum (difference) of the two elements it lies over. -/
theorem C128_add_sub (hw : Reachable h w) (a b : Quantity K)
    (ha : DimOK w a.dim) (hb : DimOK w b.dim) (hs : HashSafe w b.dim a.dim) :
    (Returns (a.add w (.quantity b)) ↔ Compatible w b.dim a.dim ∧ Broadcastable a.mag.shape b.mag.shape) ∧
    (Returns (a.sub w (.quantity b)) ↔ Compatible w b.dim a.dim ∧ Broadcastable a.mag.shape b.mag.shape) ∧
    (∀ r, a.add w (.quantity b) = .ok r → ∀ v : Valuation w,
      BroadcastOf (fun x y => x + y) (v.phys a) (v.phys b) (v.phys r)) ∧
    (∀ r, a.sub w (.quantity b) = .ok r → ∀ v : Valuation w,
      BroadcastOf (fun x y => x - y) (v.phys a) (v.phys b) (v.phys r)) := by
  have h1 := C13_add hw a (.quantity b) ha hb hs
  have h2 := C13_sub hw a (.quantity b) ha hb hs
  refine ⟨?_, ?_, ?_, ?_⟩
  · rw [h1.1, ← bshape_isSome_iff]; rfl
  · rw [h2.1, ← bshape_isSome_iff]; rfl
  · intro r hr v; exact bin_broadcast ((h1.2.2 r hr).2 v)
  · intro r hr v; exact bin_broadcast ((h2.2.2 r hr).2 v)

/-- `a * b` and `a / b` return exactly when the shapes can be broadcast, and then every element has the
physical value of the product (quotient) of the two elements it lies over. -/
theorem C128_mul_div (a b : Quantity K) (ha : DimOK w a.dim) (hb : DimOK w b.dim) :
    (Returns (a.mul w (.quantity b)) ↔ Broadcastable a.mag.shape b.mag.shape) ∧
    (Returns (a.truediv w (.quantity b)) ↔ Broadcastable a.mag.shape b.mag.shape) ∧
    (∀ r, a.mul w (.quantity b) = .ok r → ∀ v : Valuation w,
      BroadcastOf (fun x y => x * y) (v.phys a) (v.phys b) (v.phys r)) ∧
    (∀ r, a.truediv w (.quantity b) = .ok r → ∀ v : Valuation w,
      BroadcastOf (fun x y => x / y) (v.phys a) (v.phys b) (v.phys r)) := by
  have h1 := C14_mul a (.quantity b) ha hb
  have h2 := C14_truediv a (.quantity b) ha hb
  refine ⟨?_, ?_, ?_, ?_⟩
  · rw [h1.1, ← bshape_isSome_iff]; rfl
  · rw [h2.1, ← bshape_isSome_iff]; rfl
  · intro r hr v; exact bin_broadcast ((h1.2 r hr).2.2 v)
  · intro r hr v; exact bin_broadcast ((h2.2 r hr).2.2 v)

/-- Comparisons of quantities of compatible units: they return exactly when the shapes can be broadcast,
and every truth value is that of the comparison of the physical values it lies over. -/
theorem C128_compare (hw : Reachable h w) (a b : Quantity K)
    (ha : DimOK w a.dim) (hb : DimOK w b.dim) (hs : HashSafe w b.dim a.dim) (hc : Compatible w b.dim a.dim)
    (v : Valuation w) :
    (∀ m, a.lt w (.quantity b) = .ok m → BroadcastOf (fun x y => decide (x < y)) (v.phys a) (v.phys b) m) ∧
    (∀ m, a.le w (.quantity b) = .ok m → BroadcastOf (fun x y => decide (x ≤ y)) (v.phys a) (v.phys b) m) ∧
    (∀ m, a.gt w (.quantity b) = .ok m → BroadcastOf (fun x y => decide (x > y)) (v.phys a) (v.phys b) m) ∧
    (∀ m, a.ge w (.quantity b) = .ok m → BroadcastOf (fun x y => decide (x ≥ y)) (v.phys a) (v.phys b) m) ∧
    (∀ m, a.eq w (.quantity b) = .ok m → BroadcastOf (fun x y => decide (x = y)) (v.phys a) (v.phys b) m) ∧
    (∀ m, a.ne w (.quantity b) = .ok m → BroadcastOf (fun x y => decide (x ≠ y)) (v.phys a) (v.phys b) m) ∧
    (Returns (a.lt w (.quantity b)) ↔ Broadcastable a.mag.shape b.mag.shape) ∧
    (Returns (a.eq w (.quantity b)) ↔ Broadcastable a.mag.shape b.mag.shape) := by
  have he := C17_eq_compatible hw a b ha hb hs hc v
  refine ⟨fun m hm => bin_broadcast ((C17_lt hw a b ha hb hs).2.2 m hm v),
    fun m hm => bin_broadcast ((C17_le hw a b ha hb hs).2.2 m hm v),
    fun m hm => bin_broadcast ((C17_gt hw a b ha hb hs).2.2 m hm v),
    fun m hm => bin_broadcast ((C17_ge hw a b ha hb hs).2.2 m hm v),
    fun m hm => bin_broadcast (he.1.symm.trans hm),
    fun m hm => bin_broadcast (he.2.symm.trans hm), ?_, ?_⟩
  · rw [(C17_lt hw a b ha hb hs).1, ← bshape_isSome_iff]
    exact ⟨fun x => x.2, fun x => ⟨hc, x⟩⟩
  · rw [he.1, ← bshape_isSome_iff]
    show Returns (NDArr.bin _ (v.phys a) (v.phys b)) ↔ (bshape (v.phys a).shape (v.phys b).shape).isSome
    unfold NDArr.bin
    rcases bshape (v.phys a).shape (v.phys b).shape with _ | s
    · exact ⟨fun x => absurd x (not_returns_error _), fun x => by cases x⟩
    · exact ⟨fun _ => rfl, fun _ => ⟨_, rfl⟩⟩

/-- The rule leaves no choice: each place of the result lies over one place of each operand, and two
results that follow it are the same array. -/
theorem C128_determined {α β γ : Type _} (f : α → β → γ) (x : NDArr α) (y : NDArr β) :
    (∀ s i j j' : List Nat, Under s i j → Under s i j' → j = j') ∧
    (∀ r r', BroadcastOf f x y r → BroadcastOf f x y r' → Same r r') ∧
    (Broadcastable x.shape y.shape → ∃ r, BroadcastOf f x y r) := by
  refine ⟨fun s i j j' h h' => h.unique h', fun r r' h h' => h.unique h', ?_⟩
  intro hb
  obtain ⟨s, hs⟩ := Option.isSome_iff_exists.mp ((bshape_isSome_iff _ _).mpr hb)
  exact ⟨_, bin_broadcast (f := f) (x := x) (y := y) (by unfold NDArr.bin; rw [hs])⟩

/-- A column of shape (2, 1) and a row of shape (3,) meet in a table of shape (2, 3), whose place (1, 2)
lies over the places (1, 0) and (2). -/
example : Broadcastable [2, 1] [3] ∧ BroadcastShape [2, 1] [3] [2, 3] ∧ Under [2, 1] [1, 2] [1, 0] ∧
    Under [3] [1, 2] [2] := by
  refine ⟨?_, (bshape_iff _ _ _).mp (by decide) |>.2, ?_, ?_⟩
  · exact (bshape_isSome_iff _ _).mp (by decide)
  · exact under_bidx (t := [3]) (r := [2, 3]) (by decide) (by unfold InB; simp)
  · exact under_bidx (t := [2, 1]) (r := [2, 3]) (by decide) (by unfold InB; simp)

example : Returns (exQ1.add exWorld (.quantity exQ2)) ∧ Broadcastable exQ1.mag.shape exQ2.mag.shape :=
  ⟨exAddReturns, (C128_add_sub exWorld_reachable exQ1 exQ2 (ex_dimOK _ (by simp [exQ1]))
    (ex_dimOK _ (by simp [exQ2])) ex_safe_m_km).1.mp exAddReturns |>.2⟩

end PQ
