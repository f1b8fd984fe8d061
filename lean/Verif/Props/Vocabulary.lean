import Verif.Props.Broadcast
import Verif.Props.Along
import Verif.Props.Assign

/-!
# C128, C129: the words the other statements use for numpy's array operations

Several statements say which numpy operation on the physical values the result agrees with: element-by-element
operations after broadcasting (`NDArr.bin`), broadcast shapes (`NDArr.bshape`), reductions (`NDArr.reduce`,
`NDArr.reduceNE`, `NDArr.axisMask`) and assignment (`Heap.castTo`).  These are definitions of the model; the
theorems here say what they mean in the words of the specifications `Spec/Broadcast.lean` and `Spec/Along.lean`.
-/

namespace PQ

open NDArr

/-- C128: an operation element by element succeeds exactly when the shapes can be broadcast together, its result is
the broadcast operation, and otherwise it is a `ValueError`. -/
theorem C128_elementwise {α β γ : Type _} (f : α → β → γ) (x : NDArr α) (y : NDArr β) :
    (Returns (NDArr.bin f x y) ↔ Broadcastable x.shape y.shape) ∧
    ((NDArr.bshape x.shape y.shape).isSome ↔ Broadcastable x.shape y.shape) ∧
    (∀ s, NDArr.bshape x.shape y.shape = some s ↔
      Broadcastable x.shape y.shape ∧ BroadcastShape x.shape y.shape s) ∧
    (∀ r, NDArr.bin f x y = .ok r → BroadcastOf f x y r) ∧
    (∀ e, NDArr.bin f x y = .error e → e = .valueError) := by
  refine ⟨?_, bshape_isSome_iff _ _, fun s => bshape_iff _ _ _, fun r hr => bin_broadcast hr, ?_⟩
  · rw [← bshape_isSome_iff]
    unfold NDArr.bin
    rcases NDArr.bshape x.shape y.shape with _ | s
    · exact ⟨fun h => absurd h (not_returns_error _), fun h => by cases h⟩
    · exact ⟨fun _ => rfl, fun _ => ⟨_, rfl⟩⟩
  · intro e he
    unfold NDArr.bin at he
    rcases hs : NDArr.bshape x.shape y.shape with _ | s
    · rw [hs] at he; cases he; rfl
    · rw [hs] at he; cases he

/-- C129: a reduction succeeds exactly when the axis argument names distinct axes (and, for the reductions that need
an element, something is left to combine everywhere), its elements are the function of the elements with the same
other coordinates, and otherwise it is a `ValueError`. -/
theorem C129_reduction {α β : Type _} (f : List α → β) (ax : Axis) (a : NDArr α) :
    ((∃ m, NDArr.axisMask a.shape.length ax = .ok m) ↔ ∃ S, NamesAxes a.shape.length ax S) ∧
    (∀ e, NDArr.axisMask a.shape.length ax = .error e → e = .valueError) ∧
    (Returns (NDArr.reduce f ax a) ↔ ∃ S, NamesAxes a.shape.length ax S) ∧
    (∀ r, NDArr.reduce f ax a = .ok r →
      ∃ S, NamesAxes a.shape.length ax S ∧ Along (fun l x => x = f l) S a r) ∧
    (∀ e, NDArr.reduce f ax a = .error e → e = .valueError) ∧
    (Returns (NDArr.reduceNE f ax a) ↔ ∃ S, NamesAxes a.shape.length ax S ∧
      ∀ i, InB (without S a.shape) i → over a S i ≠ []) ∧
    (∀ r, NDArr.reduceNE f ax a = .ok r →
      ∃ S, NamesAxes a.shape.length ax S ∧ Along (fun l x => l ≠ [] ∧ x = f l) S a r) ∧
    (∀ e, NDArr.reduceNE f ax a = .error e → e = .valueError) := by
  refine ⟨⟨?_, ?_⟩, fun e he => axisMask_error he, reduce_returns f ax a, fun r hr => reduce_along hr, ?_,
    reduceNE_along.2.1, reduceNE_along.1, reduceNE_along.2.2⟩
  · rintro ⟨m, hm⟩
    obtain ⟨S, hS, -⟩ := axisMask_ok.mp hm
    exact ⟨S, hS⟩
  · rintro ⟨S, hS⟩
    exact ⟨_, axisMask_ok.mpr ⟨S, hS, rfl⟩⟩
  · intro e he
    unfold NDArr.reduce at he
    rcases hm : NDArr.axisMask a.shape.length ax with e' | m
    · rw [hm] at he; cases he; exact axisMask_error hm
    · rw [hm] at he; cases he

/-- C31: `dest[...] = x` fits exactly when every axis of `x`, counted from the innermost one, has length 1 or that of
the destination; the destination then holds the repeated elements; otherwise it is a `ValueError`. -/
theorem C31_assignment {α : Type _} (s : List Nat) (x : NDArr α) :
    (Returns (Heap.castTo s x) ↔ Assignable x.shape s) ∧
    (∀ e, Heap.castTo s x = .error e → e = .valueError) ∧
    (∀ a, Heap.castTo s x = .ok a → AssignedTo s x a) :=
  Heap.castTo_spec s x

/-- C31, C53, C83: the operand named by an object is what that object shows now, in its units; a literal is itself. -/
theorem C31_operands {K : Type _} (h : Heap K) :
    (∀ x : Operand K, h.src (.lit x) = some x) ∧
    (∀ j : Nat, h.src (.obj j) = none ↔ h.objs.length ≤ j) ∧
    ∀ (j : Nat) (o : Obj), h.objs[j]? = some o →
      (∀ d, o.kind = .quantity d → h.src (.obj j) = some (.quantity ⟨⟨o.shape, fun i => h.mem (o.addr i)⟩, d⟩)) ∧
      (∀ u, o.kind = .unit u → h.src (.obj j) = some (.quantity ⟨⟨o.shape, fun i => h.mem (o.addr i)⟩, unitDim u⟩)) ∧
      (o.kind = .ndarray → h.src (.obj j) = some (.array ⟨o.shape, fun i => h.mem (o.addr i)⟩)) := by
  refine ⟨fun x => rfl, fun j => ?_, fun j o ho => ⟨fun d hd => ?_, fun u hu => ?_, fun hp => ?_⟩⟩
  · simp [Heap.src]
  all_goals simp [Heap.src, Heap.operand, Heap.quantity, Heap.arr, *, AKind.isQuantity, AKind.dim]

/-- Two columns and three rows meet; two and three elements do not.  The sum of a 2 by 3 array along the last axis. -/
example : Broadcastable [2, 1] [3] ∧ ¬ Broadcastable [2] [3] ∧
    (∃ S, NamesAxes 2 (.one (-1)) S) ∧ ¬ (∃ S, NamesAxes 2 (.many [0, -2]) S) := by
  refine ⟨(C128_elementwise (fun a b => a + b) (⟨[2, 1], fun _ => 0⟩ : NDArr Nat) ⟨[3], fun _ => 0⟩).2.1.1 (by decide),
    fun hb => ?_, ⟨[1], 1, ?_, rfl⟩, ?_⟩
  · have := (C128_elementwise (fun a b => a + b) (⟨[2], fun _ => 0⟩ : NDArr Nat) ⟨[3], fun _ => 0⟩).2.1.2 hb
    revert this; decide
  · exact ⟨by decide, .inr (by decide)⟩
  · intro hS
    obtain ⟨m, hm⟩ := (C129_reduction List.sum (.many [0, -2]) (⟨[2, 2], fun _ => 0⟩ : NDArr Nat)).1.2 hS
    cases hm
end PQ
