import Verif.Lemmas.Assign
import Verif.Props.ItemAssign
import Verif.Props.Complex

/-!
# C31, C99 place by place: which element of the value each element receives
-/

namespace PQ

open NDArr Heap

section
variable {K : Type _} [Field K] [LinearOrder K] [IsStrictOrderedRing K] [RPow K] [LawfulRPow K]
  [PyFloor K] {hh : Hasher} {np2 : Bool} {w : World K} {h : Heap K}

theorem physOp_shape (v : Valuation w) (x : Operand K) : (v.physOp x).shape = x.arr.shape := by
  cases x <;> rfl

/-- C31: after `q[key] = x` every selected element has the physical value of the element of `x` that lies under its
place in the selection (counting axes from the innermost one, axes of length 1 repeated), every other element and
the units are what they were. -/
theorem C31_setitem_elements (hw : Reachable hh w) (hr : Reached np2 w h) (i : Nat) (o : Obj) (k : Key)
    (hk : k.Sound) (xs : Src K) (x : Operand K) (h' : Heap K) (ho : h.objs[i]? = some o)
    (hx : h.src xs = some x) (hrun : h.run np2 w (.setitem i k xs) = (.ok i, h'))
    (hdo : DimOK w o.kind.dim) (hdx : DimOK w x.dim) (hs : HashSafe w x.dim o.kind.dim)
    (v : Valuation w) :
    h'.objs = h.objs ∧ ∃ s sel, k o.shape = .ok (s, sel) ∧ Assignable x.arr.shape s ∧
      ∀ idx, InB o.shape idx →
        (∃ p j, InB s p ∧ sel p = idx ∧ Under x.arr.shape p j ∧
          (v.phys (h'.quantity o)).elem idx = (v.physOp x).elem j) ∨
        ((∀ p, InB s p → sel p ≠ idx) ∧
          (v.phys (h'.quantity o)).elem idx = (v.phys (h.quantity o)).elem idx) := by
  obtain ⟨e, s, sel, m, hks, hm, hall⟩ :=
    C31_setitem_stores hw hr i o k hk xs x h' ho hx hrun hdo hdx hs v
  have ha := (castTo_spec s (v.physOp x)).2.2 m hm
  refine ⟨e, s, sel, hks, physOp_shape v x ▸ ha.fits, fun idx hi => ?_⟩
  rcases hall idx hi with ⟨p, hp, hsel, he⟩ | hno
  · obtain ⟨j, hj, hje⟩ := ha.elem p hp
    exact .inl ⟨p, j, hp, hsel, physOp_shape v x ▸ hj, he.trans hje⟩
  · exact .inr hno

/-- C31: assigning a value in compatible units to a selection of a writeable quantity succeeds exactly when its shape
fits the selection, and otherwise is a `ValueError` that changes nothing. -/
theorem C31_accepts (hw : Reachable hh w) (i : Nat) (o : Obj) (k : Key) (xs : Src K) (x : Operand K)
    (ho : h.objs[i]? = some o) (hq : o.kind.isQuantity = true) (hx : h.src xs = some x)
    (hdo : DimOK w o.kind.dim) (hdx : DimOK w x.dim) (hs : HashSafe w x.dim o.kind.dim)
    (hc : Compatible w x.dim o.kind.dim) (hwr : o.writeable = true) (s : List Nat)
    (sel : List Nat → List Nat) (hks : k o.shape = .ok (s, sel)) :
    (Assignable x.arr.shape s → (h.run np2 w (.setitem i k xs)).1 = .ok i) ∧
    (¬ Assignable x.arr.shape s → h.run np2 w (.setitem i k xs) = (.error .valueError, h)) := by
  refine ⟨fun hf => ?_, fun hf => ?_⟩
  · obtain ⟨m, hm⟩ := (castTo_spec s x.arr).1.2 hf
    exact C31_compatible hw i o k xs x ho hq hx hdo hdx hs hc hwr s sel hks m hm
  · have hdim : x.toQuantity.dim = x.dim := by cases x <;> rfl
    have hmag : x.toQuantity.mag = x.arr := by cases x <;> rfl
    have ha : ∃ m, assigned w o.kind.dim x = .ok m ∧ m.shape = x.arr.shape := by
      unfold assigned
      simp only
      split
      · obtain ⟨r, hr⟩ := (rescale_returns hw.wf (q := x.toQuantity) (d := o.kind.dim) (by rw [hdim]; exact hdx)
          hdo (by rw [hdim]; exact hs)).2 (by rw [hdim]; exact hc)
        obtain ⟨_, _, _, _, cf, _, e, _⟩ := rescale_ok hw.wf (by rw [hdim]; exact hdx) hdo
          (by rw [hdim]; exact hs) hr
        rw [hr]
        exact ⟨_, rfl, by rw [e, hmag]; rfl⟩
      · exact ⟨_, rfl, by rw [hmag]⟩
    obtain ⟨m, hm, hms⟩ := ha
    have hcast : castTo s m = .error .valueError := by
      rcases hcm : castTo s m with e | a
      · rw [(castTo_spec s m).2.1 e hcm]
      · exact absurd (hms ▸ (castTo_spec s m).1.1 ⟨a, hcm⟩) hf
    simp only [run, ho, hx, hq, if_true, setitem, hm, assign, hwr, Bool.not_true, Bool.false_eq_true,
      if_false, hks, hcast, result]

end

section
variable {h : Hasher} {w : World ℝ}

/-- C99: `q.real = x` gives every element the real part of the element of `x` that lies under its place, as a physical
value, and keeps units and imaginary parts; likewise `q.imag = x`.  It succeeds exactly when the units are compatible
and the shape of `x` fits that of `q`, and otherwise is a `ValueError` that changes nothing (for a `q` that is not
dimensionless, see `C99_dimensionless_false`). -/
theorem C99_elements_partial (P : List Char → Py PyAST) (F : PyOps ℝ) (hw : Reachable h w) (q : Quantity ℂ)
    (x : Quantity ℝ) (hq : DimOK w q.dim) (hx : DimOK w x.dim) (hs : HashSafe w x.dim q.dim) (hne : q.dim ≠ [])
    (v : Valuation w) :
    (Compatible w x.dim q.dim → Assignable x.mag.shape q.mag.shape →
      (∃ q', q.setReal P F w (.nested (.leaf (.quantity x))) = (none, q') ∧ q'.dim = q.dim ∧ q'.imag = q.imag ∧
        q'.mag.shape = q.mag.shape ∧
        ∀ i, InB q.mag.shape i → ∃ j, Under x.mag.shape i j ∧ (v.phys q'.real).elem i = (v.phys x).elem j) ∧
      (∃ q', q.setImag P F w (.nested (.leaf (.quantity x))) = (none, q') ∧ q'.dim = q.dim ∧ q'.real = q.real ∧
        q'.mag.shape = q.mag.shape ∧
        ∀ i, InB q.mag.shape i → ∃ j, Under x.mag.shape i j ∧ (v.phys q'.imag).elem i = (v.phys x).elem j)) ∧
    ((¬ Compatible w x.dim q.dim ∨ ¬ Assignable x.mag.shape q.mag.shape) →
      q.setReal P F w (.nested (.leaf (.quantity x))) = (some .valueError, q) ∧
      q.setImag P F w (.nested (.leaf (.quantity x))) = (some .valueError, q)) := by
  obtain ⟨h1, h2⟩ := C99_set_parts_partial P F hw q x hq hx hs hne v
  have hspec := castTo_spec q.mag.shape (v.phys x)
  refine ⟨fun hc hf => ?_, fun hbad => h2 ?_⟩
  · obtain ⟨a, ha⟩ := hspec.1.2 hf
    have has := hspec.2.2 a ha
    obtain ⟨⟨q', e1, e2, e3, e4⟩, ⟨q'', f1, f2, f3, f4⟩⟩ := h1 a hc ha
    refine ⟨⟨q', e1, e2, e3, ?_, ?_⟩, ⟨q'', f1, f2, f3, ?_, ?_⟩⟩
    · exact (congrArg NDArr.shape e4).trans has.shape
    · rw [e4]; exact has.elem
    · exact (congrArg NDArr.shape f4).trans has.shape
    · rw [f4]; exact has.elem
  · rcases hbad with hb | hb
    · exact .inl hb
    · exact .inr (fun hr => hb (hspec.1.1 hr))

end

/-- Shapes that fit and shapes that do not: a row, a column and an extra axis of length 1 go into a 2 by 3 array, three
rows do not, and an array of length 3 does not go into one of length 1. -/
example : Assignable [3] [2, 3] ∧ Assignable [2, 1] [2, 3] ∧ Assignable [1, 1, 3] [2, 3] ∧
    ¬ Assignable [3, 3] [2, 3] ∧ ¬ Assignable [3] [1] := by
  have key : ∀ s t : List Nat, Assignable s t ↔ Returns (castTo t (⟨s, fun _ => 0⟩ : NDArr Nat)) :=
    fun s t => ((castTo_spec t (⟨s, fun _ => 0⟩ : NDArr Nat)).1).symm
  refine ⟨(key _ _).2 ⟨_, rfl⟩, (key _ _).2 ⟨_, rfl⟩, (key _ _).2 ⟨_, rfl⟩, fun hc => ?_, fun hc => ?_⟩
  · obtain ⟨_, hh⟩ := (key _ _).1 hc; cases hh
  · obtain ⟨_, hh⟩ := (key _ _).1 hc; cases hh

example : (exHeap2.run false exWorld (.setitem 2 kTail (.lit (.quantity ⟨NDArr.scalar 5, dM⟩)))).1 = .ok 2 :=
  (C31_accepts exWorld_reachable 2 ⟨.quantity dKm, [2], _, false, some 1, true⟩ kTail
    (.lit (.quantity ⟨NDArr.scalar 5, dM⟩)) (.quantity ⟨NDArr.scalar 5, dM⟩) rfl rfl rfl (ex_dimOK dKm (by simp)) (ex_dimOK dM (by simp))
    ex_safe_m_km (compatible_symm exWorld_wf ex_compat) rfl [1] _ rfl).1 (by
      intro k; right; simp [Operand.arr, NDArr.scalar, axisLen])

end PQ
