import Verif.Props.Views
import Verif.Props.ItemAssign
import Verif.Model.Reduce

/-!
# Property C96: results written into an existing quantity (`out=`)
-/

namespace PQ

open Heap NDArr

section
variable {K : Type _} [Zero K] [One K] [Add K] [Sub K] [Mul K] [Div K] [RPow K] [PyFloor K] [DecidableEq K]
variable {np2 : Bool} {w : World K} {h : Heap K}

private theorem into_ok {f : Quantity K → Py (Quantity K)} {o oo : Obj} {out : Nat} {h' : Heap K}
    (hi : h.into f o out oo = (none, h')) :
    ∃ r d, f (h.quantity o) = .ok r ∧ oo.kind = .quantity d ∧ r.mag.shape = oo.shape ∧
      oo.writeable = true ∧ h' = (h.store oo r.mag).setDim out oo r.dim := by
  unfold into at hi
  split at hi
  · cases hi
  · split at hi
    · cases hi
    · rename_i r hr
      split at hi
      · cases hi
      · rename_i hs
        split at hi
        · cases hi
        · rename_i hwr
          simp only at hi
          split at hi
          · rename_i d hk
            simp only [Prod.mk.injEq, true_and] at hi
            exact ⟨r, d, hr, hk, by simpa using hs, by simpa using hwr, hi.symm⟩
          · cases hi

private theorem run_into {f : Quantity K → Py (Quantity K)} {i out : Nat} {x : Nat} {h' : Heap K}
    (hrun : h.run np2 w (.into f i out) = (.ok x, h')) :
    ∃ o oo, h.objs[i]? = some o ∧ h.objs[out]? = some oo ∧ o.kind.isQuantity = true ∧ x = out ∧
      h.into f o out oo = (none, h') := by
  simp only [run] at hrun
  split at hrun
  · rename_i o oo ho hoo
    split at hrun
    · rename_i hq
      rcases hi : h.into f o out oo with ⟨e, h2⟩
      rw [hi] at hrun
      cases e with
      | none =>
        simp only [result, Prod.mk.injEq, Except.ok.injEq] at hrun
        exact ⟨o, oo, ho, hoo, hq, hrun.1.symm, by rw [hi, hrun.2]⟩
      | some e => simp [result] at hrun
    · cases hrun
  · cases hrun

/-- C96: `q.f(..., out=y)` returns `y`, and `y` then shows the units and the elements of `q.f(...)`. -/
theorem C96_out_stores (hr : Reached np2 w h) (f : Quantity K → Py (Quantity K)) (i out x : Nat) (o : Obj)
    (h' : Heap K) (ho : h.objs[i]? = some o)
    (hrun : h.run np2 w (.into f i out) = (.ok x, h')) :
    x = out ∧ ∃ r, f (h.quantity o) = .ok r ∧ Sees h' out (.quantity r.dim) r.mag := by
  obtain ⟨o', oo, ho', hoo, -, hx, hi⟩ := run_into hrun
  rw [ho] at ho'; cases ho'
  obtain ⟨r, d, h1, h2, h3, h4, rfl⟩ := into_ok hi
  refine ⟨hx, r, h1, ⟨{ oo with kind := .quantity r.dim }, ?_, rfl, h3.symm, fun j hj => ?_⟩⟩
  · exact (setDim_get _ _ _ _ (by exact hoo) out).trans (if_pos rfl)
  · exact store_mem_cell h oo r.mag (hr.wf.ok out oo hoo).inj j hj

/-- C96: nothing else changes: an object other than `y` keeps its units, and its elements too if it
shares no memory with `y`. -/
theorem C96_out_frame (hr : Reached np2 w h) (f : Quantity K → Py (Quantity K)) (i out x j : Nat)
    (h' : Heap K) (hrun : h.run np2 w (.into f i out) = (.ok x, h')) (hj : j ≠ out) :
    h'.objs[j]? = h.objs[j]? ∧
    (ApartIds h out j → ∀ k a, Sees h j k a → Sees h' j k a) := by
  obtain ⟨o', oo, ho', hoo, -, hx, hi⟩ := run_into hrun
  obtain ⟨r, d, h1, h2, h3, h4, rfl⟩ := into_ok hi
  have ho : ((h.store oo r.mag).setDim out oo r.dim).objs[j]? = h.objs[j]? :=
    (setDim_get _ _ _ _ (by exact hoo) j).trans (if_neg hj)
  refine ⟨ho, fun hap k a hs => ?_⟩
  obtain ⟨p, hp, hk, hsh, hel⟩ := hs.ex
  refine ⟨p, ho.trans hp, hk, hsh, fun idx hidx => ?_⟩
  rw [← hel idx hidx]
  exact store_mem_of_not_cell h oo r.mag _ (fun hc => hap oo p hoo hp _ hc ⟨idx, hidx, rfl⟩)

/-- C96: a call that raises changes nothing, neither `y` nor anything else. -/
theorem C96_out_error (hr : Reached np2 w h) (f : Quantity K → Py (Quantity K)) (i out : Nat) (e : PyErr)
    (h' : Heap K) (hrun : h.run np2 w (.into f i out) = (.error e, h')) : h' = h := by
  simp only [run] at hrun
  split at hrun
  · rename_i o oo ho hoo
    split at hrun
    · rcases hi : h.into f o out oo with ⟨e', h2⟩
      rw [hi] at hrun
      cases e' with
      | none => simp [result] at hrun
      | some e' =>
        simp only [result, Prod.mk.injEq] at hrun
        rw [← hrun.2]
        unfold into at hi
        split at hi
        · cases hi; rfl
        · split at hi
          · cases hi; rfl
          · split at hi
            · cases hi; rfl
            · split at hi
              · cases hi; rfl
              · rename_i hnd _ _ _ _ hwr
                simp only at hi
                split at hi
                · cases hi
                · rename_i hk
                  exfalso
                  cases hkk : oo.kind with
                  | ndarray => exact hnd hkk
                  | quantity d => exact hk d hkk
                  | unit u => exact hwr (by rw [hr.wf.unit_readonly hoo hkk]; rfl)
    · cases hrun; rfl
  · cases hrun; rfl

/-- C96: it succeeds exactly when `y` is a writeable quantity (not a plain array, not a unit) of the shape
of the result. -/
theorem C96_out_returns_iff (hr : Reached np2 w h) (f : Quantity K → Py (Quantity K)) (i out : Nat)
    (o oo : Obj) (ho : h.objs[i]? = some o) (hoo : h.objs[out]? = some oo)
    (hq : o.kind.isQuantity = true) :
    (h.run np2 w (.into f i out)).1 = .ok out ↔
      ∃ r, f (h.quantity o) = .ok r ∧ oo.kind.isQuantity = true ∧ oo.writeable = true ∧
        r.mag.shape = oo.shape := by
  constructor
  · intro hok
    rcases hrun : h.run np2 w (.into f i out) with ⟨a, h'⟩
    rw [hrun] at hok
    simp only at hok; subst hok
    obtain ⟨o', oo', ho', hoo', -, -, hi⟩ := run_into hrun
    rw [ho] at ho'; cases ho'
    rw [hoo] at hoo'; cases hoo'
    obtain ⟨r, d, h1, h2, h3, h4, -⟩ := into_ok hi
    exact ⟨r, h1, by rw [h2]; rfl, h4, h3⟩
  · rintro ⟨r, h1, h2, h3, h4⟩
    rcases hr.wf.quantity_or_readonly hoo h2 with ⟨d, hk⟩ | hro
    · have hi : h.into f o out oo = (none, (h.store oo r.mag).setDim out oo r.dim) := by
        unfold into
        simp only [hk, h1, h4, ne_eq, not_true_eq_false, if_false, h3, Bool.not_true, Bool.false_eq_true]
      simp only [run, ho, hoo, hq, if_true, hi, result]
    · rw [h3] at hro; cases hro

/-- C96: a plain array as `out` is refused (with `AttributeError`, where the code intends `TypeError`). -/
theorem C96_out_plain (f : Quantity K → Py (Quantity K)) (i out : Nat) (o oo : Obj)
    (ho : h.objs[i]? = some o) (hoo : h.objs[out]? = some oo) (hq : o.kind.isQuantity = true)
    (hk : oo.kind = .ndarray) : h.run np2 w (.into f i out) = (.error .attributeError, h) := by
  have hi : h.into f o out oo = (some .attributeError, h) := by unfold into; rw [hk]
  simp only [run, ho, hoo, hq, if_true, hi, result]

end

/-! ## Examples -/

/-- `q = [1000, 2000] * m; y = 7 * s` -/
noncomputable def exOutHeap : Heap ℝ := Heap.empty.runAll false exWorld
  [.newQuantity ⟨[2], fun j => if j = [0] then 1000 else 2000⟩ dM, .newQuantity (NDArr.scalar 7) dS]

theorem exOutHeap_reached : Reached false exWorld exOutHeap :=
  .step _ (.step _ .empty trivial) trivial

/-- `q.sum(out=y)` returns `y`, which then is 3000 m. -/
example :
    (exOutHeap.run false exWorld (.into (fun q => q.sum .all) 1 3)).1 = .ok 3 ∧
    Sees (exOutHeap.run false exWorld (.into (fun q => q.sum .all) 1 3)).2 3
      (.quantity dM) (NDArr.scalar 3000) := by
  refine ⟨rfl, sees_scalar rfl rfl rfl ?_⟩
  change ((1000 : ℝ) + (2000 + 0)) = 3000
  norm_num

/-- `q.sum(out=q)` raises, since the shapes differ, and `q.sum(out=q.magnitude)` raises since that is not a
quantity. -/
example : exOutHeap.run false exWorld (.into (fun q => q.sum .all) 1 1) = (.error .valueError, exOutHeap) ∧
    exOutHeap.run false exWorld (.into (fun q => q.sum .all) 1 0) = (.error .attributeError, exOutHeap) :=
  ⟨rfl, rfl⟩

/-- C70 is false of `out=`: with `v` a view of `q = 1000*m` and `t = 5*s`, `t.sum(out=v)` is accepted although
`v` is protected; `v` is then 5 s and `q` is 5 m. -/
theorem C70_out_false :
    let h := exOwnerHeap.runAll false exWorld [.newQuantity (NDArr.scalar 5) dS]
    (h.run false exWorld (.setUnits 2 dS)).1 = .error .valueError ∧
    (h.run false exWorld (.into (fun q => q.sum .all) 4 2)).1 = .ok 2 ∧
    Sees (h.run false exWorld (.into (fun q => q.sum .all) 4 2)).2 2 (.quantity dS) (NDArr.scalar 5) ∧
    Sees (h.run false exWorld (.into (fun q => q.sum .all) 4 2)).2 1 (.quantity dM) (NDArr.scalar 5) := by
  refine ⟨rfl, rfl, sees_scalar rfl rfl rfl ?_, sees_scalar rfl rfl rfl ?_⟩
  · change ((5 : ℝ) + 0) = 5
    norm_num
  · change ((5 : ℝ) + 0) = 5
    norm_num

end PQ
