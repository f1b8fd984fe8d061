import Verif.Spec.UnitObjects
import Verif.Lemmas.Dim

/-!
# Unit objects and the model by class and name

Replacing unit objects by their class and name commutes with every operation.
-/

set_option linter.unusedSectionVars false

namespace PQ.Obj

variable {K : Type _}

namespace OWorld

/-! ## Dimensionalities -/

theorem get?_abs (w : OWorld K) (d : ODim) (k : Nat) : w.get? d k = Dict.get? (w.absD d) (w.key k) := by
  induction d with
  | nil => rfl
  | cons kv d ih =>
    simp only [get?, absD, List.map_cons, Dict.get?]
    split
    · rfl
    · exact ih

theorem absD_set (w : OWorld K) (d : ODim) (k : Nat) (v : ℚ) :
    w.absD (w.set d k v) = Dict.set (w.absD d) (w.key k) v := by
  induction d with
  | nil => rfl
  | cons kv d ih =>
    simp only [set, absD, List.map_cons, Dict.set]
    split
    · rfl
    · simp only [List.map_cons]; exact congrArg _ ih

theorem absD_pop (w : OWorld K) (d : ODim) (k : Nat) : w.absD (w.pop d k) = Dict.pop (w.absD d) (w.key k) := by
  induction d with
  | nil => rfl
  | cons kv d ih =>
    simp only [pop, absD, List.map_cons, Dict.pop]
    split
    · rfl
    · simp only [List.map_cons]; exact congrArg _ ih

theorem absD_mulStep (w : OWorld K) (d : ODim) (kv : Nat × ℚ) :
    w.absD (w.mulStep d kv) = Dim.mulStep (w.absD d) (w.key kv.1, kv.2) := by
  simp only [mulStep, Dim.mulStep, get?_abs]
  cases Dict.get? (w.absD d) (w.key kv.1) with
  | none => exact absD_set w d _ _
  | some e =>
    by_cases h : e + kv.2 = 0
    · simp only [h, if_true, absD_pop, absD_set]
    · simp only [h, if_false, absD_set]

theorem absD_divStep (w : OWorld K) (d : ODim) (kv : Nat × ℚ) :
    w.absD (w.divStep d kv) = Dim.divStep (w.absD d) (w.key kv.1, kv.2) := by
  simp only [divStep, Dim.divStep, get?_abs]
  cases Dict.get? (w.absD d) (w.key kv.1) with
  | none => exact absD_set w d _ _
  | some e =>
    by_cases h : e - kv.2 = 0
    · simp only [h, if_true, absD_pop, absD_set]
    · simp only [h, if_false, absD_set]

theorem absD_dmul (w : OWorld K) (a b : ODim) : w.absD (w.dmul a b) = Dim.mul (w.absD a) (w.absD b) := by
  unfold dmul Dim.mul
  induction b generalizing a with
  | nil => rfl
  | cons kv b ih =>
    simp only [List.foldl_cons, absD, List.map_cons] at ih ⊢
    rw [ih (w.mulStep a kv)]
    exact congrArg (fun x => List.foldl Dim.mulStep x _) (absD_mulStep w a kv)

theorem absD_ddiv (w : OWorld K) (a b : ODim) : w.absD (w.ddiv a b) = Dim.div (w.absD a) (w.absD b) := by
  unfold ddiv Dim.div
  induction b generalizing a with
  | nil => rfl
  | cons kv b ih =>
    simp only [List.foldl_cons, absD, List.map_cons] at ih ⊢
    rw [ih (w.divStep a kv)]
    exact congrArg (fun x => List.foldl Dim.divStep x _) (absD_divStep w a kv)

theorem absD_dpow (w : OWorld K) (a : ODim) (p : ℚ) : w.absD (dpow a p) = Dim.pow (w.absD a) p := by
  unfold dpow Dim.pow
  split
  · rfl
  · simp only [absD, List.map_map]; rfl

theorem absD_nil (w : OWorld K) : w.absD [] = [] := rfl

theorem absD_unitDim (w : OWorld K) (i : Nat) : w.absD (w.unitDim i) = PQ.unitDim (w.key i) := by
  unfold unitDim PQ.unitDim
  split <;> rfl

theorem hash_abs (w : OWorld K) (o : UKey → Nat × Nat) (d : ODim) : w.hash d = Dim.hash w.hasher o (w.absD d) := by
  unfold hash Dim.hash
  have h1 : (w.sortedItems d).foldl
      (fun res kv => res ^^^ w.hasher.item (w.key kv.1) (hashedExponent kv.2)) w.hasher.base =
      Dim.rawHash w.hasher o (w.absD d) := by
    rw [rawHash_eq]
    have hp : (w.absD (w.sortedItems d)).Perm (w.absD d) := (List.mergeSort_perm d _).map _
    rw [← foldl_xor_perm (fun kv : UKey × ℚ => w.hasher.item kv.1 (hashedExponent kv.2)) _ hp]
    simp only [absD, List.foldl_map]
  simp only [h1]

theorem deq_abs (w : OWorld K) (a b : ODim) : w.deq a b = w.abs.deq (w.absD a) (w.absD b) := by
  unfold deq World.deq Dim.eq
  rw [hash_abs w w.abs.order a, hash_abs w w.abs.order b]
  rfl

theorem dne_abs (w : OWorld K) (a b : ODim) : w.dne a b = w.abs.dne (w.absD a) (w.absD b) := by
  unfold dne World.dne Dim.ne
  rw [hash_abs w w.abs.order a, hash_abs w w.abs.order b]
  rfl

theorem alike_iff (w : OWorld K) (a b : ODim) : w.Alike a b ↔ w.absD a = w.absD b := by
  unfold Alike
  constructor
  · intro h
    induction h with
    | nil => rfl
    | cons h _ ih => simp only [absD, List.map_cons] at ih ⊢; rw [ih, h.1, h.2]
  · intro h
    induction a generalizing b with
    | nil =>
      cases b with
      | nil => exact .nil
      | cons _ _ => cases h
    | cons x a ih =>
      cases b with
      | nil => cases h
      | cons y b =>
        simp only [absD, List.map_cons, List.cons.injEq, Prod.mk.injEq] at h
        exact .cons ⟨h.1.1, h.1.2⟩ (ih b h.2)

/-! ## References -/

theorem firsts_get? (w : OWorld K) (os : List (OUnit K)) (D : Dict UKey (UnitInfo K)) (k : UKey) :
    Dict.get? (w.firsts os D) k =
      match Dict.get? D k with
      | some x => some x
      | none => (os.find? (fun o => decide (o.key = k))).map w.absInfo := by
  induction os generalizing D with
  | nil =>
    simp only [firsts, List.find?_nil, Option.map_none]
    cases Dict.get? D k <;> rfl
  | cons o os ih =>
    simp only [firsts]
    cases hD : Dict.get? D o.key with
    | some x =>
      simp only
      rw [ih]
      cases hk : Dict.get? D k with
      | some y => rfl
      | none =>
        have : o.key ≠ k := fun hh => by rw [hh, hk] at hD; cases hD
        simp only [List.find?_cons, this, decide_false]
    | none =>
      simp only
      rw [ih, Dict.get?_set]
      by_cases hk : o.key = k
      · subst hk
        simp [hD]
      · have hk' : ¬ k = o.key := fun q => hk q.symm
        simp only [hk, if_false, List.find?_cons, decide_false]

theorem info_abs (w : OWorld K) (k : UKey) :
    w.abs.info k = (w.objs.find? (fun o => decide (o.key = k))).map w.absInfo := by
  unfold World.info abs
  rw [firsts_get?]
  rfl

theorem key_of_get (w : OWorld K) {i : Nat} {o : OUnit K} (h : w.objs[i]? = some o) : w.key i = o.key := by
  unfold key; rw [h]

theorem find_key (w : OWorld K) {i : Nat} (hi : i < w.objs.length) :
    ∃ j o, j < w.objs.length ∧ w.objs[j]? = some o ∧ w.key j = w.key i ∧
      w.objs.find? (fun o => decide (o.key = w.key i)) = some o := by
  have hget : w.objs[i]? = some w.objs[i] := List.getElem?_eq_getElem hi
  cases hf : w.objs.find? (fun o => decide (o.key = w.key i)) with
  | none =>
    have := List.find?_eq_none.1 hf _ (List.getElem_mem hi)
    rw [key_of_get w hget] at this
    simp at this
  | some o =>
    have h1 := List.find?_some hf
    have h2 := List.mem_of_find?_eq_some hf
    obtain ⟨j, hj, hjo⟩ := List.getElem_of_mem h2
    have hg : w.objs[j]? = some o := by rw [List.getElem?_eq_getElem hj, hjo]
    exact ⟨j, o, hj, hg, by rw [key_of_get w hg]; simpa using h1, rfl⟩

theorem convRef_abs {w : OWorld K} (hw : w.Coherent) {i : Nat} (hi : i < w.objs.length) :
    w.abs.convRef (w.key i) = (w.convRef i).map w.absSQ := by
  obtain ⟨j, o, hj, hg, hk, hf⟩ := find_key w hi
  unfold World.convRef
  rw [info_abs, hf, hw i j hi hj hk.symm]
  unfold convRef
  rw [hg]
  rfl

theorem unitRef_abs [One K] {w : OWorld K} (hw : w.Coherent) {i : Nat} (hi : i < w.objs.length) :
    w.absSQ (w.unitRef i) = w.abs.unitRef (w.key i) := by
  unfold World.unitRef unitRef
  rw [convRef_abs hw hi]
  cases w.convRef i with
  | none => simp only [Option.map_none, absSQ, absD_unitDim]
  | some r => rfl

section ref
variable [One K] [Mul K] [RPow K]

theorem refUnits_abs {w : OWorld K} (hw : w.Coherent) {d : ODim} (hd : w.Scoped d) :
    w.absSQ (w.refUnits d) = w.abs.refUnits (w.absD d) := by
  unfold refUnits World.refUnits
  suffices ∀ (q : OSQ K), w.absSQ (d.foldl w.refStep q) = (w.absD d).foldl w.abs.refStep (w.absSQ q) from
    this ⟨1, []⟩
  induction d with
  | nil => exact fun q => rfl
  | cons kv d ih =>
    intro q
    simp only [List.foldl_cons, absD, List.map_cons]
    have ih' := ih (fun kv hkv => hd kv (List.mem_cons_of_mem _ hkv)) (w.refStep q kv)
    rw [ih']
    refine congrArg (fun x => List.foldl w.abs.refStep x (w.absD d)) ?_
    have hr := unitRef_abs hw (hd kv List.mem_cons_self)
    simp only [refStep, World.refStep, absSQ, ← hr, absD_dmul, absD_dpow]

theorem reference_abs {w : OWorld K} (hw : w.Coherent) {q : OSQ K} (hd : w.Scoped q.dim) :
    w.absSQ (w.reference q) = w.abs.reference (w.absSQ q) := by
  have := refUnits_abs hw hd
  unfold reference World.reference
  simp only [absSQ] at this ⊢
  rw [← this]

theorem convFactor_abs [Div K] {w : OWorld K} (hw : w.Coherent) {a b : ODim} (ha : w.Scoped a) (hb : w.Scoped b) :
    w.convFactor a b = w.abs.convFactor (w.absD a) (w.absD b) := by
  have h1 := reference_abs hw (q := ⟨1, a⟩) ha
  have h2 := reference_abs hw (q := ⟨1, b⟩) hb
  unfold convFactor World.convFactor
  simp only [absSQ] at h1 h2 ⊢
  rw [← h1, ← h2]
  simp only [deq_abs]

theorem rescaleS_abs [Div K] {w : OWorld K} (hw : w.Coherent) {q : OSQ K} {d : ODim} (hq : w.Scoped q.dim)
    (hd : w.Scoped d) : (w.rescaleS q d).map w.absSQ = w.abs.rescaleS (w.absSQ q) (w.absD d) := by
  unfold rescaleS World.rescaleS
  rw [deq_abs, convFactor_abs hw hq hd]
  by_cases hc : w.abs.deq (w.absD q.dim) (w.absD d) = true
  · rw [if_pos hc, if_pos (show w.abs.deq (w.absSQ q).dim (w.absD d) = true from hc)]; rfl
  · rw [if_neg hc, if_neg (show ¬ w.abs.deq (w.absSQ q).dim (w.absD d) = true from hc),
      show (w.absSQ q).dim = w.absD q.dim from rfl]
    rcases w.abs.convFactor (w.absD q.dim) (w.absD d) with e | cf
    · cases e <;> rfl
    · rfl

theorem eqS_abs [Div K] [DecidableEq K] {w : OWorld K} (hw : w.Coherent) {a b : OSQ K} (ha : w.Scoped a.dim)
    (hb : w.Scoped b.dim) : w.eqS a b = w.abs.eqS (w.absSQ a) (w.absSQ b) := by
  have := rescaleS_abs hw hb ha
  unfold eqS World.eqS
  rw [show (w.absSQ a).dim = w.absD a.dim from rfl, ← this]
  rcases w.rescaleS b a.dim with e | o <;> rfl

theorem unitDim_scoped {w : OWorld K} {i : Nat} (hi : i < w.objs.length) : w.Scoped (w.unitDim i) := by
  unfold unitDim
  intro kv hkv
  split at hkv
  · cases hkv
  · simp only [List.mem_singleton] at hkv
    subst hkv
    exact hi

theorem unitEq_abs [Div K] [DecidableEq K] {w : OWorld K} (hw : w.Coherent) {i j : Nat} (hi : i < w.objs.length)
    (hj : j < w.objs.length) : w.unitEq i j = w.abs.unitEq (w.key i) (w.key j) := by
  unfold unitEq World.unitEq
  rw [eqS_abs hw (unitDim_scoped hi) (unitDim_scoped hj)]
  simp only [absSQ, absD_unitDim]

end ref

end OWorld

/-! ## Quantities -/

namespace OQ
open OWorld
section
variable [One K] [Mul K] [Div K] [RPow K]

theorem rescale_abs {w : OWorld K} (hw : w.Coherent) {q : OQ K} {d : ODim} (hq : w.Scoped q.dim) (hd : w.Scoped d) :
    (q.rescale w d).map w.absQ = (w.absQ q).rescale w.abs (w.absD d) := by
  unfold rescale Quantity.rescale
  rw [deq_abs, convFactor_abs hw hq hd]
  by_cases hc : w.abs.deq (w.absD q.dim) (w.absD d) = true
  · rw [if_pos hc, if_pos (show w.abs.deq (w.absQ q).dim (w.absD d) = true from hc)]; rfl
  · rw [if_neg hc, if_neg (show ¬ w.abs.deq (w.absQ q).dim (w.absD d) = true from hc),
      show (w.absQ q).dim = w.absD q.dim from rfl]
    rcases w.abs.convFactor (w.absD q.dim) (w.absD d) with e | cf
    · cases e <;> rfl
    · rfl

theorem scaleOther_abs {w : OWorld K} (hw : w.Coherent) {q : OQ K} {o : OOperand K} (hq : w.Scoped q.dim)
    (ho : w.OpScoped o) : (q.scaleOther w o).map w.absQ = (w.absQ q).scaleOther w.abs (w.absOp o) := by
  have aux : ∀ b : OQ K, w.Scoped b.dim →
      (if w.dne b.dim q.dim = true then b.rescale w q.dim else .ok b).map w.absQ =
      (if w.abs.dne (w.absQ b).dim (w.absQ q).dim = true then (w.absQ b).rescale w.abs (w.absQ q).dim
        else .ok (w.absQ b)) := fun b hb => by
    have hc : w.dne b.dim q.dim = w.abs.dne (w.absQ b).dim (w.absQ q).dim := dne_abs w _ _
    rw [hc]
    by_cases h : w.abs.dne (w.absQ b).dim (w.absQ q).dim = true
    · rw [if_pos h, if_pos h]; exact rescale_abs hw hb hq
    · rw [if_neg h, if_neg h]; rfl
  cases o with
  | quantity b => exact aux b ho
  | array a => exact aux ⟨a, []⟩ (fun _ h => by cases h)

variable [Zero K] [DecidableEq K]

theorem uniform_abs (w : OWorld K) (f : UF2) (g : K → K → K) (hf : f = .add ∨ f = .subtract) (a b : OQ K) :
    (a.uniform w g b).map w.absQ = applyUF2 w.abs f g (.quantity (w.absQ a)) (.quantity (w.absQ b)) := by
  have hd : ufunc2Dim w.abs f (.quantity (w.absQ a)) (.quantity (w.absQ b)) =
      if w.abs.deq (w.absD a.dim) (w.absD b.dim) then .ok (w.absD a.dim) else .error .valueError := by
    rcases hf with rfl | rfl <;> rfl
  unfold uniform applyUF2
  rw [hd, deq_abs]
  split
  · simp only [Operand.arr, absQ]
    rcases NDArr.bin g a.mag b.mag with e | m <;> rfl
  · rfl

theorem add_abs [Add K] {w : OWorld K} (hw : w.Coherent) {q : OQ K} {o : OOperand K} (hq : w.Scoped q.dim)
    (ho : w.OpScoped o) : (q.add w o).map w.absQ = (w.absQ q).add w.abs (w.absOp o) := by
  have hs := scaleOther_abs hw hq ho
  unfold add Quantity.add
  rw [← hs]
  rcases q.scaleOther w o with e | b
  · rfl
  · exact uniform_abs w .add (· + ·) (Or.inl rfl) q b

theorem sub_abs [Sub K] {w : OWorld K} (hw : w.Coherent) {q : OQ K} {o : OOperand K} (hq : w.Scoped q.dim)
    (ho : w.OpScoped o) : (q.sub w o).map w.absQ = (w.absQ q).sub w.abs (w.absOp o) := by
  have hs := scaleOther_abs hw hq ho
  unfold sub Quantity.sub
  rw [← hs]
  rcases q.scaleOther w o with e | b
  · rfl
  · exact uniform_abs w .subtract (· - ·) (Or.inr rfl) q b

theorem mul_abs (w : OWorld K) (q : OQ K) (o : OOperand K) :
    (q.mul w o).map w.absQ = (w.absQ q).mul w.abs (w.absOp o) := by
  cases o with
  | quantity b =>
    simp only [mul, Quantity.mul, applyUF2, ufunc2Dim, dMultiply, absOp, Operand.arr, absQ]
    rcases NDArr.bin (· * ·) q.mag b.mag with e | m
    · rfl
    · simp only [Except.map, absQ, absD_dmul]
  | array a =>
    simp only [mul, Quantity.mul, applyUF2, ufunc2Dim, dMultiply, absOp, Operand.arr, absQ]
    rcases NDArr.bin (· * ·) q.mag a with e | m <;> rfl

theorem truediv_abs (w : OWorld K) (q : OQ K) (o : OOperand K) :
    (q.truediv w o).map w.absQ = (w.absQ q).truediv w.abs (w.absOp o) := by
  cases o with
  | quantity b =>
    simp only [truediv, Quantity.truediv, applyUF2, ufunc2Dim, dDivide, absOp, Operand.arr, absQ]
    rcases NDArr.bin (· / ·) q.mag b.mag with e | m
    · rfl
    · simp only [Except.map, absQ, absD_ddiv]
  | array a =>
    simp only [truediv, Quantity.truediv, applyUF2, ufunc2Dim, dDivide, absOp, Operand.arr, absQ]
    rcases NDArr.bin (· / ·) q.mag a with e | m <;> rfl

theorem compare_abs (r : K → K → Bool) {w : OWorld K} (hw : w.Coherent) {a b : OQ K} (ha : w.Scoped a.dim)
    (hb : w.Scoped b.dim) : a.compare r w b = (w.absQ a).compare r w.abs (.quantity (w.absQ b)) := by
  have hr := rescale_abs hw hb ha
  unfold compare Quantity.compare Quantity.wrapComparison
  rw [dne_abs]
  by_cases hc : w.abs.dne (w.absD b.dim) (w.absD a.dim) = true
  · rw [if_pos hc]
    simp only [show w.abs.dne (w.absQ b).dim (w.absQ a).dim = true from hc, if_true]
    rw [show (w.absQ a).dim = w.absD a.dim from rfl, ← hr]
    rcases b.rescale w a.dim with e | o <;> rfl
  · rw [if_neg hc]
    have hc' : w.abs.dne (w.absQ b).dim (w.absQ a).dim = false := (Bool.not_eq_true _).mp hc
    simp only [hc']
    rfl

theorem eq_abs {w : OWorld K} (hw : w.Coherent) {a b : OQ K} (ha : w.Scoped a.dim) (hb : w.Scoped b.dim) :
    a.eq w b = (w.absQ a).eq w.abs (.quantity (w.absQ b)) := by
  have hr := rescale_abs hw hb ha
  simp only [eq, Quantity.eq]
  rw [show (w.absQ a).dim = w.absD a.dim from rfl, ← hr]
  rcases b.rescale w a.dim with e | o
  · cases e <;> rfl
  · rfl

end
end OQ
end PQ.Obj
