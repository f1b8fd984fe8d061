import Verif.Props.Dispatch
import Verif.Props.UncertainReturns

/-!
# C143: uncertainties do not change the values; `%` and `//` lose them; numbers on the left of comparisons
-/

namespace PQ

open NDArr World

/-- The operand with its uncertainty, if any, forgotten. -/
def PyVal.nominal {K : Type _} : PyVal K → PyVal K
  | .uncertain a => .quantity a.val
  | x => x

section lawfree
variable {K : Type _} [Zero K] [One K] [Add K] [Sub K] [Mul K] [Div K] [RPow K] [PyFloor K] [DecidableEq K]

theorem bind_ok {α β : Type _} {x : Py α} {f : α → Py β} {b : β} (h : (x >>= f) = .ok b) :
    ∃ a, x = .ok a ∧ f a = .ok b := by
  cases x with
  | error e => cases h
  | ok a => exact ⟨a, rfl, h⟩

theorem setUncertainty_val {w : World K} {a r : UQ K} {o : Operand K} (h : a.setUncertainty w o = .ok r) : r.val = a.val := by
  unfold UQ.setUncertainty at h
  simp only at h
  by_cases h1 : a.val.mag.shape = o.toQuantity.mag.shape
  · rw [if_pos h1] at h
    by_cases h2 : w.dne o.toQuantity.dim a.val.dim = true
    · rw [if_pos h2] at h
      rcases h3 : o.toQuantity.rescale w a.val.dim with e | u
      · rw [h3] at h; cases h
      · rw [h3] at h; cases h; rfl
    · rw [if_neg h2] at h; cases h; rfl
  · rw [if_neg h1] at h; cases h

theorem uqRescale_val {w : World K} {a r : UQ K} {d : Dim} (h : a.rescale w d = .ok r) : a.val.rescale w d = .ok r.val := by
  unfold UQ.rescale at h
  rcases h1 : a.val.rescale w d with e | x
  · rw [h1] at h; cases h
  rw [h1] at h
  simp only at h
  rcases h2 : a.unc.rescale w d with e | y
  · rw [h2] at h; cases h
  rw [h2] at h
  rw [setUncertainty_val h]

theorem new_val {w : World K} {q : Quantity K} {o : Option (Operand K)} {r : UQ K}
    (h : UQ.new w (.quantity q) [] o = .ok r) : r.val = q := by
  unfold UQ.new at h
  simp only [UQ.mkQuantity, List.isEmpty_nil, if_true] at h
  cases o with
  | none => cases h; rfl
  | some o =>
    simp only at h
    split at h
    · cases h
    · exact setUncertainty_val h

/-- Converting an uncertain operand converts its value. -/
theorem scaleUncertain_val {w : World K} {op : BinOp} {q : Quantity K} {b o : UQ K}
    (h : q.scaleUncertain w op b = .ok o) :
    (op.scales = true → Quantity.scaleOther w q (.quantity b.val) = .ok o.val) ∧ (op.scales = false → o = b) := by
  unfold Quantity.scaleUncertain at h
  constructor
  · intro hop
    rw [hop, Bool.true_and] at h
    rw [scaleOther_quantity]
    by_cases hd : w.dne b.val.dim q.dim = true
    · rw [if_pos hd] at h
      exact uqRescale_val h
    · rw [if_neg hd] at h
      cases h
      unfold Quantity.rescale
      rw [if_pos]
      simpa [dne_eq] using hd
  · intro hop
    rw [hop, Bool.false_and, if_neg (by simp)] at h
    cases h; rfl

theorem methodUncertain_val {w : World K} {op : BinOp} {q : Quantity K} {b r : UQ K}
    (h : q.methodUncertain w op b = .ok r) : q.method w op (.quantity b.val) = .ok r.val := by
  unfold Quantity.methodUncertain at h
  obtain ⟨o, h1, h⟩ := bind_ok h
  obtain ⟨x, h2, h⟩ := bind_ok h
  cases h
  obtain ⟨s1, s2⟩ := scaleUncertain_val h1
  cases op <;> simp only [BinOp.scales, reduceCtorEq, forall_true_left, false_implies, BinOp.uf, BinOp.fn] at s1 s2 h2 <;>
    simp only [Quantity.method, Quantity.add, Quantity.sub, Quantity.mod, Quantity.mul, Quantity.truediv, Quantity.floordiv]
  · rw [s1]; exact h2
  · rw [s1]; exact h2
  · subst s2; exact h2
  · subst s2; exact h2
  · rw [s1]; exact h2
  · subst s2; exact h2

theorem scaleOther_val {w : World K} {a : UQ K} {o o' : UOperand K} (h : UQ.scaleOther w a o = .ok o') :
    (∃ q, Quantity.scaleOther w a.val o.op = .ok q ∧ o'.op = .quantity q) := by
  cases o with
  | uq b =>
    have : a.val.scaleUncertain w .add b = (match o' with | .uq x => Except.ok x | .plain _ => .error .typeError) ∧ ∃ x, o' = .uq x := by
      simp only [UQ.scaleOther] at h
      unfold Quantity.scaleUncertain
      simp only [BinOp.scales, Bool.true_and]
      by_cases hd : w.dne b.val.dim a.val.dim = true
      · rw [if_pos hd] at h ⊢
        rcases hr : b.rescale w a.val.dim with e | x
        · rw [hr] at h; cases h
        · rw [hr] at h; cases h; exact ⟨rfl, _, rfl⟩
      · rw [if_neg hd] at h ⊢
        cases h; exact ⟨rfl, _, rfl⟩
    obtain ⟨h1, x, rfl⟩ := this
    exact ⟨x.val, (scaleUncertain_val h1).1 rfl, rfl⟩
  | plain o =>
    simp only [UQ.scaleOther] at h
    rcases hr : Quantity.scaleOther w a.val o with e | q
    · rw [hr] at h; cases h
    · rw [hr] at h; cases h; exact ⟨q, hr, rfl⟩

/-- Converting twice changes nothing more. -/
theorem scaleOther_twice {w : World K} {a q : Quantity K} {o : Operand K} (h : Quantity.scaleOther w a o = .ok q) :
    Quantity.scaleOther w a (.quantity q) = .ok q := by
  have hd : w.deq q.dim a.dim = true := by
    cases o with
    | quantity x => rw [scaleOther_quantity] at h; exact rescale_dim_deq h
    | array x =>
      have : Quantity.scaleOther w a (.array x) = Quantity.scaleOther w a (.quantity ⟨x, []⟩) := rfl
      rw [this, scaleOther_quantity] at h; exact rescale_dim_deq h
  rw [scaleOther_quantity]
  unfold Quantity.rescale
  rw [if_pos hd]

theorem method_val {w : World K} {op : BinOp} {a r : UQ K} {o : UOperand K} (h : a.method w op o = .ok r) :
    a.val.method w op o.op = .ok r.val := by
  have hmul : ∀ {r : UQ K}, a.mul w o = .ok r → a.val.mul w o.op = .ok r.val := by
    intro r h
    unfold UQ.mul at h
    obtain ⟨x, h1, h⟩ := bind_ok h
    rw [h1]
    cases o with
    | uq b =>
      obtain ⟨_, -, h⟩ := bind_ok h
      obtain ⟨_, -, h⟩ := bind_ok h
      obtain ⟨_, -, h⟩ := bind_ok h
      obtain ⟨_, -, h⟩ := bind_ok h
      cases h; rfl
    | plain o =>
      obtain ⟨_, -, h⟩ := bind_ok h
      obtain ⟨_, -, h⟩ := bind_ok h
      obtain ⟨_, -, h⟩ := bind_ok h
      obtain ⟨_, -, h⟩ := bind_ok h
      cases h; rfl
  cases op with
  | add =>
    simp only [UQ.method, Quantity.method] at h ⊢
    unfold UQ.add at h
    obtain ⟨o', h1, h⟩ := bind_ok h
    obtain ⟨q, s1, s2⟩ := scaleOther_val h1
    cases o' with
    | uq b =>
      obtain ⟨x, h2, h⟩ := bind_ok h
      obtain ⟨u, -, h⟩ := bind_ok h
      rw [new_val h, ← h2]
      cases s2
      simp only [Quantity.add, s1, scaleOther_twice s1]
    | plain o =>
      obtain ⟨x, -, h⟩ := bind_ok h
      cases h
  | sub =>
    simp only [UQ.method, Quantity.method] at h ⊢
    unfold UQ.sub at h
    obtain ⟨o', h1, h⟩ := bind_ok h
    obtain ⟨q, s1, s2⟩ := scaleOther_val h1
    cases o' with
    | uq b =>
      obtain ⟨x, h2, h⟩ := bind_ok h
      obtain ⟨u, -, h⟩ := bind_ok h
      rw [new_val h, ← h2]
      cases s2
      simp only [Quantity.sub, s1, scaleOther_twice s1]
    | plain o =>
      obtain ⟨x, -, h⟩ := bind_ok h
      cases h
  | mul => exact hmul h
  | truediv =>
    simp only [UQ.method, Quantity.method] at h ⊢
    unfold UQ.truediv at h
    obtain ⟨x, h1, h⟩ := bind_ok h
    rw [h1]
    cases o with
    | uq b =>
      obtain ⟨_, -, h⟩ := bind_ok h
      obtain ⟨_, -, h⟩ := bind_ok h
      obtain ⟨_, -, h⟩ := bind_ok h
      obtain ⟨_, -, h⟩ := bind_ok h
      cases h; rfl
    | plain o =>
      obtain ⟨_, -, h⟩ := bind_ok h
      obtain ⟨_, -, h⟩ := bind_ok h
      obtain ⟨_, -, h⟩ := bind_ok h
      obtain ⟨_, -, h⟩ := bind_ok h
      cases h; rfl
  | mod =>
    simp only [UQ.method, Quantity.method] at h ⊢
    obtain ⟨o', h1, h⟩ := bind_ok h
    obtain ⟨q, s1, s2⟩ := scaleOther_val h1
    obtain ⟨x, h2, h⟩ := bind_ok h
    cases h
    rw [s2] at h2
    simp only [Quantity.mod, s1]
    exact h2
  | floordiv =>
    simp only [UQ.method, Quantity.method] at h ⊢
    obtain ⟨x, h2, h⟩ := bind_ok h
    cases h
    exact h2

theorem newArray_val {w : World K} {m : NDArr K} {d : Dim} {o : Option (Operand K)} {r : UQ K}
    (h : UQ.new w (.array m) d o = .ok r) : r.val = ⟨m, d⟩ := by
  unfold UQ.new at h
  simp only [UQ.mkQuantity] at h
  cases o with
  | none => cases h; rfl
  | some o =>
    simp only at h
    split at h
    · cases h
    · exact setUncertainty_val h

/-- The operations that forget the uncertainties and those that do not reflect: exactly the same value. -/
theorem nominal_exact {w : World K} {op : BinOp} {x y r : PyVal K}
    (hno : (∃ b, y = .uncertain b) → (∀ u, x ≠ .unit u) → (∀ a, x ≠ .uncertain a) → op = .mod ∨ op = .floordiv)
    (hr : binop w op x y = .ok r) : binop w op x.nominal y.nominal = .ok r.nominal := by
  cases x with
  | unit u =>
    cases y with
    | uncertain b =>
      obtain ⟨c, hc, rfl⟩ := map_ok hr
      simp only [PyVal.nominal, binop, methodUncertain_val hc]; rfl
    | unit t => obtain ⟨c, -, rfl⟩ := map_ok hr; exact hr
    | quantity q => obtain ⟨c, -, rfl⟩ := map_ok hr; exact hr
    | array q => obtain ⟨c, -, rfl⟩ := map_ok hr; exact hr
  | uncertain a =>
    cases y with
    | uncertain b =>
      obtain ⟨c, hc, rfl⟩ := map_ok hr
      have := method_val hc
      simp only [PyVal.nominal, binop]
      simp only [UOperand.op] at this
      rw [this]; rfl
    | unit t =>
      obtain ⟨c, hc, rfl⟩ := map_ok hr
      have := method_val hc
      simp only [PyVal.nominal, binop, unitRMethod_eq]
      simp only [UOperand.op] at this
      rw [this]; split <;> rfl
    | quantity q =>
      obtain ⟨c, hc, rfl⟩ := map_ok hr
      have := method_val hc
      simp only [PyVal.nominal, binop]
      simp only [UOperand.op] at this
      rw [this]; rfl
    | array q =>
      obtain ⟨c, hc, rfl⟩ := map_ok hr
      have := method_val hc
      simp only [PyVal.nominal, binop]
      simp only [UOperand.op] at this
      rw [this]; rfl
  | quantity q =>
    cases y with
    | uncertain b =>
      rcases hno ⟨b, rfl⟩ (by simp) (by simp) with rfl | rfl
      · simp only [binop, reflectsOver, Bool.false_eq_true, if_false] at hr
        obtain ⟨c, hc, rfl⟩ := map_ok hr
        simp only [PyVal.nominal, binop, methodUncertain_val hc]; rfl
      · simp only [binop, reflectsOver, Bool.false_eq_true, if_false] at hr
        obtain ⟨c, hc, rfl⟩ := map_ok hr
        simp only [PyVal.nominal, binop, methodUncertain_val hc]; rfl
    | unit t =>
      have : r.nominal = r := by
        simp only [binop, unitRMethod_eq, ite_self] at hr
        obtain ⟨c, -, rfl⟩ := map_ok hr; rfl
      rw [this]; exact hr
    | quantity q => obtain ⟨c, -, rfl⟩ := map_ok hr; exact hr
    | array q => obtain ⟨c, -, rfl⟩ := map_ok hr; exact hr
  | array m =>
    cases y with
    | uncertain b =>
      rcases hno ⟨b, rfl⟩ (by simp) (by simp) with rfl | rfl
      · obtain ⟨c, hc, rfl⟩ := map_ok hr
        obtain ⟨z, h2, hc⟩ := bind_ok hc
        cases hc
        simp only [PyVal.nominal, binop, Quantity.rmethod]
        simp only [BinOp.uf, BinOp.fn] at h2
        rw [h2]; rfl
      · obtain ⟨c, hc, rfl⟩ := map_ok hr
        obtain ⟨z, h2, hc⟩ := bind_ok hc
        cases hc
        simp only [PyVal.nominal, binop, Quantity.rmethod]
        simp only [BinOp.uf, BinOp.fn] at h2
        rw [h2]; rfl
    | unit t => obtain ⟨c, -, rfl⟩ := map_ok hr; exact hr
    | quantity q => obtain ⟨c, -, rfl⟩ := map_ok hr; exact hr
    | array q => obtain ⟨c, -, rfl⟩ := map_ok hr; exact hr

end lawfree

section physical
variable {K : Type _} [Field K] [LinearOrder K] [IsStrictOrderedRing K] [RPow K] [LawfulRPow K] [PyFloor K]
variable {h : Hasher} {w : World K}

/-- The operand is a known unit, a quantity in known units, an uncertain quantity as the library makes them, or plain. -/
def PyVal.Made (w : World K) : PyVal K → Prop
  | .unit u => u ∈ w.units.map Prod.fst
  | .quantity q => DimOK w q.dim
  | .uncertain a => UQ.Built w a
  | .array _ => True

theorem PyVal.Made.dimOK (hw : Reachable h w) {x : PyVal K} (hx : x.Made w) : DimOK w x.dim := by
  cases x with
  | unit u => exact unitDim_ok hx
  | quantity q => exact hx
  | uncertain a => exact (UQ.Built.ok hw.wf hx).vdim
  | array a => exact DimOK.nil _

theorem nominal_dim (x : PyVal K) : x.nominal.dim = x.dim := by cases x <;> rfl
theorem nominal_phys (x : PyVal K) (v : Valuation w) : x.nominal.phys v = x.phys v := by cases x <;> rfl
theorem nominal_mag (x : PyVal K) : x.nominal.mag = x.mag := by cases x <;> rfl
theorem nominal_exactly (x : PyVal K) : x.nominal.Exact := by cases x <;> trivial

/-- An exact operand on the left of an uncertain one. -/
theorem reflected_phys (hw : Reachable h w) {op : BinOp} {x : PyVal K} {o : Operand K}
    (hxo : x = match o with | .quantity q => .quantity q | .array m => .array m) {b : UQ K} {r : PyVal K}
    (ho : DimOK w o.dim) (hb : UQ.Built w b) (hs : HashSafe w o.dim b.val.dim)
    (hop : op = .sub ∨ op = .mul ∨ op = .truediv) (hr : binop w op x (.uncertain b) = .ok r) :
    (op = .sub → Compatible w o.dim b.val.dim) ∧
    ∀ v : Valuation w, NDArr.bin op.fn (v.physOp o) (v.phys b.val) = .ok (r.phys v) := by
  have e : binop w op x (.uncertain b) = (b.rmethod w op o).map .uncertain := by
    subst hxo
    rcases hop with rfl | rfl | rfl <;> cases o <;> rfl
  rw [e] at hr
  obtain ⟨c, hc, rfl⟩ := map_ok hr
  have hbd := (UQ.Built.ok hw.wf hb).vdim
  rcases hop with rfl | rfl | rfl
  · simp only [UQ.rmethod] at hc
    unfold UQ.rsub at hc
    obtain ⟨o', h1, hc⟩ := bind_ok hc
    obtain ⟨q, s1, s2⟩ := scaleOther_val h1
    have spec := scaleOther_spec hw.wf hbd ho hs
    simp only [UOperand.op] at s1
    obtain ⟨q1, q2, q3, q4⟩ := spec.2.2 q s1
    have hp : o' = .plain (.quantity q) := by
      simp only [UQ.scaleOther] at h1
      rw [s1] at h1; cases h1; rfl
    subst hp
    obtain ⟨z, h2, hc⟩ := bind_ok hc
    have hz := new_val h2
    have hm := method_val (op := .sub) hc
    simp only [UOperand.op, Quantity.method, hz] at hm
    refine ⟨fun _ => spec.1.1 ⟨q, s1⟩, fun v => ?_⟩
    have := ((C13_sub hw q (.quantity b.val) q2 hbd (HashSafe.of_same hw.wf hbd q2 q1.symm)).2.2 _ hm).2 v
    rw [q4 v] at this
    exact this
  · refine ⟨by simp, fun v => ?_⟩
    have hm := method_val (op := .mul) (o := .plain o) hc
    have := ((C14_mul b.val o hbd ho).2 _ hm).2.2 v
    rw [← bin_swap] at this
    simp only [BinOp.fn]
    rw [show (fun x y : K => x * y) = (fun y x => x * y) from by funext x y; ring]
    exact this
  · refine ⟨by simp, fun v => ?_⟩
    simp only [UQ.rmethod] at hc
    unfold UQ.rtruediv at hc
    obtain ⟨_, -, hc⟩ := bind_ok hc
    obtain ⟨_, -, hc⟩ := bind_ok hc
    obtain ⟨t, h1, hc⟩ := bind_ok hc
    have ht := newArray_val h1
    have hm := method_val (op := .mul) (o := .plain o) hc
    simp only [UOperand.op, Quantity.method, ht] at hm
    have := ((C14_mul _ o (hbd.pow (-1)) ho).2 _ hm).2.2 v
    rw [← bin_swap] at this
    have hsz : v.size (Dim.pow b.val.dim (-1)) = (v.size b.val.dim)⁻¹ := by
      have := dsize_pow v.pos b.val.dim (-1)
      unfold Valuation.size
      rw [this]
      have h1 := LawfulRPow.rpow_intCast (dsize v.val b.val.dim) (-1) (dsize_pos v.pos _).ne'
      rw [show ((-1 : ℤ) : ℚ) = -1 by norm_num] at h1
      rw [h1, zpow_neg_one]
    have hph : v.phys (⟨b.val.mag.map (fun x => 1 / x), Dim.pow b.val.dim (-1)⟩ : Quantity K) =
        (v.phys b.val).map (fun x => x⁻¹) := by
      unfold Valuation.phys
      simp only [NDArr.map_map, hsz]
      exact NDArr.map_congr (fun x => by rw [one_div, ← mul_inv]) _
    rw [hph] at this
    refine Eq.trans ?_ this
    unfold NDArr.bin
    simp only [BinOp.fn, NDArr.map]
    rcases NDArr.bshape (v.physOp o).shape (v.phys b.val).shape with _ | s
    · rfl
    · show Except.ok _ = Except.ok _
      congr 2
      funext i
      rw [div_eq_mul_inv, mul_comm]

/-- C143: whenever `x op y` returns for uncertain operands, the operator applied to the values alone returns too, and
the two results are the same physical value, element by element. -/
theorem C143_nominal (hw : Reachable h w) (op : BinOp) (x y r : PyVal K) (hx : x.Made w) (hy : y.Made w)
    (hs : HashSafe w x.dim y.dim) (hr : binop w op x y = .ok r) :
    ∃ s, binop w op x.nominal y.nominal = .ok s ∧ ∀ v : Valuation w, NDArr.Same (s.phys v) (r.phys v) := by
  by_cases hno : (∃ b, y = .uncertain b) → (∀ u, x ≠ .unit u) → (∀ a, x ≠ .uncertain a) → op = .mod ∨ op = .floordiv
  · exact ⟨_, nominal_exact hno hr, fun v => by rw [nominal_phys]; exact ⟨rfl, fun _ _ => rfl⟩⟩
  push Not at hno
  obtain ⟨⟨b, rfl⟩, h1, h2, h3, h4⟩ := hno
  obtain ⟨o, ho⟩ : ∃ o : Operand K, x = match o with | .quantity q => .quantity q | .array m => .array m := by
    cases x with
    | unit u => exact absurd rfl (h1 u)
    | uncertain a => exact absurd rfl (h2 a)
    | quantity q => exact ⟨.quantity q, rfl⟩
    | array m => exact ⟨.array m, rfl⟩
  have od : x.dim = o.dim := by subst ho; cases o <;> rfl
  have op' : ∀ v : Valuation w, v.physOp o = x.phys v := by
    intro v; subst ho; cases o with
    | quantity q => rfl
    | array m => exact (phys_array v m).symm
  have hop : op = .sub ∨ op = .mul ∨ op = .truediv := by
    cases op with
    | add =>
      exfalso
      have : ¬ Returns (binop w .add x (.uncertain b)) := by
        have e : binop w .add x (.uncertain b) = (b.radd w (.plain o)).map .uncertain := by
          subst ho; cases o <;> rfl
        rw [e, returns_map]
        exact (C77_plus_exact_false b o).2.1
      exact this ⟨r, hr⟩
    | sub => exact .inl rfl
    | mul => exact .inr (.inl rfl)
    | truediv => exact .inr (.inr rfl)
    | mod => exact absurd rfl h3
    | floordiv => exact absurd rfl h4
  have dx := hx.dimOK hw
  have dy := hy.dimOK hw
  have main := reflected_phys hw ho (od ▸ dx) hy (od ▸ hs) hop hr
  obtain ⟨v0⟩ := exists_valuation hw.wf
  have hret := C56_returns hw x.nominal (PyVal.uncertain b).nominal (nominal_exactly _) (nominal_exactly _)
    (by rw [nominal_dim]; exact dx) dy
  have hsh : (NDArr.bshape x.nominal.mag.shape (PyVal.uncertain b).nominal.mag.shape).isSome := by
    have := main.2 v0
    have h5 : Returns (NDArr.bin op.fn (v0.physOp o) (v0.phys b.val)) := ⟨_, this⟩
    rw [NDArr.bin_ok_iff, op'] at h5
    rw [nominal_mag]
    exact h5
  have hR : Returns (binop w op x.nominal (PyVal.uncertain b).nominal) := by
    rcases hop with rfl | rfl | rfl
    · refine (hret.1 (by rw [nominal_dim]; exact hs) .sub (.inr rfl)).2 ⟨?_, hsh⟩
      rw [nominal_dim, od]; exact main.1 rfl
    · exact (hret.2 .mul (.inl rfl)).2 hsh
    · exact (hret.2 .truediv (.inr rfl)).2 hsh
  obtain ⟨s, hsr⟩ := hR
  refine ⟨s, hsr, fun v => ?_⟩
  obtain ⟨m, m1, m2⟩ := (binop_phys hw (op := op) (by rcases hop with rfl | rfl | rfl <;> simp) (nominal_exactly _)
    (nominal_exactly (PyVal.uncertain b)) (by rw [nominal_dim]; exact dx) dy (fun _ => by rw [nominal_dim]; exact hs) hsr).2 v
  have h6 := main.2 v
  rw [op', ← nominal_phys x v] at h6
  have h7 : NDArr.bin op.fn (x.nominal.phys v) ((PyVal.uncertain b).nominal.phys v) = .ok (r.phys v) := h6
  rw [h7] at m1
  cases m1
  exact ⟨m2.1.symm, fun i hi => (m2.2 i (m2.1 ▸ hi)).symm⟩

/-- A power of an uncertain quantity has the value of the power of the value. -/
theorem C143_power (p : ℚ) (x r : PyVal K) (hr : powNum w p x = .ok r) : powNum w p x.nominal = .ok r.nominal := by
  cases x with
  | unit u =>
    have h1 := hr
    simp only [powNum] at h1
    obtain ⟨c, -, rfl⟩ := map_ok h1
    exact hr
  | quantity q =>
    have h1 := hr
    simp only [powNum] at h1
    obtain ⟨c, -, rfl⟩ := map_ok h1
    exact hr
  | array m => cases hr; rfl
  | uncertain a =>
    obtain ⟨c, hc, rfl⟩ := map_ok hr
    unfold UQ.pow at hc
    obtain ⟨q, h1, hc⟩ := bind_ok hc
    obtain ⟨_, -, hc⟩ := bind_ok hc
    obtain ⟨_, -, hc⟩ := bind_ok hc
    obtain ⟨_, -, hc⟩ := bind_ok hc
    have := setUncertainty_val hc
    simp only [PyVal.nominal, powNum, h1, this]
    rfl

/-- C85 is false for `%` and `//`: with an uncertain operand on either side and any other operand, the result is an
uncertain quantity whose uncertainty is zero, and without units, whatever it was. -/
theorem C85_false_remainder (op : BinOp) (hop : op = .mod ∨ op = .floordiv) (x y r : PyVal K)
    (hu : (∃ a, x = .uncertain a) ∨ ∃ b, y = .uncertain b) (hr : binop w op x y = .ok r) :
    ∃ c, r = .uncertain c ∧ c.unc.dim = [] ∧ c.unc.mag.shape = c.val.mag.shape ∧ ∀ i, c.unc.mag.elem i = 0 := by
  have hmu : ∀ (q : Quantity K) (b c : UQ K), q.methodUncertain w op b = .ok c →
      c.unc.dim = [] ∧ c.unc.mag.shape = c.val.mag.shape ∧ ∀ i, c.unc.mag.elem i = 0 := by
    intro q b c hc
    unfold Quantity.methodUncertain at hc
    obtain ⟨_, -, hc⟩ := bind_ok hc
    obtain ⟨_, -, hc⟩ := bind_ok hc
    cases hc
    exact ⟨rfl, rfl, fun i => rfl⟩
  have huf : ∀ (op : BinOp) (x y : Operand K) (c : UQ K), UQ.ufunc2 w op x y = .ok c →
      c.unc.dim = [] ∧ c.unc.mag.shape = c.val.mag.shape ∧ ∀ i, c.unc.mag.elem i = 0 := by
    intro op x y c hc
    unfold UQ.ufunc2 at hc
    obtain ⟨_, -, hc⟩ := bind_ok hc
    cases hc
    exact ⟨rfl, rfl, fun i => rfl⟩
  have hme : ∀ (a : UQ K) (o : UOperand K) (c : UQ K), a.method w op o = .ok c →
      c.unc.dim = [] ∧ c.unc.mag.shape = c.val.mag.shape ∧ ∀ i, c.unc.mag.elem i = 0 := by
    intro a o c hc
    rcases hop with rfl | rfl
    · simp only [UQ.method] at hc
      obtain ⟨_, -, hc⟩ := bind_ok hc
      exact huf _ _ _ _ hc
    · exact huf _ _ _ _ hc
  cases x with
  | uncertain a =>
    cases y with
    | unit t => obtain ⟨c, hc, rfl⟩ := map_ok hr; exact ⟨c, rfl, hme _ _ _ hc⟩
    | quantity q => obtain ⟨c, hc, rfl⟩ := map_ok hr; exact ⟨c, rfl, hme _ _ _ hc⟩
    | uncertain b => obtain ⟨c, hc, rfl⟩ := map_ok hr; exact ⟨c, rfl, hme _ _ _ hc⟩
    | array m => obtain ⟨c, hc, rfl⟩ := map_ok hr; exact ⟨c, rfl, hme _ _ _ hc⟩
  | unit u =>
    obtain ⟨b, rfl⟩ : ∃ b, y = .uncertain b := hu.resolve_left (by simp)
    obtain ⟨c, hc, rfl⟩ := map_ok hr
    exact ⟨c, rfl, hmu _ _ _ hc⟩
  | quantity q =>
    obtain ⟨b, rfl⟩ : ∃ b, y = .uncertain b := hu.resolve_left (by simp)
    rcases hop with rfl | rfl
    · simp only [binop, reflectsOver, Bool.false_eq_true, if_false] at hr
      obtain ⟨c, hc, rfl⟩ := map_ok hr
      exact ⟨c, rfl, hmu _ _ _ hc⟩
    · simp only [binop, reflectsOver, Bool.false_eq_true, if_false] at hr
      obtain ⟨c, hc, rfl⟩ := map_ok hr
      exact ⟨c, rfl, hmu _ _ _ hc⟩
  | array m =>
    obtain ⟨b, rfl⟩ : ∃ b, y = .uncertain b := hu.resolve_left (by simp)
    rcases hop with rfl | rfl
    · obtain ⟨c, hc, rfl⟩ := map_ok hr
      exact ⟨c, rfl, huf _ _ _ _ hc⟩
    · obtain ⟨c, hc, rfl⟩ := map_ok hr
      exact ⟨c, rfl, huf _ _ _ _ hc⟩

/-- C64: a comparison with a plain number or array on the left is the mirrored comparison of the other operand. -/
theorem C64_plain_left (op : CmpOp) (n : NDArr K) (y : PyVal K) :
    compareOp w op (.array n) y = compareOp w
      (match op with | .lt => .gt | .le => .ge | .gt => .lt | .ge => .le | .eq => .eq | .ne => .ne) y (.array n) := by
  cases y with
  | array m =>
    show NDArr.bin op.fn n m = NDArr.bin (CmpOp.fn _) m n
    rw [← bin_swap]
    congr 1
    funext y x
    cases op <;> simp [CmpOp.fn, eq_comm]
  | unit u => cases op <;> rfl
  | quantity q => cases op <;> rfl
  | uncertain a => cases op <;> rfl

end physical

/-- `2 km - UncertainQuantity(500, 'm', 50)` and `UncertainQuantity(500, 'm', 50) % pq.m` return. -/
example : (PyVal.uncertain exUM).Made exWorld ∧ (PyVal.quantity (⟨NDArr.scalar (7 : ℝ), dM⟩ : Quantity ℝ)).Made exWorld ∧
    Returns (binop exWorld .mul (.quantity ⟨NDArr.scalar (7 : ℝ), dM⟩) (.uncertain exUM)) ∧
    Returns (binop exWorld .floordiv (.uncertain exUM) (.unit uM)) := by
  refine ⟨exUM_built, ex_dimOK dM (by simp), ?_, ?_⟩
  · have : binop exWorld .mul (.quantity ⟨NDArr.scalar (7 : ℝ), dM⟩) (.uncertain exUM) =
        (exUM.mul exWorld (.plain (.quantity ⟨NDArr.scalar 7, dM⟩))).map .uncertain := rfl
    rw [this, returns_map]
    exact (C39_times_exact exWorld_reachable exUM (.quantity ⟨NDArr.scalar 7, dM⟩) exUM_built (ex_dimOK dM (by simp))).1.2 rfl
  · exact ⟨_, rfl⟩

end PQ
