import Verif.Lemmas.Twins
import Verif.Props.Dispatch
import Verif.Lemmas.ExampleHeap

/-!
# C117: programs with views and in-place operations do not depend on the units of the inputs
-/

set_option linter.unusedSectionVars false

namespace PQ

open Client NDArr Heap

variable {K : Type _} [Field K] [LinearOrder K] [IsStrictOrderedRing K] [RPow K] [LawfulRPow K] [PyFloor K]
variable {hh : Hasher} {w : World K} {h h' : Heap K} {np2 : Bool}

/-- Two outcomes of a command: the same object or the same exception, and twin states. -/
def Alike (w : World K) (r r' : Py Nat × Heap K) : Prop := r.1 = r'.1 ∧ Twin w r.2 r'.2

theorem Alike.result {i : Nat} {r r' : Option PyErr × Heap K} (h1 : r.1 = r'.1) (h2 : Twin w r.2 r'.2) :
    Alike w (Heap.result i r) (Heap.result i r') := by
  rcases r with ⟨e, g⟩
  rcases r' with ⟨e', g'⟩
  simp only at h1 h2
  subst h1
  cases e <;> exact ⟨rfl, h2⟩

/-! ## Operands -/

/-- The operands of the two runs. -/
structure OperandEq (w : World K) (x x' : Operand K) : Prop where
  left : DimOK w x.dim
  right : DimOK w x'.dim
  compatible : Compatible w x.dim x'.dim
  same : ∀ v : Valuation w, NDArr.Same (v.physOp x) (v.physOp x')
  form : (∃ q q', x = .quantity q ∧ x' = .quantity q' ∧ PhysEq w q q') ∨ ∃ a, x = .array a ∧ x' = .array a

theorem Twin.operand (t : Twin w h h') {v : Src K} (hu : h.Usable w v) :
    ∃ x x', h.src v = some x ∧ h'.src v = some x' ∧ OperandEq w x x' := by
  cases v with
  | obj j =>
    obtain ⟨o, ho, hq⟩ := hu
    obtain ⟨o', ho'⟩ := t.get ho
    have hp := t.physEq ho ho' hq
    have hq' : o'.kind.isQuantity = true := (t.kind j o o' ho ho').isQuantity ▸ hq
    refine ⟨.quantity (h.quantity o), .quantity (h'.quantity o'), ?_, ?_,
      ⟨hp.left, hp.right, hp.compatible, hp.same, .inl ⟨_, _, rfl, rfl, hp⟩⟩⟩
    · simp only [Heap.src, ho, Option.map_some, Heap.operand, hq, if_true]
    · simp only [Heap.src, ho', Option.map_some, Heap.operand, hq', if_true]
  | lit x =>
    refine ⟨x, x, rfl, rfl, ⟨hu, hu, compatible_refl w _, fun _ => NDArr.Same.refl _, ?_⟩⟩
    cases x with
    | quantity q => exact .inl ⟨q, q, rfl, rfl, PhysEq.refl hu⟩
    | array a => exact .inr ⟨a, rfl, rfl⟩

/-! ## Operators that put their result back -/

/-- A result put back into object `i`. -/
def landed (np2 : Bool) (h : Heap K) (i : Nat) (o : Obj) : Py (Quantity K) → Option PyErr × Heap K
  | .error e => (some e, h)
  | .ok r =>
    if r.mag.shape ≠ o.shape then (some .valueError, h)
    else if !o.writeable then (some .valueError, h)
    else if np2 then (none, h.store o r.mag)
    else (none, (h.store o r.mag).setDim i o r.dim)

theorem operand_isQuantity {o : Obj} (hq : o.kind.isQuantity = true) : h.operand o = .quantity (h.quantity o) := by
  simp only [Heap.operand, hq, if_true]

theorem ufuncInto_landed {f : UF2} {g : K → K → K} {i : Nat} {o : Obj} (hq : o.kind.isQuantity = true) {y : Operand K}
    {d : Dim} (hd : ufunc2Dim w f (.quantity (h.quantity o)) y = .ok d) :
    ufuncInto np2 w f g h i o y = landed np2 h i o (applyUF2 w f g (.quantity (h.quantity o)) y) := by
  unfold ufuncInto applyUF2
  rw [operand_isQuantity hq, hd]
  simp only
  show _ = landed np2 h i o (match NDArr.bin g (h.arr o) y.arr with | .error e => .error e | .ok m => .ok ⟨m, d⟩)
  rcases NDArr.bin g (h.arr o) y.arr with e | m
  · rfl
  · rfl

theorem scaleOther_deq {self : Quantity K} {x : Operand K} {q : Quantity K}
    (hq : Quantity.scaleOther w self x = .ok q) : w.deq self.dim q.dim = true := by
  rw [deq_comm]
  unfold Quantity.scaleOther at hq
  simp only at hq
  split at hq
  · exact rescale_dim_deq hq
  · rename_i hn
    cases hq
    rw [dne_eq] at hn
    simpa using hn

/-- `x op= y` puts the result of `x op y` back. -/
theorem inplace_landed (op : IOp) (hop : op = .add ∨ op = .sub ∨ op = .mod) {i : Nat} {o : Obj}
    (hk : (∃ d, o.kind = .quantity d) ∨ op = .mod ∧ ∃ u, o.kind = .unit u) (x : Operand K) :
    Heap.inplace np2 w h op i o x = landed np2 h i o (op.binary w (h.quantity o) x) := by
  have hq : o.kind.isQuantity = true := by
    rcases hk with ⟨d, hk⟩ | ⟨-, d, hk⟩ <;> rw [hk] <;> rfl
  have main : ∀ (f : UF2) (g : K → K → K), (∀ a b : Operand K, ufunc2Dim w f a b = dCheckUniform w a b) →
      (match Quantity.scaleOther w (h.quantity o) x with
        | .error e => (some e, h)
        | .ok q => ufuncInto np2 w f g h i o (.quantity q)) =
      landed np2 h i o (match Quantity.scaleOther w (h.quantity o) x with
        | .error e => .error e
        | .ok q => applyUF2 w f g (.quantity (h.quantity o)) (.quantity q)) := by
    intro f g hf
    rcases hs : Quantity.scaleOther w (h.quantity o) x with e | q
    · rfl
    · simp only
      refine ufuncInto_landed (d := (h.quantity o).dim) hq ?_
      rw [hf]
      simp only [dCheckUniform]
      rw [if_pos (scaleOther_deq hs)]
  unfold Heap.inplace
  rcases hk with ⟨d, hk⟩ | ⟨rfl, u, hk⟩
  · rcases hop with rfl | rfl | rfl <;> simp only [hk, IOp.binary]
    · exact main .add (· + ·) (fun _ _ => rfl)
    · exact main .subtract (· - ·) (fun _ _ => rfl)
    · exact main .remainder modK (fun _ _ => rfl)
  · simp only [hk, IOp.binary]
    exact main .remainder modK (fun _ _ => rfl)

theorem inplace_landed_scale (op : IOp) (hop : op = .mul ∨ op = .div) {i : Nat} {o : Obj} {d : Dim}
    (hk : o.kind = .quantity d) (x : Operand K) (hb : x.dim = [] ∨ h.baseIsQuantity o = false) :
    Heap.inplace np2 w h op i o x = landed np2 h i o (op.binary w (h.quantity o) x) := by
  have hq : o.kind.isQuantity = true := by rw [hk]; rfl
  have hg : ¬ ((!x.toQuantity.dim.isEmpty && h.baseIsQuantity o) = true) := by
    have hdim : x.toQuantity.dim = x.dim := by cases x <;> rfl
    rcases hb with hb | hb
    · rw [hdim, hb]; simp
    · rw [hb]; simp
  unfold Heap.inplace
  rcases hop with rfl | rfl <;> simp only [hk, IOp.binary] <;> rw [if_neg hg]
  · refine ufuncInto_landed (d := match x with | .quantity q => Dim.mul (h.quantity o).dim q.dim | .array _ => (h.quantity o).dim) hq ?_
    cases x <;> rfl
  · refine ufuncInto_landed (d := match x with | .quantity q => Dim.div (h.quantity o).dim q.dim | .array _ => (h.quantity o).dim) hq ?_
    cases x <;> rfl

theorem store_self {i : Nat} {o : Obj} (hW : Heap.WF h) (ho : h.objs[i]? = some o) : h.store o (h.arr o) = h := by
  have : (h.store o (h.arr o)).mem = h.mem := by
    funext a
    by_cases hc : o.Cell a
    · obtain ⟨j, hj, rfl⟩ := hc
      exact store_mem_cell h o (h.arr o) (hW.ok i o ho).inj j hj
    · exact store_mem_of_not_cell h o _ a hc
  rcases h with ⟨mem, next, objs⟩
  simp only [Heap.store] at this ⊢
  rw [this]

theorem setDim_same {i : Nat} {o : Obj} {d : Dim} (ho : h.objs[i]? = some o) (hk : o.kind = .quantity d) :
    h.setDim i o d = h := by
  have := setDim_self h i o d ho hk
  rcases h with ⟨mem, next, objs⟩
  simp only [Heap.setDim] at this ⊢
  rw [this]

/-- Putting back results that agree, when units do not change. -/
theorem landed_keep (t : Twin w h h') (hW : Heap.WF h) (hW' : Heap.WF h') (hC : h.Coherent) (hC' : h'.Coherent)
    {i : Nat} {o o' : Obj} {d d' : Dim} (ho : h.objs[i]? = some o) (ho' : h'.objs[i]? = some o')
    (hk : o.kind = .quantity d) (hk' : o'.kind = .quantity d') {res res' : Py (Quantity K)}
    (hr : Reachable hh w) (hres : OutRel (PhysEq w) res res') (hd : ∀ r, res = .ok r → r.dim = d)
    (hd' : ∀ r, res' = .ok r → r.dim = d') :
    (landed np2 h i o res).1 = (landed np2 h' i o' res').1 ∧
    Twin w (landed np2 h i o res).2 (landed np2 h' i o' res').2 := by
  have hA := t.array i o o' ho ho'
  obtain ⟨v0⟩ := exists_valuation hr.wf
  rcases res with e | r <;> rcases res' with e' | r'
  · cases hres; exact ⟨rfl, t⟩
  · exact hres.elim
  · exact hres.elim
  · have hp : PhysEq w r r' := hres
    have hsh : r.mag.shape = r'.mag.shape := (hp.same v0).1
    simp only [landed]
    rw [← hsh, ← hA.shape, ← hA.writeable]
    by_cases hs : r.mag.shape = o.shape
    swap
    · rw [if_pos hs, if_pos hs]; exact ⟨rfl, t⟩
    rw [if_neg (not_not.2 hs), if_neg (not_not.2 hs)]
    by_cases hwr : (!o.writeable) = true
    · rw [if_pos hwr, if_pos hwr]; exact ⟨rfl, t⟩
    rw [if_neg hwr, if_neg hwr]
    have hq : o.kind.isQuantity = true := by rw [hk]; rfl
    have hi := (hW.ok i o ho).inj
    have hi' := (hW'.ok i o' ho').inj
    have tw : Twin w (h.store o r.mag) (h'.store o' r'.mag) := by
      refine t.write hC hC' ho ho' hq (store_mem_of_not_cell h o r.mag)
        (fun a ha => store_mem_of_not_cell h' o' r'.mag a (fun c => ha ((hA.cell a).2 c))) ?_
      rintro a ⟨j, hj, rfl⟩ v
      have e1 := store_mem_cell h o r.mag hi j hj
      have hj' : InB o'.shape j := by rw [← hA.shape]; exact hj
      have e2 := store_mem_cell h' o' r'.mag hi' j hj'
      rw [← hA.addr] at e2
      have e3 := (hp.same v).2 j (by show InB r.mag.shape j; rw [hs]; exact hj)
      have e4 : r.mag.elem j * v.size r.dim = r'.mag.elem j * v.size r'.dim := e3
      rw [hd r rfl, hd' r' rfl] at e4
      rw [hk, hk']
      simp only [Heap.store] at e1 e2 ⊢
      rw [e1, e2]
      exact e4
    cases np2
    · rw [if_neg (by decide), if_neg (by decide), hd r rfl, hd' r' rfl]
      rw [setDim_same (h := h.store o r.mag) ho hk, setDim_same (h := h'.store o' r'.mag) ho' hk']
      exact ⟨rfl, tw⟩
    · rw [if_pos rfl, if_pos rfl]
      exact ⟨rfl, tw⟩

/-- Putting back results that agree into an object that shares its memory with no other quantity. -/
theorem landed_change (t : Twin w h h') (hW : Heap.WF h)
    {i : Nat} {o o' : Obj} (ho : h.objs[i]? = some o) (ho' : h'.objs[i]? = some o')
    (hu : h.Unshared i) {res res' : Py (Quantity K)}
    (hr : Reachable hh w) (hres : OutRel (PhysEq w) res res') :
    (landed false h i o res).1 = (landed false h' i o' res').1 ∧
    Twin w (landed false h i o res).2 (landed false h' i o' res').2 := by
  have hA := t.array i o o' ho ho'
  obtain ⟨v0⟩ := exists_valuation hr.wf
  rcases res with e | r <;> rcases res' with e' | r'
  · cases hres; exact ⟨rfl, t⟩
  · exact hres.elim
  · exact hres.elim
  · have hp : PhysEq w r r' := hres
    have hsh : r.mag.shape = r'.mag.shape := (hp.same v0).1
    simp only [landed]
    rw [← hsh, ← hA.shape, ← hA.writeable]
    by_cases hs : r.mag.shape = o.shape
    swap
    · rw [if_pos hs, if_pos hs]; exact ⟨rfl, t⟩
    rw [if_neg (not_not.2 hs), if_neg (not_not.2 hs)]
    by_cases hwr : (!o.writeable) = true
    · rw [if_pos hwr, if_pos hwr]; exact ⟨rfl, t⟩
    rw [if_neg hwr, if_neg hwr, if_neg (by decide), if_neg (by decide)]
    exact ⟨rfl, t.rewrite ho ho' hu (hW.ok i o ho).inj hp hs⟩

/-- Nothing is put back into read-only memory. -/
theorem landed_readonly (hr : Reachable hh w) {i : Nat} {o o' : Obj} (hA : SameLayout o o') (hro : o.writeable = false)
    {res res' : Py (Quantity K)} (hres : OutRel (PhysEq w) res res') (t : Twin w h h') :
    (landed np2 h i o res).1 = (landed np2 h' i o' res').1 ∧
    Twin w (landed np2 h i o res).2 (landed np2 h' i o' res').2 := by
  obtain ⟨v0⟩ := exists_valuation hr.wf
  rcases res with e | r <;> rcases res' with e' | r'
  · cases hres; exact ⟨rfl, t⟩
  · exact hres.elim
  · exact hres.elim
  · have hp : PhysEq w r r' := hres
    have hsh : r.mag.shape = r'.mag.shape := (hp.same v0).1
    simp only [landed]
    rw [← hsh, ← hA.shape, ← hA.writeable, hro]
    by_cases hs : r.mag.shape = o.shape
    · rw [if_neg (not_not.2 hs), if_neg (not_not.2 hs)]; exact ⟨rfl, t⟩
    · rw [if_pos hs, if_pos hs]; exact ⟨rfl, t⟩

/-! ## The binary operators -/

/-- The operator as one of those of C100. -/
def IOp.arith : IOp → Option Arith
  | .add => some .add
  | .sub => some .sub
  | .mod => some .mod
  | .mul => some .mul
  | .div => some .div
  | .floordiv => none

theorem binary_ap {op : IOp} {a : Arith} (ha : op.arith = some a) (q : Quantity K) (x : Operand K) :
    op.binary w q x = a.ap w q x := by
  cases op <;> cases ha <;> rfl

theorem binary_dim_keep (op : IOp) (hop : op = .add ∨ op = .sub ∨ op = .mod) {q r : Quantity K} {x : Operand K}
    (hr : op.binary w q x = .ok r) : r.dim = q.dim := by
  have main : ∀ (f : UF2) (g : K → K → K), (∀ a b : Operand K, ufunc2Dim w f a b = dCheckUniform w a b) →
      ((match Quantity.scaleOther w q x with
        | .error e => .error e
        | .ok y => applyUF2 w f g (.quantity q) (.quantity y)) : Py (Quantity K)) = .ok r → r.dim = q.dim := by
    intro f g hf he
    rcases hs : Quantity.scaleOther w q x with e | y <;> rw [hs] at he
    · cases he
    · simp only [applyUF2] at he
      rw [hf] at he
      rcases hd : dCheckUniform w (.quantity q) (.quantity y) with e | d <;> rw [hd] at he
      · cases he
      · simp only at he
        rw [checkUniform_first hd] at he
        split at he <;> cases he
        rfl
  rcases hop with rfl | rfl | rfl <;> simp only [IOp.binary] at hr
  · exact main .add (· + ·) (fun _ _ => rfl) hr
  · exact main .subtract (· - ·) (fun _ _ => rfl) hr
  · exact main .remainder modK (fun _ _ => rfl) hr

theorem binary_dim_scale (op : IOp) (hop : op = .mul ∨ op = .div) {q r : Quantity K} {x : Operand K}
    (hx : x.dim = []) (hr : op.binary w q x = .ok r) : r.dim = q.dim := by
  have main : ∀ (f : UF2) (g : K → K → K), ufunc2Dim w f (.quantity q) x = .ok q.dim →
      applyUF2 w f g (.quantity q) x = .ok r → r.dim = q.dim := by
    intro f g hf he
    simp only [applyUF2, hf] at he
    split at he <;> cases he
    rfl
  rcases hop with rfl | rfl <;> simp only [IOp.binary] at hr
  · refine main .multiply (· * ·) ?_ hr
    cases x with
    | quantity y => simp only [Operand.dim] at hx; simp [ufunc2Dim, dMultiply, hx, Dim.mul]
    | array a => rfl
  · refine main .trueDivide (· / ·) ?_ hr
    cases x with
    | quantity y => simp only [Operand.dim] at hx; simp [ufunc2Dim, dDivide, hx, Dim.div]
    | array a => rfl

theorem inplace_step (hr : Reachable hh w) (t : Twin w h h') (hW : Heap.WF h) (hW' : Heap.WF h') (hC : h.Coherent)
    (hC' : h'.Coherent) (op : IOp) (i : Nat) (v : Src K) (hp : (Cmd.inplace op i v).Plain np2 w h)
    (hp' : (Cmd.inplace op i v).Plain np2 w h') :
    Alike w (h.run np2 w (.inplace op i v)) (h'.run np2 w (.inplace op i v)) := by
  obtain ⟨⟨o, ho, hq⟩, hu, hn, hop⟩ := hp
  obtain ⟨⟨o', ho', hq'⟩, hu', hn', hop'⟩ := hp'
  obtain ⟨x, x', hx, hx', hxx⟩ := t.operand hu
  have hqq := t.physEq ho ho' hq
  have hA := t.array i o o' ho ho'
  have hK := t.kind i o o' ho ho'
  simp only [Heap.run, ho, ho', hx, hx']
  have hs := hn o x ho hx
  have hs' := hn' o' x' ho' hx'
  have hres : ∀ a, op.arith = some a → OutRel (PhysEq w) (op.binary w (h.quantity o) x) (op.binary w (h'.quantity o') x') := by
    intro a ha
    rw [binary_ap ha, binary_ap ha]
    exact ap_rel hr a hqq hxx.left hxx.right hxx.compatible hxx.same hs hs'
  have sums : (op = .add ∨ op = .sub ∨ op = .mod) →
      Alike w (Heap.result i (Heap.inplace np2 w h op i o x)) (Heap.result i (Heap.inplace np2 w h' op i o' x')) := by
    intro ho3
    have hres' : OutRel (PhysEq w) (op.binary w (h.quantity o) x) (op.binary w (h'.quantity o') x') := by
      rcases ho3 with rfl | rfl | rfl
      · exact hres .add rfl
      · exact hres .sub rfl
      · exact hres .mod rfl
    generalize ek : o.kind = k at hK
    generalize ek' : o'.kind = k' at hK
    cases hK with
    | plain => rw [ek] at hq; cases hq
    | @unit u hu =>
      by_cases hm : op = .mod
      · rw [inplace_landed op ho3 (.inr ⟨hm, u, ek⟩), inplace_landed op ho3 (.inr ⟨hm, u, ek'⟩)]
        obtain ⟨e1, e2⟩ := landed_readonly (np2 := np2) (i := i) hr hA (hW.unit_readonly ho ek) hres' t
        exact Alike.result e1 e2
      · have : op = .add ∨ op = .sub := by rcases ho3 with h | h | h; exacts [.inl h, .inr h, absurd h hm]
        have e1 : Heap.inplace np2 w h op i o x = (some .typeError, h) := by
          unfold Heap.inplace; rcases this with rfl | rfl <;> simp only [ek]
        have e2 : Heap.inplace np2 w h' op i o' x' = (some .typeError, h') := by
          unfold Heap.inplace; rcases this with rfl | rfl <;> simp only [ek']
        rw [e1, e2]
        exact ⟨rfl, t⟩
    | @quantity d d' hd hd' hc =>
      rw [inplace_landed op ho3 (.inl ⟨d, ek⟩), inplace_landed op ho3 (.inl ⟨d', ek'⟩)]
      obtain ⟨e1, e2⟩ := landed_keep (np2 := np2) t hW hW' hC hC' ho ho' ek ek' hr hres'
        (fun r he => by rw [binary_dim_keep op ho3 he]; simp [Heap.quantity, ek, AKind.dim])
        (fun r he => by rw [binary_dim_keep op ho3 he]; simp [Heap.quantity, ek', AKind.dim])
      exact Alike.result e1 e2
  have prods : (op = .mul ∨ op = .div) → ((∀ x, h.src v = some x → x.dim = []) ∨
        np2 = false ∧ h.Unshared i ∧ ¬ h.ViewOfQuantity i) → ((∀ x, h'.src v = some x → x.dim = []) ∨
        np2 = false ∧ h'.Unshared i ∧ ¬ h'.ViewOfQuantity i) →
      Alike w (Heap.result i (Heap.inplace np2 w h op i o x)) (Heap.result i (Heap.inplace np2 w h' op i o' x')) := by
    intro ho2 c c'
    have hres' : OutRel (PhysEq w) (op.binary w (h.quantity o) x) (op.binary w (h'.quantity o') x') := by
      rcases ho2 with rfl | rfl
      · exact hres .mul rfl
      · exact hres .div rfl
    generalize ek : o.kind = k at hK
    generalize ek' : o'.kind = k' at hK
    cases hK with
    | plain => rw [ek] at hq; cases hq
    | @unit u hu =>
      have e1 : Heap.inplace np2 w h op i o x = (some .typeError, h) := by
        unfold Heap.inplace; rcases ho2 with rfl | rfl <;> simp only [ek]
      have e2 : Heap.inplace np2 w h' op i o' x' = (some .typeError, h') := by
        unfold Heap.inplace; rcases ho2 with rfl | rfl <;> simp only [ek']
      rw [e1, e2]
      exact ⟨rfl, t⟩
    | @quantity d d' hd hd' hc =>
      have hb := t.baseIsQuantity hA
      have nov : ¬ h.ViewOfQuantity i → h.baseIsQuantity o = false := fun hv => by
        rw [Bool.eq_false_iff]
        intro hb
        obtain ⟨b, ob, h2, h3, h4⟩ := baseIsQuantity_spec hb
        exact hv ⟨o, b, ob, ho, h2, h3, h4⟩
      have nov' : ¬ h'.ViewOfQuantity i → h'.baseIsQuantity o' = false := fun hv => by
        rw [Bool.eq_false_iff]
        intro hb
        obtain ⟨b, ob, h2, h3, h4⟩ := baseIsQuantity_spec hb
        exact hv ⟨o', b, ob, ho', h2, h3, h4⟩
      have change : np2 = false → h.Unshared i → h.baseIsQuantity o = false →
          Alike w (Heap.result i (Heap.inplace np2 w h op i o x)) (Heap.result i (Heap.inplace np2 w h' op i o' x')) := by
        intro en hun hbq
        subst en
        rw [inplace_landed_scale op ho2 ek x (.inr hbq), inplace_landed_scale op ho2 ek' x' (.inr (hb ▸ hbq))]
        obtain ⟨e1, e2⟩ := landed_change t hW ho ho' hun hr hres'
        exact Alike.result e1 e2
      rcases c with c | ⟨c1, c2, c3⟩
      · rcases c' with c' | ⟨c1, c2, c3⟩
        · rw [inplace_landed_scale op ho2 ek x (.inl (c x hx)), inplace_landed_scale op ho2 ek' x' (.inl (c' x' hx'))]
          obtain ⟨e1, e2⟩ := landed_keep (np2 := np2) t hW hW' hC hC' ho ho' ek ek' hr hres'
            (fun r he => by rw [binary_dim_scale op ho2 (c x hx) he]; simp [Heap.quantity, ek, AKind.dim])
            (fun r he => by rw [binary_dim_scale op ho2 (c' x' hx') he]; simp [Heap.quantity, ek', AKind.dim])
          exact Alike.result e1 e2
        · refine change c1 ?_ (hb.trans (nov' c3))
          intro j p q hj hp1 hp2 hq2
          obtain ⟨q', hq3⟩ := t.get hp2
          obtain ⟨p', hp3⟩ := t.get hp1
          exact ((t.array i p p' hp1 hp3).apart (t.array j q q' hp2 hq3)).2
            (c2 j p' q' hj hp3 hq3 ((t.kind j q q' hp2 hq3).isQuantity ▸ hq2))
      · exact change c1 c2 (nov c3)
  cases op with
  | add => exact sums (.inl rfl)
  | sub => exact sums (.inr (.inl rfl))
  | mod => exact sums (.inr (.inr rfl))
  | mul => exact prods (.inl rfl) hop hop'
  | div => exact prods (.inr rfl) hop hop'
  | floordiv => exact hop.elim

/-! ## Item assignment -/

theorem assigned_eq (q : Quantity K) (x : Operand K) :
    assigned w q.dim x = (Quantity.scaleOther w q x).map (fun r => r.mag) := by
  unfold assigned Quantity.scaleOther
  simp only
  rw [show w.dne q.dim x.toQuantity.dim = w.dne x.toQuantity.dim q.dim by rw [dne_eq, dne_eq, deq_comm]]
  split
  · rcases x.toQuantity.rescale w q.dim with e | r <;> rfl
  · rfl

/-- The values stored by item assignment agree. -/
theorem assigned_rel (hr : Reachable hh w) {q q' : Quantity K} {x x' : Operand K} (hq : PhysEq w q q')
    (hx : OperandEq w x x') (hs : HashSafe w x.dim q.dim) (hs' : HashSafe w x'.dim q'.dim) :
    OutRel (fun m m' => PhysEq w ⟨m, q.dim⟩ ⟨m', q'.dim⟩) (assigned w q.dim x) (assigned w q'.dim x') := by
  obtain ⟨a1, a2, a3⟩ := scaleOther_spec hr.wf hq.left hx.left hs
  obtain ⟨b1, b2, b3⟩ := scaleOther_spec hr.wf hq.right hx.right hs'
  have hcc : Compatible w x.dim q.dim ↔ Compatible w x'.dim q'.dim := compatible_congr hr hx.compatible hq.compatible
  have e1 := assigned_eq (w := w) q x
  have e2 := assigned_eq (w := w) q' x'
  rcases h1 : assigned w q.dim x with e | m <;> rcases h2 : assigned w q'.dim x' with e' | m'
  · rw [h1] at e1; rw [h2] at e2
    rcases h3 : Quantity.scaleOther w q x with f | r <;> rw [h3] at e1
    · rcases h4 : Quantity.scaleOther w q' x' with f' | r' <;> rw [h4] at e2
      · cases e1; cases e2
        show e = e'
        rw [a2 e h3, b2 e' h4]
      · cases e2
    · cases e1
  · rw [h1] at e1; rw [h2] at e2
    rcases h3 : Quantity.scaleOther w q x with f | r <;> rw [h3] at e1
    · rcases h4 : Quantity.scaleOther w q' x' with f' | r' <;> rw [h4] at e2
      · cases e2
      · obtain ⟨y, hy⟩ := a1.2 (hcc.2 (b1.1 ⟨r', h4⟩))
        rw [h3] at hy; cases hy
    · cases e1
  · rw [h1] at e1; rw [h2] at e2
    rcases h3 : Quantity.scaleOther w q x with f | r <;> rw [h3] at e1
    · cases e1
    · rcases h4 : Quantity.scaleOther w q' x' with f' | r' <;> rw [h4] at e2
      · obtain ⟨y, hy⟩ := b1.2 (hcc.1 (a1.1 ⟨r, h3⟩))
        rw [h4] at hy; cases hy
      · cases e2
  · refine ⟨hq.left, hq.right, hq.compatible, fun v => ?_⟩
    have f1 := assigned_phys hr hq.left hx.left hs h1 v
    have f2 := assigned_phys hr hq.right hx.right hs' h2 v
    show NDArr.Same (m.map (fun y => y * v.size q.dim)) (m'.map (fun y => y * v.size q'.dim))
    rw [f1, f2]
    exact hx.same v

theorem dropOnes_inb (n : Nat) : ∀ s : List Nat,
    List.Forall₂ (· < ·) (List.replicate (dropOnes n s) 0) (s.take (dropOnes n s))
  | [] => by simp [dropOnes]
  | d :: t => by
    unfold dropOnes
    split
    · split
      · rename_i h1 h2
        subst h2
        rw [List.replicate_succ, List.take_succ_cons]
        exact .cons (by decide) (dropOnes_inb n t)
      · simp
    · simp

theorem castTo_same (s : List Nat) {a b : NDArr K} (hab : NDArr.Same a b) : OutRel NDArr.Same (castTo s a) (castTo s b) := by
  unfold castTo
  simp only
  rw [← hab.1]
  by_cases hb : bshape (a.shape.drop (dropOnes s.length a.shape)) s = some s
  · rw [if_pos hb, if_pos hb]
    refine ⟨rfl, fun j hj => hab.2 _ ?_⟩
    have h1 := NDArr.bidx_inb hb hj
    have h2 := dropOnes_inb s.length a.shape
    have h3 := List.take_append_drop (dropOnes s.length a.shape) a.shape
    have h4 := List.rel_append h2 h1
    simp only [h3] at h4
    exact h4
  · rw [if_neg hb, if_neg hb]
    rfl

theorem castTo_rel (hr : Reachable hh w) (s : List Nat) {q q' : Quantity K} (hq : PhysEq w q q')
    : OutRel (fun m m' => m.shape = s ∧ m'.shape = s ∧ ∀ j, InB s j → ∀ v : Valuation w, m.elem j * v.size q.dim = m'.elem j * v.size q'.dim)
      (castTo s q.mag) (castTo s q'.mag) := by
  obtain ⟨v0⟩ := exists_valuation hr.wf
  have hsh : q.mag.shape = q'.mag.shape := (hq.same v0).1
  have g1 := fun v : Valuation w => castTo_map s q.mag (fun y => y * v.size q.dim)
  have g2 := fun v : Valuation w => castTo_map s q'.mag (fun y => y * v.size q'.dim)
  have key : ∀ v : Valuation w, OutRel NDArr.Same (castTo s (v.phys q)) (castTo s (v.phys q')) := by
    intro v
    exact castTo_same s (hq.same v)
  have hshape : ∀ (a m : NDArr K), castTo s a = .ok m → m.shape = s := by
    intro a m hm
    unfold castTo at hm
    simp only at hm
    split at hm <;> cases hm
    rfl
  have k0 := key v0
  unfold Valuation.phys at k0
  rw [g1 v0, g2 v0] at k0
  rcases h1 : castTo s q.mag with e | m <;> rcases h2 : castTo s q'.mag with e' | m' <;> rw [h1, h2] at k0
  · exact k0
  · exact k0.elim
  · exact k0.elim
  · refine ⟨hshape _ _ h1, hshape _ _ h2, fun j hj v => ?_⟩
    have kv := key v
    unfold Valuation.phys at kv
    rw [g1 v, g2 v, h1, h2] at kv
    exact kv.2 j (by show InB m.shape j; rw [hshape _ _ h1]; exact hj)

theorem setitem_step (hr : Reachable hh w) (t : Twin w h h') (hC : h.Coherent)
    (hC' : h'.Coherent) (i : Nat) (k : Key) (v : Src K) (hp : (Cmd.setitem i k v).Plain np2 w h)
    (hp' : (Cmd.setitem i k v).Plain np2 w h') :
    Alike w (h.run np2 w (.setitem i k v)) (h'.run np2 w (.setitem i k v)) := by
  obtain ⟨⟨o, ho, hq⟩, hks, hu, hn⟩ := hp
  obtain ⟨⟨o', ho', hq'⟩, -, hu', hn'⟩ := hp'
  obtain ⟨x, x', hx, hx', hxx⟩ := t.operand hu
  have hqq := t.physEq ho ho' hq
  have hA := t.array i o o' ho ho'
  simp only [Heap.run, ho, ho', hx, hx', hq, hq', if_true]
  have hrel := assigned_rel hr hqq hxx (hn o x ho hx) (hn' o' x' ho' hx')
  have d1 : (h.quantity o).dim = o.kind.dim := rfl
  have d2 : (h'.quantity o').dim = o'.kind.dim := rfl
  rw [d1, d2] at hrel
  suffices hsuff : (h.setitem w o k x).1 = (h'.setitem w o' k x').1 ∧ Twin w (h.setitem w o k x).2 (h'.setitem w o' k x').2 from
    Alike.result hsuff.1 hsuff.2
  unfold Heap.setitem
  rcases h1 : assigned w o.kind.dim x with e | m <;> rcases h2 : assigned w o'.kind.dim x' with e' | m' <;>
    rw [h1, h2] at hrel
  · cases hrel; exact ⟨rfl, t⟩
  · exact hrel.elim
  · exact hrel.elim
  · simp only [Heap.assign]
    rw [← hA.writeable, ← hA.shape]
    by_cases hwr : (!o.writeable) = true
    · rw [if_pos hwr, if_pos hwr]; exact ⟨rfl, t⟩
    rw [if_neg hwr, if_neg hwr]
    rcases hk : k o.shape with e | ⟨s, sel⟩
    · exact ⟨rfl, t⟩
    · simp only
      have hcast := castTo_rel hr s hrel
      rcases h3 : castTo s m with e | c <;> rcases h4 : castTo s m' with e' | c'
      · simp only [h3, h4] at hcast; cases hcast; exact ⟨rfl, t⟩
      · simp only [h3, h4] at hcast; exact hcast.elim
      · simp only [h3, h4] at hcast; exact hcast.elim
      · simp only [h3, h4] at hcast
        obtain ⟨c1, c2, c3⟩ := hcast
        refine ⟨rfl, ?_⟩
        refine t.write hC hC' ho ho' hq
          (fun a ha => storeSel_mem_of_not h o s sel c a (fun j hj e => ha ⟨sel j, hks _ _ _ hk j hj, e⟩))
          (fun a ha => storeSel_mem_of_not h' o' s sel c' a (fun j hj e => ha ⟨sel j, hks _ _ _ hk j hj, by rw [hA.addr]; exact e⟩)) ?_
        intro a ha v
        rw [← hA.addr]
        refine foldl_update_rel (fun a => o.Cell a) (fun i => o.addr (sel i)) c.elem c'.elem
          (fun y y' => y * v.size o.kind.dim = y' * v.size o'.kind.dim) _ _ _ ?_ ?_ a ha
        · rintro b ⟨j, hj, rfl⟩
          have := t.cell ho ho' hq j hj v
          rw [← hA.addr] at this
          exact this
        · intro j hj
          exact c3 j (mem_indices.1 hj) v

theorem put_step (hr : Reachable hh w) (t : Twin w h h') (hC : h.Coherent)
    (hC' : h'.Coherent) (i : Nat) (js : List Int) (v : Src K) (hp : (Cmd.put i js v).Plain np2 w h)
    (hp' : (Cmd.put i js v).Plain np2 w h') :
    Alike w (h.run np2 w (.put i js v)) (h'.run np2 w (.put i js v)) := by
  obtain ⟨⟨o, ho, hq⟩, hu, hn⟩ := hp
  obtain ⟨⟨o', ho', hq'⟩, hu', hn'⟩ := hp'
  obtain ⟨x, x', hx, hx', hxx⟩ := t.operand hu
  have hqq := t.physEq ho ho' hq
  have hA := t.array i o o' ho ho'
  simp only [Heap.run, ho, ho', hx, hx', hq, hq', if_true]
  have hrel := assigned_rel hr hqq hxx (hn o x ho hx) (hn' o' x' ho' hx')
  have d1 : (h.quantity o).dim = o.kind.dim := rfl
  have d2 : (h'.quantity o').dim = o'.kind.dim := rfl
  rw [d1, d2] at hrel
  suffices hsuff : (h.put w o js x).1 = (h'.put w o' js x').1 ∧ Twin w (h.put w o js x).2 (h'.put w o' js x').2 from
    Alike.result hsuff.1 hsuff.2
  unfold Heap.put
  rcases h1 : assigned w o.kind.dim x with e | m <;> rcases h2 : assigned w o'.kind.dim x' with e' | m' <;>
    rw [h1, h2] at hrel
  · cases hrel; exact ⟨rfl, t⟩
  · exact hrel.elim
  · exact hrel.elim
  · simp only
    rw [← hA.writeable]
    by_cases hwr : (!o.writeable) = true
    · rw [if_pos hwr, if_pos hwr]; exact ⟨rfl, t⟩
    rw [if_neg hwr, if_neg hwr]
    have hp : PhysEq w ⟨m, o.kind.dim⟩ ⟨m', o'.kind.dim⟩ := hrel
    have hl : List.Forall₂ (fun y y' => ∀ v : Valuation w, y * v.size o.kind.dim = y' * v.size o'.kind.dim) m.toList m'.toList := by
      have hsh : m.shape = m'.shape := by
        obtain ⟨v0⟩ := exists_valuation hr.wf
        exact (hp.same v0).1
      unfold NDArr.toList
      rw [← hsh, List.forall₂_map_left_iff, List.forall₂_map_right_iff, List.forall₂_same]
      intro j hj v
      exact (hp.same v).2 j (mem_indices.1 hj)
    obtain ⟨e1, e2⟩ := putLoop_rel o o' hA.shape hA.addr _ _ _ hl js 0 h.mem h'.mem (by
      rintro a ⟨j, hj, rfl⟩ v
      have := t.cell ho ho' hq j hj v
      rw [← hA.addr] at this
      exact this)
    refine ⟨e1, ?_⟩
    exact t.write hC hC' ho ho' hq (putLoop_mem o _ js 0 h.mem)
      (fun a ha => putLoop_mem o' _ js 0 h'.mem a (fun c => ha ((hA.cell a).2 c))) e2

/-! ## `fill`, `**=`, `units =`, `out=` -/

theorem fill_step (hr : Reachable hh w) (t : Twin w h h') (hW : Heap.WF h) (i : Nat) (v : Src K)
    (hp : (Cmd.fill i v).Plain np2 w h) :
    Alike w (h.run np2 w (.fill i v)) (h'.run np2 w (.fill i v)) := by
  obtain ⟨⟨o, ho, hq⟩, hu, hun, y, hy⟩ := hp
  obtain ⟨o', ho'⟩ := t.get ho
  obtain ⟨x, x', hx, hx', hxx⟩ := t.operand hu
  have hA := t.array i o o' ho ho'
  have hK := t.kind i o o' ho ho'
  have hq' : o'.kind.isQuantity = true := hK.isQuantity ▸ hq
  obtain ⟨v0⟩ := exists_valuation hr.wf
  rw [hy] at hx; cases hx
  rcases hxx.form with ⟨q, q', e1, e2, hqq⟩ | ⟨a, e1, -⟩
  swap
  · cases e1
  cases e1; subst e2
  simp only [Heap.run, ho, ho', hy, hx', hq, hq', if_true]
  suffices hsuff : (h.fill i o (.quantity y)).1 = (h'.fill i o' (.quantity q')).1 ∧
      Twin w (h.fill i o (.quantity y)).2 (h'.fill i o' (.quantity q')).2 from Alike.result hsuff.1 hsuff.2
  have hl : ∀ v : Valuation w, y.mag.toList.map (fun z => z * v.size y.dim) = q'.mag.toList.map (fun z => z * v.size q'.dim) := by
    intro v
    have := toList_congr (hqq.same v)
    unfold Valuation.phys at this
    rwa [toList_map, toList_map] at this
  unfold Heap.fill
  simp only [Operand.arr]
  rcases h1 : y.mag.toList with _ | ⟨c, _ | ⟨c2, cs⟩⟩ <;> rcases h2 : q'.mag.toList with _ | ⟨c', _ | ⟨c2', cs'⟩⟩
  all_goals try (have := hl v0; rw [h1, h2] at this; simp at this; done)
  · exact ⟨rfl, t⟩
  · simp only
    rw [← hA.writeable]
    by_cases hwr : (!o.writeable) = true
    · rw [if_pos hwr, if_pos hwr]; exact ⟨rfl, t⟩
    rw [if_neg hwr, if_neg hwr]
    generalize ek : o.kind = k at hK
    generalize ek' : o'.kind = k' at hK
    cases hK with
    | plain => rw [ek] at hq; cases hq
    | @unit u hu => rw [hW.unit_readonly ho ek] at hwr; exact absurd rfl hwr
    | @quantity d d' hd hd' hc =>
      simp only
      have hpe : PhysEq w ⟨⟨o.shape, fun _ => c⟩, y.dim⟩ ⟨⟨o'.shape, fun _ => c'⟩, q'.dim⟩ := by
        refine ⟨hqq.left, hqq.right, hqq.compatible, fun v => ⟨hA.shape, fun j _ => ?_⟩⟩
        have := hl v
        rw [h1, h2] at this
        simp only [List.map_cons, List.map_nil, List.cons.injEq, and_true] at this
        exact this
      exact ⟨trivial, t.rewrite ho ho' hun (hW.ok i o ho).inj hpe rfl⟩
  · exact ⟨rfl, t⟩

theorem pow_rel' (hr : Reachable hh w) {x x' : Quantity K} (e : ExpArg) (hx : PhysEq w x x')
    (hp : ∀ p, NDArr.All (fun y => y = p) e.vals → LiteralPow x.mag p)
    (hp' : ∀ p, NDArr.All (fun y => y = p) e.vals → LiteralPow x'.mag p) : OutRel (PhysEq w) (x.pow e) (x'.pow e) := by
  obtain ⟨v0⟩ := exists_valuation hr.wf
  have hsh : x.mag.shape = x'.mag.shape := (hx.same v0).1
  have hshape : (∃ err, x.pow e = .error err ∧ x'.pow e = .error err) ∨ (∃ r r', x.pow e = .ok r ∧ x'.pow e = .ok r') := by
    unfold Quantity.pow
    split
    · exact .inl ⟨_, rfl, rfl⟩
    · rename_i hd
      rcases hu : uniformExp e.vals with err | p
      · exact .inl ⟨_, rfl, rfl⟩
      · simp only [dPower, hd, hu, Bool.false_eq_true, if_false]
        have hb : ∀ (a : NDArr K), NDArr.bin (fun x p => rpow x p) a e.vals =
            match bshape a.shape e.vals.shape with
            | some s => .ok ⟨s, fun i => rpow (a.elem (bidx a.shape i)) (e.vals.elem (bidx e.vals.shape i))⟩
            | none => .error .valueError := fun a => rfl
        rw [hb, hb, ← hsh]
        rcases bshape x.mag.shape e.vals.shape with _ | s
        · exact .inl ⟨_, rfl, rfl⟩
        · exact .inr ⟨_, _, rfl, rfl⟩
  rcases hshape with ⟨err, h1, h2⟩ | ⟨r, r', h1, h2⟩
  · rw [h1, h2]; rfl
  · rw [h1, h2]
    obtain ⟨p, a1, -, a3, a4, a5⟩ := C15_pow x r e hx.left h1
    obtain ⟨p', b1, -, b3, b4, b5⟩ := C15_pow x' r' e hx.right h2
    have c1 : Compatible w r.dim (Dim.pow x.dim p) := compatible_of_same a3.canon.nodup (hx.left.pow p).canon.nodup
      (Canon.sameContent a3.canon (hx.left.pow p).canon (fun u => by rw [a4, expo_pow]))
    have hpp : p = p' := by
      unfold Quantity.pow at h1
      split at h1
      · cases h1
      · rcases hu : uniformExp e.vals with err | p0
        · rw [hu] at h1; cases h1
        · unfold uniformExp at hu
          rcases hl : e.vals.toList with _ | ⟨z, zs⟩
          · rw [hl] at hu; cases hu
          · have hz : z ∈ e.vals.toList := by rw [hl]; exact List.mem_cons_self ..
            rw [← all_iff_toList.1 a1 z hz, ← all_iff_toList.1 b1 z hz]
    subst hpp
    have c2 : Compatible w r'.dim (Dim.pow x'.dim p) := compatible_of_same b3.canon.nodup (hx.right.pow p).canon.nodup
      (Canon.sameContent b3.canon (hx.right.pow p).canon (fun u => by rw [b4, expo_pow]))
    refine ⟨a3, b3, compatible_trans c1 (compatible_trans (compatible_pow hr hx.compatible p) (compatible_symm hr.wf c2)), fun v => ?_⟩
    obtain ⟨m, hm, hms⟩ := a5 (hp p a1) v
    obtain ⟨m', hm', hms'⟩ := b5 (hp' p b1) v
    have := bin_rel (fun x q => rpow x q) (hx.same v) (NDArr.Same.refl e.vals)
    rw [hm, hm'] at this
    exact hms.symm.trans (NDArr.Same.trans this hms')

theorem ipow_step (hr : Reachable hh w) (t : Twin w h h') (hW : Heap.WF h) (hW' : Heap.WF h') (hC : h.Coherent)
    (hC' : h'.Coherent) (i : Nat) (e : ExpArg)
    (hp : (Cmd.ipow (K := K) i e).Plain np2 w h) (hp' : (Cmd.ipow (K := K) i e).Plain np2 w h') :
    Alike w (h.run np2 w (.ipow i e)) (h'.run np2 w (.ipow i e)) := by
  obtain ⟨⟨o, ho, hq⟩, hn, hun, hl⟩ := hp
  obtain ⟨⟨o', ho', hq'⟩, -, -, hl'⟩ := hp'
  subst hn
  have hA := t.array i o o' ho ho'
  have hK := t.kind i o o' ho ho'
  have hqq := t.physEq ho ho' hq
  simp only [Heap.run, ho, ho']
  suffices hsuff : (h.ipow false i o e).1 = (h'.ipow false i o' e).1 ∧
      Twin w (h.ipow false i o e).2 (h'.ipow false i o' e).2 from Alike.result hsuff.1 hsuff.2
  have hb := t.baseIsQuantity hA
  have form : ∀ (g : Heap K) (oo : Obj) (dd : Dim) (p : ℚ), oo.kind = .quantity dd → ¬ hasDims e.dim = true →
      uniformExp e.vals = .ok p → ¬ e.vals.toList.length ≠ 1 → ¬ (p ≠ 1 ∧ g.baseIsQuantity oo = true) →
      g.ipow false i oo e = landed false g i oo ((g.quantity oo).pow e) := by
    intro g oo dd p hkk h1 hu h2 h3
    have hpow : (g.quantity oo).pow e = match NDArr.bin (fun x q => rpow x q) (g.arr oo) e.vals with
        | .error err => .error err
        | .ok m => .ok ⟨m, Dim.pow dd p⟩ := by
      unfold Quantity.pow
      rw [if_neg h1]
      simp only [hu, dPower, h1, Bool.false_eq_true, if_false]
      simp only [Heap.quantity, hkk, AKind.dim]
      rcases NDArr.bin (fun x q => rpow x q) (g.arr oo) e.vals with err | m <;> rfl
    rw [hpow]
    unfold Heap.ipow
    simp only [hkk]
    rw [if_neg h1]
    simp only [hu]
    rw [if_neg h2, if_neg h3]
    rcases NDArr.bin (fun x q => rpow x q) (g.arr oo) e.vals with err | m <;> rfl
  generalize ek : o.kind = k at hK
  generalize ek' : o'.kind = k' at hK
  cases hK with
  | plain => rw [ek] at hq; cases hq
  | @unit u hu =>
    unfold Heap.ipow
    simp only [ek, ek']
    exact ⟨trivial, t⟩
  | @quantity d d' hd hd' hc =>
    have early : ∀ (g : Heap K) (oo : Obj) (dd : Dim), oo.kind = .quantity dd →
        (hasDims e.dim = true → g.ipow false i oo e = (some .valueError, g)) ∧
        (∀ err, ¬ hasDims e.dim = true → uniformExp e.vals = .error err → g.ipow false i oo e = (some err, g)) ∧
        (∀ p, ¬ hasDims e.dim = true → uniformExp e.vals = .ok p → e.vals.toList.length ≠ 1 →
          g.ipow false i oo e = (some .valueError, g)) ∧
        (∀ p, ¬ hasDims e.dim = true → uniformExp e.vals = .ok p → ¬ e.vals.toList.length ≠ 1 →
          (p ≠ 1 ∧ g.baseIsQuantity oo = true) → g.ipow false i oo e = (some .valueError, g)) := by
      intro g oo dd hkk
      refine ⟨fun h1 => ?_, fun err h1 hu => ?_, fun p h1 hu h2 => ?_, fun p h1 hu h2 h3 => ?_⟩ <;>
        unfold Heap.ipow <;> simp only [hkk]
      · rw [if_pos h1]
      · rw [if_neg h1]; simp only [hu]
      · rw [if_neg h1]; simp only [hu]; rw [if_pos h2]
      · rw [if_neg h1]; simp only [hu]; rw [if_neg h2, if_pos h3]
    obtain ⟨a1, a2, a3, a4⟩ := early h o d ek
    obtain ⟨b1, b2, b3, b4⟩ := early h' o' d' ek'
    by_cases h1 : hasDims e.dim = true
    · rw [a1 h1, b1 h1]; exact ⟨rfl, t⟩
    rcases hu : uniformExp e.vals with err | p
    · rw [a2 err h1 hu, b2 err h1 hu]; exact ⟨rfl, t⟩
    by_cases h2 : e.vals.toList.length ≠ 1
    · rw [a3 p h1 hu h2, b3 p h1 hu h2]; exact ⟨rfl, t⟩
    have hlist : e.vals.toList = [p] := by
      unfold uniformExp at hu
      rcases hl : e.vals.toList with _ | ⟨z, _ | ⟨z2, zs⟩⟩
      · rw [hl] at hu; cases hu
      · rw [hl] at hu; simp at hu; rw [hu]
      · rw [hl] at h2; simp at h2
    by_cases h3 : p ≠ 1 ∧ h.baseIsQuantity o = true
    · rw [a4 p h1 hu h2 h3, b4 p h1 hu h2 (hb ▸ h3)]; exact ⟨rfl, t⟩
    have lit : ∀ (a : Quantity K), LiteralPow a.mag p → ∀ p', NDArr.All (fun y => y = p') e.vals → LiteralPow a.mag p' := by
      intro a ha p' hp'
      have : p = p' := by
        have := all_iff_toList.1 hp' p (by rw [hlist]; exact List.mem_cons_self ..)
        exact this
      rw [← this]; exact ha
    have hres := pow_rel' hr e hqq (lit (h.quantity o) (hl o p ho hlist)) (lit (h'.quantity o') (hl' o' p ho' hlist))
    have f1 := form h o d p ek h1 hu h2 h3
    have f2 := form h' o' d' p ek' h1 hu h2 (hb ▸ h3)
    rw [f1, f2]
    rcases hun with hun | hview
    · exact landed_change t hW ho ho' hun hr hres
    · have hbq : h.baseIsQuantity o = true := by
        obtain ⟨o2, b, ob, g1, g2, g3, g4⟩ := hview
        rw [ho] at g1; cases g1
        exact baseIsQuantity_of g2 g3 g4
      have hp1 : p = 1 := by
        by_contra hne
        exact h3 ⟨hne, hbq⟩
      have dims : ∀ (g : Heap K) (oo : Obj) (dd : Dim) (r : Quantity K), oo.kind = .quantity dd →
          (g.quantity oo).pow e = .ok r → r.dim = dd := by
        intro g oo dd r hkk he
        unfold Quantity.pow at he
        rw [if_neg h1] at he
        simp only [hu, dPower, h1, Bool.false_eq_true, if_false] at he
        split at he <;> cases he
        simp only [Heap.quantity, hkk, AKind.dim, hp1, pow_one_eq]
      exact landed_keep t hW hW' hC hC' ho ho' ek ek' hr hres (fun r he => dims h o d r ek he)
        (fun r he => dims h' o' d' r ek' he)

theorem setUnits_step (hr : Reachable hh w) (t : Twin w h h') (hW : Heap.WF h) (hW' : Heap.WF h') (i : Nat) (d : Dim)
    (hp : (Cmd.setUnits (K := K) i d).Plain np2 w h) (hp' : (Cmd.setUnits (K := K) i d).Plain np2 w h') :
    Alike w (h.run np2 w (.setUnits i d)) (h'.run np2 w (.setUnits i d)) := by
  obtain ⟨⟨o, ho, hq⟩, hdok, hun, hs⟩ := hp
  obtain ⟨⟨o', ho', hq'⟩, -, -, hs'⟩ := hp'
  have hA := t.array i o o' ho ho'
  have hK := t.kind i o o' ho ho'
  have hqq := t.physEq ho ho' hq
  have hb := t.baseIsQuantity hA
  simp only [Heap.run, ho, ho']
  suffices hsuff : (h.setUnits w i o d).1 = (h'.setUnits w i o' d).1 ∧
      Twin w (h.setUnits w i o d).2 (h'.setUnits w i o' d).2 from Alike.result hsuff.1 hsuff.2
  have form : ∀ (g : Heap K) (oo : Obj) (dd : Dim), g.objs[i]? = some oo → oo.kind = .quantity dd → Heap.WF g →
      g.baseIsQuantity oo = false → oo.writeable = true →
      g.setUnits w i oo d = landed false g i oo ((g.quantity oo).rescale w d) := by
    intro g oo dd hoo hkk hWg hbg hwg
    unfold Heap.setUnits
    simp only [hkk, hbg, hwg, Bool.not_true, Bool.false_eq_true, if_false]
    unfold Quantity.rescale
    simp only [Heap.quantity, hkk, AKind.dim]
    by_cases hde : w.deq dd d = true
    · rw [if_pos hde, if_pos hde]
      simp only [landed]
      have e0 : (g.arr oo).shape = oo.shape := rfl
      rw [if_neg (not_not.2 e0), hwg]
      rw [store_self hWg hoo, setDim_same hoo hkk]
      rfl
    · rw [if_neg hde, if_neg hde]
      rcases hcf : w.convFactor dd d with e | cf
      · have hE : e = .assertionError := convFactor_error hcf
        subst hE
        rfl
      · simp only [landed]
        have e0 : ((g.arr oo).map (fun x => cf * x)).shape = oo.shape := rfl
        rw [if_neg (not_not.2 e0), hwg]
        simp only [mul_comm cf]
        rfl
  generalize ek : o.kind = k at hK
  generalize ek' : o'.kind = k' at hK
  cases hK with
  | plain => rw [ek] at hq; cases hq
  | @unit u hu =>
    unfold Heap.setUnits
    simp only [ek, ek']
    exact ⟨trivial, t⟩
  | @quantity d1 d1' hd hd' hc =>
    by_cases hbq : h.baseIsQuantity o = true
    · unfold Heap.setUnits
      simp only [ek, ek']
      rw [if_pos hbq, if_pos (hb ▸ hbq)]
      exact ⟨rfl, t⟩
    have hbq0 : h.baseIsQuantity o = false := by simpa using hbq
    by_cases hwr : o.writeable = true
    swap
    · unfold Heap.setUnits
      simp only [ek, ek']
      have hbq' : ¬ h'.baseIsQuantity o' = true := by rw [← hb]; exact hbq
      have this : (!o.writeable) = true := by simpa using hwr
      have this' : (!o'.writeable) = true := by rw [← hA.writeable]; exact this
      rw [if_neg hbq, if_neg hbq', if_pos this, if_pos this']
      exact ⟨rfl, t⟩
    rw [form h o d1 ho ek hW hbq0 hwr, form h' o' d1' ho' ek' hW' (hb ▸ hbq0) (hA.writeable ▸ hwr)]
    rcases hun with hun | hview
    · exact landed_change t hW ho ho' hun hr (rescale_rel hr d hqq hdok (hs o ho) (hs' o' ho'))
    · obtain ⟨o2, b, ob, g1, g2, g3, g4⟩ := hview
      rw [ho] at g1; cases g1
      exact absurd (baseIsQuantity_of g2 g3 g4) hbq

theorem into_step (hr : Reachable hh w) (t : Twin w h h') (hW : Heap.WF h) (hW' : Heap.WF h') (f : Quantity K → Py (Quantity K))
    (i out : Nat) (hp : (Cmd.into f i out).Plain np2 w h) :
    Alike w (h.run np2 w (.into f i out)) (h'.run np2 w (.into f i out)) := by
  obtain ⟨⟨o, ho, hq⟩, ⟨oo, hoo, hqo⟩, hf, hun⟩ := hp
  obtain ⟨o', ho'⟩ := t.get ho
  obtain ⟨oo', hoo'⟩ := t.get hoo
  have hq' : o'.kind.isQuantity = true := (t.kind i o o' ho ho').isQuantity ▸ hq
  have hA := t.array out oo oo' hoo hoo'
  have hK := t.kind out oo oo' hoo hoo'
  have hqq := t.physEq ho ho' hq
  simp only [Heap.run, ho, ho', hoo, hoo', hq, hq', if_true]
  suffices hsuff : (h.into f o out oo).1 = (h'.into f o' out oo').1 ∧
      Twin w (h.into f o out oo).2 (h'.into f o' out oo').2 from Alike.result hsuff.1 hsuff.2
  have hres := hf _ _ hqq
  have form : ∀ (g : Heap K) (p po : Obj), g.objs[out]? = some po → po.kind.isQuantity = true → Heap.WF g →
      g.into f p out po = landed false g out po (f (g.quantity p)) := by
    intro g p po hpo hqp hWg
    unfold Heap.into
    cases hk : po.kind with
    | ndarray => rw [hk] at hqp; cases hqp
    | quantity d =>
      simp only
      rcases f (g.quantity p) with e | r
      · rfl
      · rfl
    | unit u =>
      simp only
      rcases f (g.quantity p) with e | r
      · rfl
      · simp only [landed, hWg.unit_readonly hpo hk]
        rfl
  rw [form h o oo hoo hqo hW, form h' o' oo' hoo' (hK.isQuantity ▸ hqo) hW']
  exact landed_change t hW hoo hoo' hun hr hres

/-! ## New objects -/

theorem pushView_fst (t : Twin w h h') (i : Nat) (o o' : Obj) (k k' : AKind) (s s' : List Nat) (sel sel' : List Nat → List Nat) :
    (h.pushView i o k s sel).1 = (h'.pushView i o' k' s' sel').1 := t.length

theorem alloc_fst (t : Twin w h h') (a a' : NDArr K) (k k' : AKind) (wr wr' : Bool) :
    (h.alloc a k wr).1 = (h'.alloc a' k' wr').1 := t.length

theorem pushView_get (g : Heap K) (i : Nat) (o : Obj) (k : AKind) (s : List Nat) (sel : List Nat → List Nat) :
    (g.pushView i o k s sel).2.objs[(g.pushView i o k s sel).1]? =
      some ⟨k, s, fun j => o.addr (sel j), false, some (collapse g.objs k g.objs.length i), o.writeable⟩ :=
  push_get_new g _

/-- A view of the same object, of the same type. -/
theorem view_twin (t : Twin w h h') {i : Nat} {o o' : Obj} (ho : h.objs[i]? = some o) (ho' : h'.objs[i]? = some o')
    (hq : o.kind.isQuantity = true) {s : List Nat} {sel : List Nat → List Nat}
    (hsel : ∀ j, InB s j → InB o.shape (sel j)) :
    Twin w (h.pushView i o (.quantity o.kind.dim) s sel).2 (h'.pushView i o' (.quantity o'.kind.dim) s sel).2 := by
  have e := (t.kind i o o' ho ho').dimOK
  exact t.pushView (t.array i o o' ho ho') (.quantity e.1 e.2.1 e.2.2) sel
    (fun _ j hj v => t.cell ho ho' hq _ (hsel j hj) v)

theorem create_step (hr : Reachable hh w) (t : Twin w h h') (hW : Heap.WF h) (hW' : Heap.WF h') (c : Cmd K)
    (hp : c.Plain np2 w h) (hp' : c.Plain np2 w h')
    (hc : (∃ u, c = .newUnit u) ∨ (∃ a, c = .newArray a) ∨ (∃ a d, c = .newQuantity a d) ∨ (∃ i d, c = .wrap i d) ∨
      (∃ i k, c = .view i k) ∨ (∃ i k, c = .item i k) ∨ (∃ i, c = .copy i) ∨ (∃ i, c = .deepcopy i) ∨
      ∃ i k, c = .squeeze i k) :
    Alike w (h.run np2 w c) (h'.run np2 w c) := by
  rcases hc with ⟨u, rfl⟩ | ⟨a, rfl⟩ | ⟨a, d, rfl⟩ | ⟨i, d, rfl⟩ | ⟨i, k, rfl⟩ | ⟨i, k, rfl⟩ | ⟨i, rfl⟩ | ⟨i, rfl⟩ |
    ⟨i, k, rfl⟩
  · refine ⟨congrArg Except.ok t.length, ?_⟩
    exact t.alloc hW hW' false rfl (.unit hp) (fun _ _ _ _ => rfl)
  · refine ⟨congrArg Except.ok t.length, ?_⟩
    exact t.alloc hW hW' true rfl .plain (fun e => by cases e)
  · have := t.allocQuantity hr hW hW' (q := ⟨a, d⟩) (q' := ⟨a, d⟩) (PhysEq.refl hp)
    exact ⟨congrArg Except.ok this.1, this.2⟩
  · -- `Quantity(x, units)`
    obtain ⟨⟨o, ho, hq⟩, hd, hs⟩ := hp
    obtain ⟨⟨o', ho', hq'⟩, -, hs'⟩ := hp'
    have hA := t.array i o o' ho ho'
    have hK := t.kind i o o' ho ho'
    have hqq := t.physEq ho ho' hq
    simp only [Heap.run, ho, ho']
    by_cases hde : d.isEmpty = true
    · generalize ek : o.kind = k at hK
      generalize ek' : o'.kind = k' at hK
      cases hK with
      | plain => rw [ek] at hq; cases hq
      | @unit u hu =>
        unfold Heap.wrap
        simp only [ek, ek', hde, if_true]
        have hpe : PhysEq w ⟨h.arr o, unitDim u⟩ ⟨h'.arr o', unitDim u⟩ := by
          have := hqq
          simp only [Heap.quantity, ek, ek', AKind.dim] at this
          exact this
        have := t.allocQuantity hr hW hW' hpe
        exact ⟨congrArg Except.ok this.1, this.2⟩
      | @quantity d1 d1' h1 h1' hc =>
        unfold Heap.wrap
        simp only [ek, ek', hde, if_true]
        refine ⟨congrArg Except.ok t.length, ?_⟩
        have := view_twin t ho ho' hq (s := o.shape) (sel := id) (fun j hj => hj)
        rw [ek, ek'] at this
        rw [← hA.shape]
        simp only [AKind.dim] at this ⊢
        exact this
    · have form : ∀ (g : Heap K) (oo : Obj), oo.kind.isQuantity = true → g.wrap w i oo d =
          match (g.quantity oo).rescale w d with
          | .error e => (.error e, g)
          | .ok q =>
            match (g.allocQuantity q.mag q.dim).2.objs[(g.allocQuantity q.mag q.dim).1]? with
            | none => (.ok (g.allocQuantity q.mag q.dim).1, (g.allocQuantity q.mag q.dim).2)
            | some o' =>
              (.ok ((g.allocQuantity q.mag q.dim).2.pushView (g.allocQuantity q.mag q.dim).1 o' (.quantity q.dim) o'.shape id).1,
                ((g.allocQuantity q.mag q.dim).2.pushView (g.allocQuantity q.mag q.dim).1 o' (.quantity q.dim) o'.shape id).2) := by
        intro g oo hqo
        unfold Heap.wrap
        cases hk : oo.kind with
        | ndarray => rw [hk] at hqo; cases hqo
        | quantity dd => simp only [hde, Bool.false_eq_true, if_false]; rfl
        | unit u => simp only [hde, Bool.false_eq_true, if_false]; rfl
      rw [form h o hq, form h' o' hq']
      have hres := rescale_rel hr d hqq hd (hs o ho) (hs' o' ho')
      rcases h1 : (h.quantity o).rescale w d with e | q <;> rcases h2 : (h'.quantity o').rescale w d with e' | q' <;>
        rw [h1, h2] at hres
      · cases hres; exact ⟨rfl, t⟩
      · exact hres.elim
      · exact hres.elim
      · have hpe : PhysEq w q q' := hres
        obtain ⟨e1, t1⟩ := t.allocQuantity hr hW hW' hpe
        have get : ∀ (g : Heap K) (r : Quantity K), ∃ oo, (g.allocQuantity r.mag r.dim).2.objs[(g.allocQuantity r.mag r.dim).1]? = some oo ∧
            oo.kind = .quantity r.dim := by
          intro g r
          rw [allocQuantity_eq]
          exact ⟨_, pushView_get _ _ _ _ _ _, rfl⟩
        obtain ⟨oo, g1, k1⟩ := get h q
        obtain ⟨oo', g2, k2⟩ := get h' q'
        simp only [g1, g2]
        rw [← e1] at g2
        have hB := t1.array _ oo oo' g1 g2
        refine ⟨congrArg Except.ok t1.length, ?_⟩
        have := view_twin t1 g1 g2 (by rw [k1]; rfl) (s := oo.shape) (sel := id) (fun j hj => hj)
        rw [k1, k2] at this
        rw [← e1, ← hB.shape]
        exact this
  · -- `x[key]`
    obtain ⟨⟨o, ho, hq⟩, hk⟩ := hp
    obtain ⟨⟨o', ho', hq'⟩, -⟩ := hp'
    have hA := t.array i o o' ho ho'
    have hK := t.kind i o o' ho ho'
    simp only [Heap.run, ho, ho']
    generalize ek : o.kind = kk at hK
    generalize ek' : o'.kind = kk' at hK
    cases hK with
    | plain => rw [ek] at hq; cases hq
    | @unit u hu => exact ⟨rfl, t⟩
    | @quantity d1 d1' h1 h1' hc =>
      simp only
      rw [← hA.shape]
      rcases hks : k o.shape with e | ⟨s, sel⟩
      · exact ⟨rfl, t⟩
      · simp only
        refine ⟨congrArg Except.ok t.length, ?_⟩
        have := view_twin t ho ho' hq (s := s) (sel := sel) (fun j hj => hk.sound _ _ _ hks j hj)
        rw [ek, ek'] at this
        exact this
  · -- `x[2, 3]`
    obtain ⟨o, ho, hq⟩ := hp
    obtain ⟨o', ho', hq'⟩ := hp'
    have hA := t.array i o o' ho ho'
    have hK := (t.kind i o o' ho ho').dimOK
    simp only [Heap.run, ho, ho']
    rw [← hA.shape]
    by_cases hin : k ∈ NDArr.indices o.shape
    · rw [if_pos hin, if_pos hin, if_pos hq, if_pos hq']
      have hpe : PhysEq w ⟨NDArr.scalar (h.mem (o.addr k)), o.kind.dim⟩ ⟨NDArr.scalar (h'.mem (o'.addr k)), o'.kind.dim⟩ := by
        refine ⟨hK.1, hK.2.1, hK.2.2, fun v => ⟨rfl, fun j _ => ?_⟩⟩
        exact t.cell ho ho' hq k (mem_indices.1 hin) v
      have := t.allocQuantity hr hW hW' hpe
      exact ⟨congrArg Except.ok this.1, this.2⟩
    · rw [if_neg hin, if_neg hin]; exact ⟨rfl, t⟩
  · -- `x.copy()`
    obtain ⟨o, ho, hq⟩ := hp
    obtain ⟨o', ho', hq'⟩ := hp'
    have hA := t.array i o o' ho ho'
    have hK := t.kind i o o' ho ho'
    have hqq := t.physEq ho ho' hq
    simp only [Heap.run, ho, ho']
    generalize ek : o.kind = kk at hK
    generalize ek' : o'.kind = kk' at hK
    cases hK with
    | plain => rw [ek] at hq; cases hq
    | @unit u hu => exact ⟨rfl, t⟩
    | @quantity d1 d1' h1 h1' hc =>
      simp only
      refine ⟨congrArg Except.ok t.length, ?_⟩
      refine t.alloc hW hW' true hA.shape (.quantity h1 h1' hc) (fun _ j hj v => ?_)
      have := t.cell ho ho' hq j hj v
      rw [ek, ek'] at this
      exact this
  · -- `copy.deepcopy(x)`
    obtain ⟨o, ho, hq⟩ := hp
    obtain ⟨o', ho', hq'⟩ := hp'
    have hA := t.array i o o' ho ho'
    have hK := (t.kind i o o' ho ho').dimOK
    simp only [Heap.run, ho, ho', hq, hq', if_true, pushView_get]
    have t1 : Twin w (h.pushView i o .ndarray o.shape id).2 (h'.pushView i o' .ndarray o'.shape id).2 := by
      rw [← hA.shape]
      exact t.pushView hA .plain id (fun e => by cases e)
    have e1 := pushView_fst t i o o' .ndarray .ndarray o.shape o'.shape id id
    have g1 := pushView_get h i o .ndarray o.shape id
    have g2 := pushView_get h' i o' .ndarray o'.shape id
    rw [← e1] at g2
    refine ⟨congrArg Except.ok t1.length, ?_⟩
    rw [← e1, ← hA.shape]
    rw [← hA.shape] at t1 g2
    refine t1.pushView (t1.array _ _ _ g1 g2) (.quantity hK.1 hK.2.1 hK.2.2) id (fun _ j hj v => ?_)
    exact t.cell ho ho' hq j hj v
  · -- `x.squeeze()`
    obtain ⟨⟨o, ho, hq⟩, hk⟩ := hp
    obtain ⟨⟨o', ho', hq'⟩, -⟩ := hp'
    have hA := t.array i o o' ho ho'
    have hK := (t.kind i o o' ho ho').dimOK
    simp only [Heap.run, ho, ho', hq, hq', if_true, pushView_get]
    have t1 : Twin w (h.pushView i o .ndarray o.shape id).2 (h'.pushView i o' .ndarray o'.shape id).2 := by
      rw [← hA.shape]
      exact t.pushView hA .plain id (fun e => by cases e)
    have e1 := pushView_fst t i o o' .ndarray .ndarray o.shape o'.shape id id
    have g1 := pushView_get h i o .ndarray o.shape id
    have g2 := pushView_get h' i o' .ndarray o'.shape id
    rw [← e1] at g2
    rw [← e1, ← hA.shape]
    rw [← hA.shape] at t1 g2
    rcases hks : k o.shape with e | ⟨s, sel⟩
    · exact ⟨rfl, t⟩
    simp only [pushView_get]
    have hs1 := t1.array _ _ _ g1 g2
    have t2 := t1.pushView (i := (h.pushView i o .ndarray o.shape id).1) (s := s) hs1 (KindEq.plain (w := w)) sel (fun e => by cases e)
    refine ⟨congrArg Except.ok t2.length, ?_⟩
    have g3 := pushView_get (h.pushView i o .ndarray o.shape id).2 (h.pushView i o .ndarray o.shape id).1
      ⟨.ndarray, o.shape, fun j => o.addr (id j), false, some (collapse h.objs .ndarray h.objs.length i), o.writeable⟩ .ndarray s sel
    have g4 := pushView_get (h'.pushView i o' .ndarray o.shape id).2 (h.pushView i o .ndarray o.shape id).1
      ⟨.ndarray, o.shape, fun j => o'.addr (id j), false, some (collapse h'.objs .ndarray h'.objs.length i), o'.writeable⟩ .ndarray s sel
    have e2 : ((h'.pushView i o' .ndarray o.shape id).2.pushView (h.pushView i o .ndarray o.shape id).1
        ⟨.ndarray, o.shape, fun j => o'.addr (id j), false, some (collapse h'.objs .ndarray h'.objs.length i), o'.writeable⟩ .ndarray s sel).1 =
        ((h.pushView i o .ndarray o.shape id).2.pushView (h.pushView i o .ndarray o.shape id).1
          ⟨.ndarray, o.shape, fun j => o.addr (id j), false, some (collapse h.objs .ndarray h.objs.length i), o.writeable⟩ .ndarray s sel).1 :=
      t1.length.symm
    rw [e2] at g4 ⊢
    refine t2.pushView (t2.array _ _ _ g3 g4) (.quantity hK.1 hK.2.1 hK.2.2) id (fun _ j hj v => ?_)
    exact t.cell ho ho' hq _ (hk.sound _ _ _ hks j hj) v

/-! ## Coherence -/

theorem plain_valid {c : Cmd K} (hp : c.Plain np2 w h) : c.Valid := by
  cases c with
  | view i k => exact hp.2
  | squeeze i k => exact hp.2
  | setitem i k v => exact hp.2.1
  | rawWrite i k m => exact hp.elim
  | _ => trivial

theorem plain_coherent (hW : Heap.WF h) (hC : h.Coherent) {c : Cmd K} (hp : c.Plain np2 w h) :
    (h.run np2 w c).2.Coherent := by
  have hv := plain_valid hp
  cases c with
  | wrap i d =>
    refine run_coherent hW hC hv (fun j o p ho hq _ _ _ => ?_)
    obtain ⟨⟨o2, ho2, hq2⟩, -⟩ := hp
    rw [ho] at ho2; cases ho2
    rw [hq] at hq2; cases hq2
  | fill i v => exact run_coherent hW hC hv hp.2.2.1
  | ipow i e => exact run_coherent hW hC hv hp.2.2.1
  | setUnits i d => exact run_coherent hW hC hv hp.2.2.1
  | into f i out => exact run_coherent hW hC hv hp.2.2.2
  | inplace op i v =>
    obtain ⟨⟨o, ho, hq⟩, hu, -, hop⟩ := hp
    have scale : (op = .mul ∨ op = .div) → ((∀ x, h.src v = some x → x.dim = []) ∨
        np2 = false ∧ h.Unshared i ∧ ¬ h.ViewOfQuantity i) → (h.run np2 w (.inplace op i v)).2.Coherent := by
      intro ho2 hc
      rcases hc with hc | ⟨-, hc, -⟩
      · simp only [Heap.run, ho]
        rcases hx : h.src v with _ | x
        · exact hC
        · simp only
          rw [result_snd]
          have hx0 : x.toQuantity.dim = [] := by
            rw [show x.toQuantity.dim = x.dim by cases x <;> rfl]
            exact hc x hx
          cases hk : o.kind with
          | ndarray => rw [hk] at hq; cases hq
          | unit u =>
            refine hC.of_objs ?_
            unfold Heap.inplace
            rcases ho2 with rfl | rfl <;> simp only [hk]
          | quantity d =>
            refine hC.of_objs (inplace_objs_scale ho hk ?_ hx0)
            rcases ho2 with h | h
            · exact .inl h
            · exact .inr (.inl h)
      · refine run_coherent hW hC hv ?_
        rcases ho2 with rfl | rfl <;> exact .inl hc
    cases op with
    | add => exact run_coherent hW hC hv trivial
    | sub => exact run_coherent hW hC hv trivial
    | mod => exact run_coherent hW hC hv trivial
    | mul => exact scale (.inl rfl) hop
    | div => exact scale (.inr rfl) hop
    | floordiv => exact hop.elim
  | newUnit u => exact run_coherent hW hC hv trivial
  | newArray a => exact run_coherent hW hC hv trivial
  | newQuantity a d => exact run_coherent hW hC hv trivial
  | magnitude i => exact run_coherent hW hC hv trivial
  | view i k => exact run_coherent hW hC hv trivial
  | item i k => exact run_coherent hW hC hv trivial
  | copy i => exact run_coherent hW hC hv trivial
  | deepcopy i => exact run_coherent hW hC hv trivial
  | squeeze i k => exact run_coherent hW hC hv trivial
  | setitem i k v => exact run_coherent hW hC hv trivial
  | put i js v => exact run_coherent hW hC hv trivial
  | rawWrite i k m => exact run_coherent hW hC hv trivial

/-! ## C117 -/

/-- One command. -/
theorem twin_step (hr : Reachable hh w) (t : Twin w h h') (hW : Heap.WF h) (hW' : Heap.WF h') (hC : h.Coherent)
    (hC' : h'.Coherent) (c : Cmd K) (hp : c.Plain np2 w h) (hp' : c.Plain np2 w h') :
    Alike w (h.run np2 w c) (h'.run np2 w c) := by
  cases c with
  | newUnit u => exact create_step hr t hW hW' _ hp hp' (by simp)
  | newArray a => exact create_step hr t hW hW' _ hp hp' (by simp)
  | newQuantity a d => exact create_step hr t hW hW' _ hp hp' (by simp)
  | wrap i d => exact create_step hr t hW hW' _ hp hp' (by simp)
  | magnitude i => exact hp.elim
  | view i k => exact create_step hr t hW hW' _ hp hp' (by simp)
  | item i k => exact create_step hr t hW hW' _ hp hp' (by simp)
  | copy i => exact create_step hr t hW hW' _ hp hp' (by simp)
  | deepcopy i => exact create_step hr t hW hW' _ hp hp' (by simp)
  | squeeze i k => exact create_step hr t hW hW' _ hp hp' (by simp)
  | setitem i k v => exact setitem_step hr t hC hC' i k v hp hp'
  | put i js v => exact put_step hr t hC hC' i js v hp hp'
  | fill i v => exact fill_step hr t hW i v hp
  | inplace op i v => exact inplace_step hr t hW hW' hC hC' op i v hp hp'
  | ipow i e => exact ipow_step hr t hW hW' hC hC' i e hp hp'
  | setUnits i d => exact setUnits_step hr t hW hW' i d hp hp'
  | into f i out => exact into_step hr t hW hW' f i out hp
  | rawWrite i k m => exact hp.elim

/-- C117: a program with views, copies, item assignment and in-place operations is run on the same quantities
expressed in different units.  Every command returns the same object or raises the same exception in both runs, and
in the end every quantity - also those that share memory - has the same physical value in both. -/
theorem C117_program (hr : Reachable hh w) (np2 : Bool) (h h' : Heap K) (hh1 : Reached np2 w h) (hh2 : Reached np2 w h')
    (hC : h.Coherent) (hC' : h'.Coherent) (t : Twin w h h') (cs : List (Cmd K)) (hp : h.AllPlain np2 w cs)
    (hp' : h'.AllPlain np2 w cs) :
    h.outcomes np2 w cs = h'.outcomes np2 w cs ∧ Twin w (h.runAll np2 w cs) (h'.runAll np2 w cs) := by
  induction cs generalizing h h' with
  | nil => exact ⟨rfl, t⟩
  | cons c cs ih =>
    obtain ⟨s1, s2⟩ := twin_step hr t hh1.wf hh2.wf hC hC' c hp.1 hp'.1
    obtain ⟨i1, i2⟩ := ih _ _ (.step c hh1 (plain_valid hp.1)) (.step c hh2 (plain_valid hp'.1))
      (plain_coherent hh1.wf hC hp.1) (plain_coherent hh2.wf hC' hp'.1) s2 hp.2 hp'.2
    refine ⟨?_, i2⟩
    simp only [Heap.outcomes]
    rw [s1, i1]

/-- C117: converted to units `d` at the end, any quantity shows the same numbers in both runs. -/
theorem C117_report (hr : Reachable hh w) (np2 : Bool) (h h' : Heap K) (hh1 : Reached np2 w h) (hh2 : Reached np2 w h')
    (hC : h.Coherent) (hC' : h'.Coherent) (t : Twin w h h') (cs : List (Cmd K)) (hp : h.AllPlain np2 w cs)
    (hp' : h'.AllPlain np2 w cs) (i : Nat) (o o' : Obj) (ho : (h.runAll np2 w cs).objs[i]? = some o)
    (ho' : (h'.runAll np2 w cs).objs[i]? = some o') (hq : o.kind.isQuantity = true) (d : Dim) (hd : DimOK w d)
    (hs : HashSafe w o.kind.dim d) (hs' : HashSafe w o'.kind.dim d) :
    OutRel (fun x y => NDArr.Same x.mag y.mag ∧ SameContent x.dim d ∧ SameContent y.dim d)
      (((h.runAll np2 w cs).quantity o).rescale w d) (((h'.runAll np2 w cs).quantity o').rescale w d) := by
  obtain ⟨-, t'⟩ := C117_program hr np2 h h' hh1 hh2 hC hC' t cs hp hp'
  have hqq := t'.physEq ho ho' hq
  obtain ⟨v⟩ := exists_valuation hr.wf
  refine (rescale_rel hr d hqq hd hs hs').mono (fun x y hx hy hxy => ?_)
  have sx := (rescale_ok hr.wf hqq.left hd hs hx).2.1
  have sy := (rescale_ok hr.wf hqq.right hd hs' hy).2.1
  refine ⟨⟨(hxy.same v).1, fun i hi => ?_⟩, sx, sy⟩
  have := (hxy.same v).2 i hi
  have hz : v.size x.dim = v.size y.dim :=
    dsize_same v.val hxy.left.canon.nodup hxy.right.canon.nodup (sx.trans sy.symm)
  simp only [Valuation.phys, NDArr.map, hz] at this
  exact mul_right_cancel₀ (v.size_pos _).ne' this

/-- C117: the reductions and the other methods of C100 may be used with `out=`. -/
theorem C117_methods (hr : Reachable hh w) (u : Un) : RespectsUnits w (u.ap w) := fun _ _ hx => un_ap_rel hr u hx

end PQ

/-! ## Concrete cases -/

namespace PQ

open Client NDArr Heap

theorem twin_empty (w : World ℝ) : Twin w Heap.empty Heap.empty :=
  ⟨rfl, rfl, fun i o o' ho => by simp [Heap.empty] at ho, fun i o o' ho => by simp [Heap.empty] at ho,
    fun i o o' ho => by simp [Heap.empty] at ho⟩

/-- `q = [1000, 2000, 3000] * m` -/
noncomputable def exHeapM : Heap ℝ := (Heap.empty.run false exWorld (.newQuantity (exArr.map (fun x => 1000 * x)) dM)).2

theorem ex_arr_physEq : PhysEq exWorld ⟨exArr, dKm⟩ ⟨exArr.map (fun x => 1000 * x), dM⟩ := by
  refine ⟨ex_dimOK _ (by simp), ex_dimOK _ (by simp), ex_compat, fun v => ⟨rfl, fun i _ => ?_⟩⟩
  show exArr.elem i * v.size dKm = 1000 * exArr.elem i * v.size dM
  rw [exSizeKm]; ring

theorem ex_twin : Twin exWorld exHeap1 exHeapM :=
  ((twin_empty exWorld).allocQuantity exWorld_reachable empty_wf empty_wf ex_arr_physEq).2

/-- `v = q[1:]; v += 2 * km` -/
noncomputable def exViewProgram : List (Cmd ℝ) := [.view 1 kTail, .inplace .add 2 (.lit (.quantity exKm2))]

theorem exView_plain {h : Heap ℝ} {d : Dim} (hd : d = dKm ∨ d = dM)
    (h1 : ∃ o, h.objs[1]? = some o ∧ o.kind = .quantity d)
    (h2 : ∃ o, (h.run false exWorld (.view 1 kTail)).2.objs[2]? = some o ∧ o.kind = .quantity d) :
    h.AllPlain false exWorld exViewProgram := by
  obtain ⟨o1, ho1, hk1⟩ := h1
  obtain ⟨o2, ho2, hk2⟩ := h2
  refine ⟨⟨⟨o1, ho1, by rw [hk1]; rfl⟩, kTail_basic⟩, ⟨⟨o2, ho2, by rw [hk2]; rfl⟩, ex_dimOK _ (by simp [exKm2, Operand.dim]), ?_, trivial⟩, trivial⟩
  intro o x ho hx
  rw [ho2] at ho; cases ho
  cases hx
  rw [hk2]
  rcases hd with rfl | rfl
  · exact HashSafe.of_same exWorld_wf (ex_dimOK dKm (by simp)) (ex_dimOK dKm (by simp)) (SameContent.refl _)
  · exact ex_safe_km_m

example : exHeap1.outcomes false exWorld exViewProgram = exHeapM.outcomes false exWorld exViewProgram ∧
    Twin exWorld (exHeap1.runAll false exWorld exViewProgram) (exHeapM.runAll false exWorld exViewProgram) :=
  C117_program exWorld_reachable false exHeap1 exHeapM exHeap1_reached (.step _ .empty trivial)
    (run_coherent empty_wf empty_coherent trivial trivial) (run_coherent empty_wf empty_coherent trivial trivial) ex_twin
    exViewProgram (exView_plain (.inl rfl) ⟨_, rfl, rfl⟩ ⟨_, rfl, rfl⟩) (exView_plain (.inr rfl) ⟨_, rfl, rfl⟩ ⟨_, rfl, rfl⟩)

/-- In these runs the command does not fail: `v` is changed. -/
example : exHeap1.outcomes false exWorld exViewProgram = [.ok 2, .ok 2] := by
  have hb : (exHeap2.run false exWorld (.inplace .add 2 (.lit (.quantity exKm2)))).1 = .ok 2 := by
    have hd : exWorld.dne dKm dKm = false := by rw [dne_eq, deq_self]; rfl
    have he : exWorld.deq dKm dKm = true := deq_self _ _
    have hbin : ∀ x : NDArr ℝ, x.shape = [2] → ∃ m, NDArr.bin (· + ·) x exKm2.mag = .ok m ∧ m.shape = [2] := by
      intro x hx
      unfold NDArr.bin
      rw [hx]
      exact ⟨_, rfl, rfl⟩
    obtain ⟨m, hm, hs⟩ := hbin (exHeap2.arr ⟨.quantity dKm, [2], fun j => 0 + ravel [3] (j.map (· + 1)), false, some 1, true⟩) rfl
    refine C52_inplace_succeeds .add 2 ⟨.quantity dKm, [2], fun j => 0 + ravel [3] (j.map (· + 1)), false, some 1, true⟩ dKm _ _
      ⟨m, dKm⟩ rfl rfl rfl ?_ hs rfl (fun h => by rcases h with h | h <;> cases h)
    have hk : exKm2.dim = dKm := rfl
    simp only [IOp.binary, Quantity.add, Quantity.scaleOther, Heap.operand, Heap.quantity, AKind.dim, Operand.toQuantity,
      AKind.isQuantity, if_true, hk, hd, Bool.false_eq_true, if_false, applyUF2, ufunc2Dim, dCheckUniform, he, Operand.arr]
    exact congrArg (fun z : Py (NDArr ℝ) => match z with
      | .error e => (.error e : Py (Quantity ℝ))
      | .ok m => .ok ⟨m, dKm⟩) hm
  show [_, (exHeap2.run false exWorld (.inplace .add 2 (.lit (.quantity exKm2)))).1] = _
  rw [hb]
  rfl

/-- The number 1000, as a dimensionless quantity and as `1 * km/m`. -/
noncomputable def exK1 : Quantity ℝ := ⟨NDArr.scalar 1000, []⟩
noncomputable def exK2 : Quantity ℝ := ⟨NDArr.scalar 1, Dim.div dKm dM⟩

theorem ex_k_physEq : PhysEq exWorld exK1 exK2 := by
  have hsz : ∀ v : Valuation exWorld, v.size (Dim.div dKm dM) = 1000 := by
    intro v
    have := dsize_div v.pos dKm dM
    have h2 : v.size (Dim.div dKm dM) = v.size dKm / v.size dM := this
    rw [h2, exSizeKm, mul_div_assoc, div_self (v.size_pos dM).ne', mul_one]
  refine ⟨DimOK.nil _, (ex_dimOK dKm (by simp)).div (ex_dimOK dM (by simp)), ⟨1 / 1000, fun v => ?_⟩, fun v => ⟨rfl, fun i _ => ?_⟩⟩
  · show v.size [] = 1 / 1000 * v.size (Dim.div dKm dM)
    rw [hsz v]
    show (1 : ℝ) = _
    norm_num
  · show 1000 * v.size [] = 1 * v.size (Dim.div dKm dM)
    rw [hsz v]
    show (1000 : ℝ) * 1 = _
    norm_num

/-- `q = [1, 2, 3] * km; v = q[1:]; k = ...` -/
noncomputable def exScaleHeap (k : Quantity ℝ) : Heap ℝ := (exHeap2.run false exWorld (.newQuantity k.mag k.dim)).2

/-- C117 does not hold for `*=` and `/=` on a view with a factor that has units: `v *= k` works if `k` is the
dimensionless number 1000 and raises `ValueError` if `k` is the same number expressed as 1 km/m. -/
theorem C117_scale_false : ∃ h h' : Heap ℝ, Reached false exWorld h ∧ Reached false exWorld h' ∧ h.Coherent ∧ h'.Coherent ∧
    Twin exWorld h h' ∧ (h.run false exWorld (.inplace .mul 2 (.obj 4))).1 = .ok 2 ∧
    (h'.run false exWorld (.inplace .mul 2 (.obj 4))).1 = .error .valueError := by
  have hc2 : exHeap2.Coherent := run_coherent exHeap1_reached.wf (run_coherent empty_wf empty_coherent trivial trivial) kTail_basic trivial
  have t1 : Twin exWorld exHeap1 exHeap1 := ((twin_empty exWorld).allocQuantity exWorld_reachable empty_wf empty_wf
    (PhysEq.refl (x := ⟨exArr, dKm⟩) (ex_dimOK dKm (by simp)))).2
  have t2 : Twin exWorld exHeap2 exHeap2 := (create_step (np2 := false) exWorld_reachable t1 exHeap1_reached.wf exHeap1_reached.wf
    (.view 1 kTail) ⟨⟨_, rfl, rfl⟩, kTail_basic⟩ ⟨⟨_, rfl, rfl⟩, kTail_basic⟩ (by simp)).2
  refine ⟨exScaleHeap exK1, exScaleHeap exK2, .step _ exHeap2_reached trivial, .step _ exHeap2_reached trivial,
    run_coherent exHeap2_reached.wf hc2 trivial trivial, run_coherent exHeap2_reached.wf hc2 trivial trivial,
    (t2.allocQuantity exWorld_reachable exHeap2_reached.wf exHeap2_reached.wf ex_k_physEq).2, ?_, ?_⟩
  · exact C52_inplace_succeeds .mul 2 ⟨.quantity dKm, [2], fun j => 0 + ravel [3] (j.map (· + 1)), false, some 1, true⟩ dKm
      (.obj 4) (.quantity ((exScaleHeap exK1).quantity ⟨.quantity [], [], fun j => 3 + ravel [] j, false, some 3, true⟩))
      ⟨⟨[2], fun i => _⟩, dKm⟩ rfl rfl rfl rfl rfl rfl (fun _ => .inl rfl)
  · rfl

end PQ
