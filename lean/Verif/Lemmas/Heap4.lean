import Verif.Lemmas.Heap3

/-!
# Views: protected bases, in-place operations that keep units
-/

namespace PQ

open NDArr

variable {K : Type _}

namespace Heap

/-- The base of a new `Quantity` view of a quantity is a quantity. -/
theorem collapse_quantity (objs : List Obj) (d : Dim) : ∀ (fuel i : Nat) (o : Obj),
    objs[i]? = some o → o.kind.isQuantity = true →
    ∃ ob, objs[collapse objs (.quantity d) fuel i]? = some ob ∧ ob.kind.isQuantity = true
  | 0, i, o, ho, hq => ⟨o, ho, hq⟩
  | fuel + 1, i, o, ho, hq => by
      unfold collapse
      simp only [ho]
      split
      · exact ⟨o, ho, hq⟩
      · split
        · exact ⟨o, ho, hq⟩
        · split
          · exact ⟨o, ho, hq⟩
          · rename_i b _ ob hob
            split
            · rename_i hs
              refine collapse_quantity objs d fuel _ ob hob ?_
              cases hk : ob.kind <;> simp [hk, AKind.sameType, AKind.isQuantity] at hs ⊢
            · exact ⟨o, ho, hq⟩

/-- Object `i` is a view whose base is a quantity. -/
def Protected (h : Heap K) (i : Nat) : Prop :=
  ∃ o, h.objs[i]? = some o ∧ h.baseIsQuantity o = true

theorem baseIsQuantity_of {h : Heap K} {o ob : Obj} {b : Nat} (hb : o.base = some b)
    (hob : h.objs[b]? = some ob) (hq : ob.kind.isQuantity = true) : h.baseIsQuantity o = true := by
  unfold baseIsQuantity
  simp only [hb, hob, hq]

theorem baseIsQuantity_spec {h : Heap K} {o : Obj} (hb : h.baseIsQuantity o = true) :
    ∃ b ob, o.base = some b ∧ h.objs[b]? = some ob ∧ ob.kind.isQuantity = true := by
  unfold baseIsQuantity at hb
  split at hb
  · cases hb
  · split at hb
    · cases hb
    · exact ⟨_, _, by assumption, by assumption, hb⟩

theorem Prims.baseIsQuantity [One K] {H : Nat → Prop} {h h' : Heap K} (p : Prims H h h') {i : Nat}
    {o o' : Obj} (ho : h.objs[i]? = some o) (ho' : h'.objs[i]? = some o')
    (hb : h.baseIsQuantity o = true) : h'.baseIsQuantity o' = true := by
  obtain ⟨b, ob, h1, h2, h3⟩ := baseIsQuantity_spec hb
  obtain ⟨ob', h4, s, _⟩ := p.stable b ob h2
  obtain ⟨o2, h5, s2, _⟩ := p.stable i o ho
  rw [ho'] at h5; cases h5
  exact baseIsQuantity_of (by rw [s2.base, h1]) h4 (by rw [s.isQuantity, h3])

theorem setDim_self (h : Heap K) (i : Nat) (o : Obj) (d : Dim) (ho : h.objs[i]? = some o)
    (hk : o.kind = .quantity d) : (h.setDim i o d).objs = h.objs := by
  unfold setDim
  have : ({ o with kind := .quantity d } : Obj) = o := by cases o; simp_all
  simp only [this]
  obtain ⟨hlt, e⟩ := List.getElem?_eq_some_iff.1 ho
  rw [← e]
  exact List.set_getElem_self hlt

@[simp] theorem store_objs (h : Heap K) (o : Obj) (m : NDArr K) : (h.store o m).objs = h.objs := rfl

@[simp] theorem storeSel_objs (h : Heap K) (o : Obj) (s : List Nat) (sel : List Nat → List Nat)
    (m : NDArr K) : (h.storeSel o s sel m).objs = h.objs := rfl

theorem assign_objs (h : Heap K) (o : Obj) (k : Key) (m : NDArr K) : (h.assign o k m).2.objs = h.objs := by
  unfold assign
  split
  · rfl
  · split
    · rfl
    · split
      · rfl
      · rfl

section
variable [Zero K] [One K] [Add K] [Sub K] [Mul K] [Div K] [RPow K] [PyFloor K] [DecidableEq K]

omit [One K] [Add K] [Sub K] [Mul K] [Div K] [RPow K] [PyFloor K] in
theorem ufuncInto_objs {np2 : Bool} {w : World K} {f : UF2} {g : K → K → K} {h : Heap K} {i : Nat}
    {o : Obj} {y : Operand K} {d : Dim} (ho : h.objs[i]? = some o) (hk : o.kind = .quantity d)
    (hd : ∀ d', ufunc2Dim w f (h.operand o) y = .ok d' → d' = d) :
    (ufuncInto np2 w f g h i o y).2.objs = h.objs := by
  unfold ufuncInto
  split
  · rfl
  · split
    · rfl
    · split
      · rfl
      · split
        · rfl
        · split
          · rfl
          · rename_i d' hd'
            cases hd d' hd'
            rw [setDim_self (h := h.store o _) i o d ho hk]
            rfl

/-- Operators that keep the units. -/
def IOp.keeps : IOp → Bool
  | .add | .sub | .mod => true
  | _ => false

omit [Zero K] [One K] [Add K] [Sub K] [Mul K] [Div K] [RPow K] [PyFloor K] [DecidableEq K] in
theorem operand_quantity {h : Heap K} {o : Obj} {d : Dim} (hk : o.kind = .quantity d) :
    h.operand o = .quantity ⟨h.arr o, d⟩ := by
  unfold operand quantity
  simp [hk, AKind.isQuantity, AKind.dim]

omit [One K] [Add K] [Sub K] [Mul K] [Div K] [RPow K] [PyFloor K] in
theorem checkUniform_first {w : World K} {a : Quantity K} {y : Operand K} {d' : Dim}
    (h : dCheckUniform w (.quantity a) y = .ok d') : d' = a.dim := by
  cases y <;> simp only [dCheckUniform] at h <;> split at h <;> cases h <;> rfl

theorem inplace_objs_keeps {np2 : Bool} {w : World K} {h : Heap K} {op : IOp} {i : Nat} {o : Obj}
    {x : Operand K} {d : Dim} (ho : h.objs[i]? = some o) (hk : o.kind = .quantity d)
    (hop : IOp.keeps op = true) : (inplace np2 w h op i o x).2.objs = h.objs := by
  unfold inplace
  cases op <;> simp only [IOp.keeps, Bool.false_eq_true] at hop <;> simp only [hk] <;> split
  all_goals first
    | rfl
    | (refine ufuncInto_objs ho hk (fun d' hd' => ?_)
       rw [operand_quantity hk] at hd'
       simp only [ufunc2Dim] at hd'
       exact checkUniform_first hd')

theorem inplace_objs_scale {np2 : Bool} {w : World K} {h : Heap K} {op : IOp} {i : Nat} {o : Obj}
    {x : Operand K} {d : Dim} (ho : h.objs[i]? = some o) (hk : o.kind = .quantity d)
    (hop : op = .mul ∨ op = .div ∨ op = .floordiv) (hx : x.toQuantity.dim = []) :
    (inplace np2 w h op i o x).2.objs = h.objs := by
  have hm : ∀ d', dMultiply (h.operand o) x = .ok d' → d' = d := by
    intro d' hd'
    rw [operand_quantity hk] at hd'
    cases x with
    | quantity q =>
      simp only [Operand.toQuantity] at hx
      simp only [dMultiply, hx, Dim.mul, List.foldl_nil, Except.ok.injEq] at hd'
      exact hd'.symm
    | array a => simpa [dMultiply] using hd'.symm
  have hv : ∀ d', dDivide (h.operand o) x = .ok d' → d' = d := by
    intro d' hd'
    rw [operand_quantity hk] at hd'
    cases x with
    | quantity q =>
      simp only [Operand.toQuantity] at hx
      simp only [dDivide, hx, Dim.div, List.foldl_nil, Except.ok.injEq] at hd'
      exact hd'.symm
    | array a => simpa [dDivide] using hd'.symm
  unfold inplace
  rcases hop with rfl | rfl | rfl <;> simp only [hk]
  · split
    · rfl
    · exact ufuncInto_objs ho hk hm
  · split
    · rfl
    · exact ufuncInto_objs ho hk hv
  · exact ufuncInto_objs ho hk hv

omit [Zero K] [One K] [Add K] [Sub K] [Mul K] [Div K] [RPow K] [PyFloor K] [DecidableEq K] in
theorem pow_one_eq (d : Dim) : Dim.pow d 1 = d := by
  simp [Dim.pow]

omit [Zero K] [One K] [Add K] [Sub K] [Mul K] [Div K] [PyFloor K] [DecidableEq K] in
theorem ipow_objs_protected {np2 : Bool} {h : Heap K} {i : Nat} {o : Obj} {e : ExpArg}
    (ho : h.objs[i]? = some o) (hb : h.baseIsQuantity o = true) :
    (ipow np2 h i o e).2.objs = h.objs := by
  unfold ipow
  split
  · rfl
  · rfl
  · rename_i d hk
    split
    · rfl
    · split
      · rfl
      · rename_i p _
        split
        · rfl
        · split
          · rfl
          · rename_i hp
            have hp1 : p = 1 := by
              by_contra hne
              exact hp ⟨hne, hb⟩
            split
            · rfl
            · split
              · rfl
              · split
                · rfl
                · split
                  · rfl
                  · subst hp1
                    rw [pow_one_eq, setDim_self (h := h.store o _) i o d ho hk]
                    rfl

omit [Zero K] [Add K] [Sub K] [PyFloor K] [DecidableEq K] in
theorem put_objs (w : World K) (h : Heap K) (o : Obj) (idxs : List Int) (x : Operand K) :
    (h.put w o idxs x).2.objs = h.objs := by
  unfold put
  split
  · rfl
  · split
    · rfl
    · rfl

omit [Zero K] [Add K] [Sub K] [PyFloor K] [DecidableEq K] in
theorem setitem_objs (w : World K) (h : Heap K) (o : Obj) (k : Key) (x : Operand K) :
    (h.setitem w o k x).2.objs = h.objs := by
  unfold setitem
  split
  · rfl
  · exact assign_objs _ _ _ _

theorem inplace_objs_nonquantity {np2 : Bool} {w : World K} {h : Heap K} {op : IOp} {i : Nat}
    {o : Obj} {x : Operand K} (hw : WF h) (ho : h.objs[i]? = some o)
    (hk : ∀ d, o.kind ≠ .quantity d) : (inplace np2 w h op i o x).2.objs = h.objs := by
  cases hk' : o.kind with
  | quantity d => exact absurd hk' (hk d)
  | ndarray => unfold inplace; simp only [hk']
  | unit u =>
    have hro := hw.unit_readonly ho hk'
    have key : ∀ (f : UF2) (g : K → K → K) (y : Operand K),
        (ufuncInto np2 w f g h i o y).2.objs = h.objs := by
      intro f g y
      unfold ufuncInto
      split
      · rfl
      · split
        · rfl
        · simp [hro]
    unfold inplace
    cases op <;> simp only [hk']
    · split
      · rfl
      · exact key _ _ _
    · exact key _ _ _

end
end Heap
end PQ
