import Verif.Lemmas.RoundTrip

/-! # Parsing and evaluating a printed dimensionality -/

namespace PQ

open Dict LawfulRPow

variable {K : Type _}

/-- A unit with an optional exponent. -/
structure Item where
  id : List Char
  e : Option ℚ

/-- Its tokens. -/
def Item.toks (i : Item) : List Tok :=
  match i.e with
  | none => [.name i.id]
  | some q => [.name i.id, .dstar, .num q]

/-- Its syntax tree. -/
def Item.ast (i : Item) : PyAST :=
  match i.e with
  | none => .name i.id
  | some q => .binOp .pow (.name i.id) (.constant (.num q))

/-- Tokens of `*i*j*...`. -/
def starToks : List Item → List Tok
  | [] => []
  | i :: is => .star :: i.toks ++ starToks is

/-- Tree of `a*i*j*...`. -/
def prodAst (a : PyAST) (is : List Item) : PyAST := is.foldl (fun a i => .binOp .mul a i.ast) a

theorem pFactor_name (n : Nat) (id : List Char) (r : List Tok) (hr : r.head? ≠ some .dstar) :
    pFactor (n + 2) (.name id :: r) = some (.name id, r) := by
  cases r with
  | nil => rfl
  | cons t r => cases t <;> first | rfl | exact absurd rfl hr

theorem pFactor_num (n : Nat) (q : ℚ) (r : List Tok) (hr : r.head? ≠ some .dstar) :
    pFactor (n + 2) (.num q :: r) = some (.constant (.num q), r) := by
  cases r with
  | nil => rfl
  | cons t r => cases t <;> first | rfl | exact absurd rfl hr

theorem pFactor_item (n : Nat) (i : Item) (r : List Tok) (hr : r.head? ≠ some .dstar) :
    pFactor (n + 4) (i.toks ++ r) = some (i.ast, r) := by
  obtain ⟨id, e⟩ := i
  cases e with
  | none => exact pFactor_name (n + 2) id r hr
  | some q =>
    change pFactor (n + 3 + 1) (.name id :: .dstar :: .num q :: r) = _
    rw [pFactor.eq_def]
    simp only [pAtom]
    rw [pFactor_num (n + 1) q r hr]
    rfl

theorem starToks_head (is : List Item) (r : List Tok) (hr : r.head? ≠ some .dstar) :
    (starToks is ++ r).head? ≠ some .dstar := by
  cases is with
  | nil => exact hr
  | cons i is => simp [starToks]

theorem pTermLoop_star (is : List Item) (n : Nat) (a : PyAST) (r : List Tok)
    (hr : r.head? ≠ some .dstar) :
    pTermLoop (n + is.length + 5) a (starToks is ++ r) = pTermLoop (n + 5) (prodAst a is) r := by
  induction is generalizing a with
  | nil => rfl
  | cons i is ih =>
    have e : n + (i :: is).length + 5 = (n + is.length + 5) + 1 := by simp; omega
    rw [e]
    change pTermLoop (n + is.length + 5 + 1) a (.star :: i.toks ++ starToks is ++ r) = _
    rw [List.cons_append, List.cons_append, List.append_assoc, pTermLoop,
      pFactor_item (n + is.length + 1) i _ (starToks_head is r hr)]
    exact ih _

/-- Tokens that end a term. -/
def EndsTerm (r : List Tok) : Prop := r = [] ∨ ∃ r', r = .rpar :: r'

theorem EndsTerm.head {r : List Tok} (h : EndsTerm r) : r.head? ≠ some .dstar := by
  rcases h with rfl | ⟨r', rfl⟩ <;> simp

theorem pTermLoop_end (n : Nat) (a : PyAST) {r : List Tok} (h : EndsTerm r) :
    pTermLoop (n + 1) a r = some (a, r) := by
  rcases h with rfl | ⟨r', rfl⟩ <;> rfl

theorem pSumLoop_end (n : Nat) (a : PyAST) {r : List Tok} (h : EndsTerm r) :
    pSumLoop (n + 1) a r = some (a, r) := by
  rcases h with rfl | ⟨r', rfl⟩ <;> rfl

/-- A product of items. -/
theorem pSum_prod (i : Item) (is : List Item) (n : Nat) {r : List Tok} (h : EndsTerm r) :
    pSum (n + is.length + 7) (i.toks ++ starToks is ++ r) = some (prodAst i.ast is, r) := by
  rw [pSum, pTerm, List.append_assoc, pFactor_item (n + is.length + 1) i _ (starToks_head is r h.head)]
  simp only
  rw [pTermLoop_star is n _ r h.head, pTermLoop_end _ _ h]
  simp only
  exact pSumLoop_end _ _ h

/-- The denominator of a printed dimensionality. -/
inductive Denom
  | one (i : Item)
  | many (i : Item) (is : List Item)

/-- Tokens of a denominator. -/
def Denom.toks : Denom → List Tok
  | .one i => i.toks
  | .many i is => .lpar :: (i.toks ++ starToks is) ++ [.rpar]

/-- Tree of a denominator. -/
def Denom.ast : Denom → PyAST
  | .one i => i.ast
  | .many i is => prodAst i.ast is

/-- Number of further factors. -/
def Denom.len : Denom → Nat
  | .one _ => 0
  | .many _ is => is.length

theorem pFactor_denom (n : Nat) (d : Denom) :
    pFactor (n + d.len + 9) d.toks = some (d.ast, []) := by
  cases d with
  | one i =>
    have := pFactor_item (n + 5) i [] (by simp)
    rw [List.append_nil] at this
    exact this
  | many i is =>
    change pFactor (n + is.length + 8 + 1) (.lpar :: ((i.toks ++ starToks is) ++ [.rpar])) = _
    rw [pFactor.eq_def]
    simp only [pAtom]
    rw [pSum_prod i is n (r := [.rpar]) (Or.inr ⟨[], rfl⟩)]
    rfl

/-- `num/den` where the numerator is a product of items. -/
theorem pSum_frac (i : Item) (is : List Item) (d : Denom) (n : Nat) :
    pSum (n + is.length + d.len + 20) (i.toks ++ starToks is ++ .slash :: d.toks) =
      some (.binOp .div (prodAst i.ast is) d.ast, []) := by
  have e : n + is.length + d.len + 20 = ((n + d.len + 13) + is.length + 5) + 2 := by omega
  rw [e, pSum, pTerm, List.append_assoc,
    show (n + d.len + 13) + is.length + 5 = (n + d.len + is.length + 14) + 4 by omega,
    pFactor_item (n + d.len + is.length + 14) i _ (starToks_head is _ (by simp))]
  simp only
  rw [show n + d.len + is.length + 14 + 4 = (n + d.len + 13) + is.length + 5 by omega,
    pTermLoop_star is (n + d.len + 13) _ _ (by simp)]
  rw [show n + d.len + 13 + 5 = ((n + 8) + d.len + 9) + 1 by omega, pTermLoop, pFactor_denom]
  simp only
  rw [show n + 8 + d.len + 9 = (n + d.len + 16) + 1 by omega, pTermLoop_end _ _ (Or.inl rfl)]
  simp only
  exact pSumLoop_end _ _ (Or.inl rfl)

/-- `1/den`. -/
theorem pSum_inv (d : Denom) (n : Nat) :
    pSum (n + d.len + 20) (.num 1 :: .slash :: d.toks) =
      some (.binOp .div (.constant (.num 1)) d.ast, []) := by
  rw [show n + d.len + 20 = (n + d.len + 16 + 2) + 2 by omega, pSum, pTerm,
    pFactor_num (n + d.len + 16) 1 _ (by simp)]
  simp only
  rw [show n + d.len + 16 + 2 = ((n + 8) + d.len + 9) + 1 by omega, pTermLoop, pFactor_denom]
  simp only
  rw [show n + 8 + d.len + 9 = (n + d.len + 16) + 1 by omega, pTermLoop_end _ _ (Or.inl rfl)]
  simp only
  exact pSumLoop_end _ _ (Or.inl rfl)

theorem Item.toks_length (i : Item) : 1 ≤ i.toks.length := by
  obtain ⟨id, e⟩ := i; cases e <;> simp [Item.toks]

theorem starToks_length (is : List Item) : 2 * is.length ≤ (starToks is).length := by
  induction is with
  | nil => simp [starToks]
  | cons i is ih => have := i.toks_length; simp [starToks]; omega

theorem Denom.toks_length (d : Denom) : d.len + 1 ≤ d.toks.length := by
  cases d with
  | one i => have := i.toks_length; simp [Denom.len, Denom.toks]; omega
  | many i is =>
    have := i.toks_length; have := starToks_length is
    simp [Denom.len, Denom.toks]; omega

theorem parse_prod (P : List Char → Py PyAST) {s : List Char} {i : Item} {is : List Item}
    (h : lex s = some (i.toks ++ starToks is)) : parseWith P s = .ok (prodAst i.ast is) := by
  unfold parseWith
  rw [h]
  have h1 := i.toks_length
  have h2 := starToks_length is
  obtain ⟨n, hn⟩ : ∃ n, 8 * (i.toks ++ starToks is).length + 8 = n + is.length + 7 :=
    ⟨8 * (i.toks ++ starToks is).length + 8 - is.length - 7, by simp; omega⟩
  have := pSum_prod i is n (r := []) (Or.inl rfl)
  rw [List.append_nil] at this
  simp only [hn, this]

theorem parse_frac (P : List Char → Py PyAST) {s : List Char} {i : Item} {is : List Item} {d : Denom}
    (h : lex s = some (i.toks ++ starToks is ++ .slash :: d.toks)) :
    parseWith P s = .ok (.binOp .div (prodAst i.ast is) d.ast) := by
  unfold parseWith
  rw [h]
  have h1 := i.toks_length
  have h2 := starToks_length is
  have h3 := d.toks_length
  obtain ⟨n, hn⟩ : ∃ n, 8 * (i.toks ++ starToks is ++ .slash :: d.toks).length + 8 =
      n + is.length + d.len + 20 :=
    ⟨8 * (i.toks ++ starToks is ++ .slash :: d.toks).length + 8 - is.length - d.len - 20,
      by simp; omega⟩
  simp only [hn, pSum_frac]

theorem parse_inv (P : List Char → Py PyAST) {s : List Char} {d : Denom}
    (h : lex s = some (.num 1 :: .slash :: d.toks)) :
    parseWith P s = .ok (.binOp .div (.constant (.num 1)) d.ast) := by
  unfold parseWith
  rw [h]
  have h3 := d.toks_length
  obtain ⟨n, hn⟩ : ∃ n, 8 * (Tok.num 1 :: .slash :: d.toks).length + 8 = n + d.len + 20 :=
    ⟨8 * (Tok.num 1 :: .slash :: d.toks).length + 8 - d.len - 20, by simp; omega⟩
  simp only [hn, pSum_inv]

theorem parse_name (P : List Char → Py PyAST) {s : List Char} {id : List Char}
    (h : lex s = some [.name id]) : parseWith P s = .ok (.name id) := by
  have := parse_prod P (s := s) (i := ⟨id, none⟩) (is := []) (by simpa [Item.toks, starToks] using h)
  simpa [prodAst, Item.ast] using this

/-! ## evaluation -/

section eval
variable [Field K] [LinearOrder K] [IsStrictOrderedRing K] [RPow K] [LawfulRPow K]

/-- The tree evaluates to a quantity of magnitude 1 with the given exponents. -/
def EvalsTo (F : PyOps K) (w : World K) (t : PyAST) (f : UKey → ℚ) : Prop :=
  ∃ v q, evalTree (stdOps F) w t = .ok v ∧ v.asQty = some q ∧ q.mag = 1 ∧ Canon q.dim ∧
    ∀ u, expo q.dim u = f u

omit [LinearOrder K] [IsStrictOrderedRing K] [RPow K] [LawfulRPow K] in
theorem asNum_none {v : RVal K} {q : SQ K} (h : v.asQty = some q) : v.asNum = none := by
  cases v <;> simp_all [RVal.asQty, RVal.asNum]

theorem canon_single (u : UKey) {e : ℚ} (h : e ≠ 0) : Canon [(u, e)] :=
  ⟨by simp [Dict.Nodup], by simpa using h⟩

/-- An item denotes its unit to its exponent. -/
theorem evalsTo_item (F : PyOps K) (w : World K) {u : UKey} {id : List Char} {e : Option ℚ}
    (hr : get? w.registry (String.ofList id) = some u) (hu : u.cls ≠ .dimensionless) :
    EvalsTo F w (Item.ast ⟨id, e⟩) (fun v => if u = v then e.getD 1 else 0) := by
  have hctx : w.context id = .ok (.unit u) := by simp [World.context, hr]
  have hud : unitDim u = [(u, 1)] := by simp [unitDim, hu]
  cases e with
  | none =>
    refine ⟨.unit u, ⟨1, unitDim u⟩, by simp [Item.ast, evalTree, hctx], rfl, rfl, ?_, ?_⟩
    · simp only [hud]; exact canon_single u one_ne_zero
    · intro v; simp only [hud, expo_cons]; simp [expo, get?]
  | some q =>
    refine ⟨.qty ⟨rpow 1 q, Dim.pow (unitDim u) q⟩, _, ?_, rfl, ?_, ?_, ?_⟩
    · simp [Item.ast, evalTree, hctx, stdOps, stdBin, RVal.asQty, RVal.asNum]
    · exact rpow_one_left q
    · simp only [hud]; exact canon_pow (canon_single u one_ne_zero) q
    · intro v
      simp only [hud, expo_pow, expo_cons]
      by_cases h : u = v <;> simp [h, expo, get?]

omit [LinearOrder K] [IsStrictOrderedRing K] [LawfulRPow K] in
theorem EvalsTo.mul {F : PyOps K} {w : World K} {s t : PyAST} {f g : UKey → ℚ}
    (hs : EvalsTo F w s f) (ht : EvalsTo F w t g) :
    EvalsTo F w (.binOp .mul s t) (fun u => f u + g u) := by
  obtain ⟨v, q, h1, h2, h3, h4, h5⟩ := hs
  obtain ⟨v', q', h1', h2', h3', h4', h5'⟩ := ht
  refine ⟨.qty ⟨q.mag * q'.mag, Dim.mul q.dim q'.dim⟩, _, ?_, rfl, ?_, ?_, ?_⟩
  · rw [evalTree, h1, h1']
    simp only [stdOps, stdBin, h2, h2']
  · simp [h3, h3']
  · exact canon_mul h4 h4'.nonzero
  · intro u; rw [expo_mul h4.nodup h4'.nodup, h5, h5']

omit [LinearOrder K] [IsStrictOrderedRing K] [LawfulRPow K] in
theorem EvalsTo.div {F : PyOps K} {w : World K} {s t : PyAST} {f g : UKey → ℚ}
    (hs : EvalsTo F w s f) (ht : EvalsTo F w t g) :
    EvalsTo F w (.binOp .div s t) (fun u => f u - g u) := by
  obtain ⟨v, q, h1, h2, h3, h4, h5⟩ := hs
  obtain ⟨v', q', h1', h2', h3', h4', h5'⟩ := ht
  refine ⟨.qty ⟨q.mag / q'.mag, Dim.div q.dim q'.dim⟩, _, ?_, rfl, ?_, ?_, ?_⟩
  · rw [evalTree, h1, h1']
    simp only [stdOps, stdBin, h2, h2']
  · simp [h3, h3']
  · exact canon_div h4 h4'.nonzero
  · intro u; rw [expo_div h4.nodup h4'.nodup, h5, h5']

omit [LinearOrder K] [IsStrictOrderedRing K] [LawfulRPow K] in
theorem EvalsTo.inv {F : PyOps K} {w : World K} {t : PyAST} {g : UKey → ℚ}
    (ht : EvalsTo F w t g) :
    EvalsTo F w (.binOp .div (.constant (.num 1)) t) (fun u => - g u) := by
  obtain ⟨v', q', h1', h2', h3', h4', h5'⟩ := ht
  refine ⟨.qty ⟨((1 : ℚ) : K) / q'.mag, Dim.pow q'.dim (-1)⟩, _, ?_, rfl, ?_, ?_, ?_⟩
  · rw [evalTree, evalTree, h1']
    simp only [stdOps, stdBin, h2']
    rfl
  · simp [h3']
  · exact canon_pow (p := -1) h4'
  · intro u; change expo (Dim.pow q'.dim (-1)) u = _; rw [expo_pow, h5']; ring

/-- Exponent contributed by a list of items. -/
def itemsExp : List (UKey × ℚ) → UKey → ℚ
  | [], _ => 0
  | (k, e) :: l, u => (if k = u then e else 0) + itemsExp l u

theorem itemsExp_append (a b : List (UKey × ℚ)) (u : UKey) :
    itemsExp (a ++ b) u = itemsExp a u + itemsExp b u := by
  induction a with
  | nil => simp [itemsExp]
  | cons x a ih => simp [itemsExp, ih, add_assoc]

theorem itemsExp_perm {a b : List (UKey × ℚ)} (h : a.Perm b) (u : UKey) : itemsExp a u = itemsExp b u := by
  induction h with
  | nil => rfl
  | cons x _ ih => simp [itemsExp, ih]
  | swap x y l => simp only [itemsExp]; ring
  | trans _ _ h1 h2 => rw [h1, h2]

theorem itemsExp_notMem {d : Dim} {u : UKey} (h : u ∉ d.map Prod.fst) : itemsExp d u = 0 := by
  induction d with
  | nil => rfl
  | cons x d ih =>
    simp only [List.map_cons, List.mem_cons, not_or] at h
    simp [itemsExp, ih h.2, Ne.symm h.1]

theorem itemsExp_eq_expo {d : Dim} (h : Nodup d) (u : UKey) : itemsExp d u = expo d u := by
  induction d with
  | nil => simp [itemsExp, expo, get?]
  | cons x d ih =>
    obtain ⟨k, e⟩ := x
    have h' : k ∉ d.map Prod.fst ∧ Nodup d := by
      simpa [Dict.Nodup] using h
    rw [expo_cons]
    by_cases hk : k = u
    · subst hk; simp [itemsExp, itemsExp_notMem h'.1]
    · simp [itemsExp, hk, ih h'.2]

/-- An item printed for unit `u` with exponent `e`. -/
structure ItemFor (w : World K) (i : Item) (u : UKey) (e : ℚ) : Prop where
  resolves : get? w.registry (String.ofList i.id) = some u
  cls : u.cls ≠ .dimensionless
  exp : i.e.getD 1 = e

theorem evalsTo_prod (F : PyOps K) (w : World K) (is : List Item) (l : List (UKey × ℚ))
    (h : List.Forall₂ (fun i kv => ItemFor w i kv.1 kv.2) is l) {t : PyAST} {f : UKey → ℚ}
    (ht : EvalsTo F w t f) :
    EvalsTo F w (prodAst t is) (fun u => f u + itemsExp l u) := by
  induction h generalizing t f with
  | nil => simpa [prodAst, itemsExp] using ht
  | @cons i kv is l hi _ ih =>
    have h1 : EvalsTo F w i.ast (fun v => if kv.1 = v then kv.2 else 0) := by
      have := evalsTo_item F w (e := i.e) hi.resolves hi.cls
      rw [hi.exp] at this; exact this
    have := ih (ht.mul h1)
    rw [show prodAst t (i :: is) = prodAst (.binOp .mul t i.ast) is from rfl]
    convert this using 2 with u
    obtain ⟨k, e⟩ := kv
    simp only [itemsExp]; ring

theorem evalsTo_prod1 (F : PyOps K) (w : World K) (i : Item) (is : List Item) (kv : UKey × ℚ)
    (l : List (UKey × ℚ)) (hi : ItemFor w i kv.1 kv.2)
    (h : List.Forall₂ (fun i kv => ItemFor w i kv.1 kv.2) is l) :
    EvalsTo F w (prodAst i.ast is) (itemsExp (kv :: l)) := by
  have h1 : EvalsTo F w i.ast (fun v => if kv.1 = v then kv.2 else 0) := by
    have := evalsTo_item F w (e := i.e) hi.resolves hi.cls
    rw [hi.exp] at this; exact this
  have := evalsTo_prod F w is l h h1
  obtain ⟨k, e⟩ := kv
  exact this

end eval
end PQ
