import Verif.Spec.Typeset
import Verif.Lemmas.Printing
import Verif.Lemmas.Strings

/-!
# Rewriting unit strings piece by piece
-/

namespace PQ

variable {K : Type _}

/-- A unit string as a list of pieces: characters, multiplication signs, powers. -/
inductive Piece
  | chr (c : Char)
  | times
  | pow (n : ℕ)

def Piece.render : Piece → List Char
  | .chr c => [c]
  | .times => ['*']
  | .pow n => '*' :: '*' :: natDigits n

def Piece.Local : Piece → Prop
  | .chr c => c ≠ '*'
  | _ => True

/-- What may follow what. -/
def Piece.Next : Piece → Piece → Prop
  | .chr _, _ => True
  | .times, .chr _ => True
  | .times, _ => False
  | .pow _, .times => True
  | .pow _, .chr c => isDig c = false ∧ c ≠ '.'
  | .pow _, .pow _ => False

structure PiecesOK (ps : List Piece) : Prop where
  loc : ∀ p ∈ ps, p.Local
  chain : ps.IsChain Piece.Next

def renderAll (ps : List Piece) : List Char := ps.flatMap Piece.render

/-- The pieces with times and powers written differently. -/
def Piece.style (t : List Char) (f : ℕ → List Char) : Piece → List Char
  | .chr c => [c]
  | .times => t
  | .pow n => f n

def restyle (t : List Char) (f : ℕ → List Char) : List Piece → List Char :=
  List.flatMap (Piece.style t f)

theorem PiecesOK.tail {p : Piece} {ps : List Piece} (h : PiecesOK (p :: ps)) : PiecesOK ps :=
  ⟨fun q hq => h.loc q (List.mem_cons_of_mem _ hq), h.chain.tail⟩

theorem takeWhile_digits (ds rest : List Char) (hd : ∀ c ∈ ds, isDig c = true)
    (hr : ∀ c, rest.head? = some c → isDig c = false) : (ds ++ rest).takeWhile isDig = ds := by
  induction ds with
  | nil =>
    cases rest with
    | nil => rfl
    | cons c r => simp [List.takeWhile_cons, hr c rfl]
  | cons d ds ih =>
    rw [List.cons_append, List.takeWhile_cons, if_pos (hd d (by simp)), ih (fun c hc => hd c (by simp [hc]))]

/-- What follows a power starts with neither digit nor point. -/
theorem head_after_pow {n : ℕ} {ps : List Piece} (h : PiecesOK (.pow n :: ps)) :
    ∀ c, (renderAll ps).head? = some c → isDig c = false ∧ c ≠ '.' := by
  intro c hc
  cases ps with
  | nil => simp [renderAll] at hc
  | cons q qs =>
    have hnext := (List.isChain_cons_cons.1 h.chain).1
    cases q with
    | chr x =>
      simp only [renderAll, List.flatMap_cons, Piece.render, List.cons_append, List.head?_cons,
        Option.some.injEq] at hc
      subst hc; exact hnext
    | times =>
      simp only [renderAll, List.flatMap_cons, Piece.render, List.cons_append, List.head?_cons,
        Option.some.injEq] at hc
      subst hc; decide
    | pow m => exact absurd hnext (by simp [Piece.Next])

/-- What follows a multiplication sign is another character. -/
theorem head_after_times {ps : List Piece} (h : PiecesOK (.times :: ps)) :
    (renderAll ps).head? ≠ some '*' := by
  intro hc
  cases ps with
  | nil => simp [renderAll] at hc
  | cons q qs =>
    have hnext := (List.isChain_cons_cons.1 h.chain).1
    cases q with
    | chr x =>
      simp only [renderAll, List.flatMap_cons, Piece.render, List.cons_append, List.head?_cons,
        Option.some.injEq] at hc
      exact h.tail.loc (.chr x) (by simp) hc
    | times => exact absurd hnext (by simp [Piece.Next])
    | pow m => exact absurd hnext (by simp [Piece.Next])

theorem expSubGo_other (pre post : List Char) (n : ℕ) (c : Char) (cs : List Char)
    (h : c ≠ '*' ∨ cs.head? ≠ some '*') :
    expSubGo pre post (n + 1) (c :: cs) = c :: expSubGo pre post n cs := by
  rw [expSubGo]
  rintro rest h1 rfl
  rcases h with h | h
  · exact absurd h1 h
  · exact absurd rfl h

theorem superscriptGo_other (n : ℕ) (c : Char) (cs : List Char)
    (h : c ≠ '*' ∨ cs.head? ≠ some '*') :
    superscriptGo (n + 1) (c :: cs) = c :: superscriptGo n cs := by
  rw [superscriptGo]
  rintro rest h1 rfl
  rcases h with h | h
  · exact absurd h1 h
  · exact absurd rfl h

theorem expSubGo_pieces (pre post : List Char) (ps : List Piece) (h : PiecesOK ps) (n : ℕ)
    (hn : (renderAll ps).length ≤ n) :
    expSubGo pre post n (renderAll ps) = restyle ['*'] (fun n => pre ++ natDigits n ++ post) ps := by
  induction ps generalizing n with
  | nil => cases n <;> rfl
  | cons p ps ih =>
    have hc : renderAll (p :: ps) = p.render ++ renderAll ps := rfl
    cases p with
    | chr c =>
      rw [hc] at hn ⊢
      simp only [Piece.render, List.cons_append, List.nil_append, List.length_cons] at hn ⊢
      obtain ⟨m, rfl⟩ : ∃ m, n = m + 1 := ⟨n - 1, by omega⟩
      rw [expSubGo_other _ _ _ _ _ (.inl (h.loc (.chr c) (by simp))), ih h.tail m (by omega)]
      rfl
    | times =>
      rw [hc] at hn ⊢
      simp only [Piece.render, List.cons_append, List.nil_append, List.length_cons] at hn ⊢
      obtain ⟨m, rfl⟩ : ∃ m, n = m + 1 := ⟨n - 1, by omega⟩
      rw [expSubGo_other _ _ _ _ _ (.inr (head_after_times h)), ih h.tail m (by omega)]
      rfl
    | pow k =>
      rw [hc] at hn ⊢
      simp only [Piece.render, List.cons_append, List.length_cons, List.length_append] at hn ⊢
      obtain ⟨m, rfl⟩ : ∃ m, n = m + 1 := ⟨n - 1, by omega⟩
      have htw := takeWhile_digits (natDigits k) (renderAll ps) (natDigits_isDig k)
        (fun c hc => (head_after_pow h c hc).1)
      have hne : (natDigits k).length ≠ 0 := by
        simp [natDigits_ne_nil]
      rw [expSubGo]
      simp only [htw]
      rw [if_neg hne, List.drop_left, ih h.tail m (by omega)]
      rfl

theorem superscriptGo_pieces (ps : List Piece) (h : PiecesOK ps) (n : ℕ)
    (hn : (renderAll ps).length ≤ n) :
    superscriptGo n (renderAll ps) = restyle ['*'] (fun n => (natDigits n).map supChar) ps := by
  induction ps generalizing n with
  | nil => cases n <;> rfl
  | cons p ps ih =>
    have hc : renderAll (p :: ps) = p.render ++ renderAll ps := rfl
    cases p with
    | chr c =>
      rw [hc] at hn ⊢
      simp only [Piece.render, List.cons_append, List.nil_append, List.length_cons] at hn ⊢
      obtain ⟨m, rfl⟩ : ∃ m, n = m + 1 := ⟨n - 1, by omega⟩
      rw [superscriptGo_other _ _ _ (.inl (h.loc (.chr c) (by simp))), ih h.tail m (by omega)]
      rfl
    | times =>
      rw [hc] at hn ⊢
      simp only [Piece.render, List.cons_append, List.nil_append, List.length_cons] at hn ⊢
      obtain ⟨m, rfl⟩ : ∃ m, n = m + 1 := ⟨n - 1, by omega⟩
      rw [superscriptGo_other _ _ _ (.inr (head_after_times h)), ih h.tail m (by omega)]
      rfl
    | pow k =>
      rw [hc] at hn ⊢
      simp only [Piece.render, List.cons_append, List.length_cons, List.length_append] at hn ⊢
      obtain ⟨m, rfl⟩ : ∃ m, n = m + 1 := ⟨n - 1, by omega⟩
      have htw := takeWhile_digits (natDigits k) (renderAll ps) (natDigits_isDig k)
        (fun c hc => (head_after_pow h c hc).1)
      have hne : (natDigits k).length ≠ 0 := by
        simp [natDigits_ne_nil]
      have hdot : ¬ (renderAll ps).head? = some '.' := fun hc => (head_after_pow h '.' hc).2 rfl
      rw [superscriptGo]
      simp only [htw, List.drop_left, if_neg hdot]
      rw [if_neg hne, List.take_length, ih h.tail m (by omega)]
      rfl

/-- Replacing the remaining multiplication signs. -/
theorem replaceChar_restyle (r : List Char) (f : ℕ → List Char) (hf : ∀ n, '*' ∉ f n) (ps : List Piece)
    (h : ∀ p ∈ ps, p.Local) :
    replaceChar '*' r (restyle ['*'] f ps) = restyle r f ps := by
  induction ps with
  | nil => rfl
  | cons p ps ih =>
    have hc : ∀ t, restyle t f (p :: ps) = p.style t f ++ restyle t f ps := fun _ => rfl
    rw [hc, hc, replaceChar_append, ih (fun q hq => h q (List.mem_cons_of_mem _ hq))]
    congr 1
    cases p with
    | chr c =>
      have : c ≠ '*' := h (.chr c) (by simp)
      exact replaceChar_of_notMem _ (by simpa [Piece.style] using this.symm)
    | times => simp [replaceChar, Piece.style]
    | pow n => exact replaceChar_of_notMem _ (hf n)

theorem replaceDstar_other (c : Char) (cs : List Char) (h : c ≠ '*' ∨ cs.head? ≠ some '*') :
    replaceDstar (c :: cs) = c :: replaceDstar cs := by
  rw [replaceDstar]
  rintro rest rfl h2
  subst h2
  rcases h with h | h
  · exact absurd rfl h
  · exact absurd rfl h

/-- There is no `**` any more. -/
theorem replaceDstar_plain (s : List Char) (h : '*' ∉ s) (t : List Char) :
    replaceDstar (s ++ t) = s ++ replaceDstar t := by
  induction s with
  | nil => rfl
  | cons c s ih =>
    simp only [List.mem_cons, not_or] at h
    rw [List.cons_append, replaceDstar_other _ _ (.inl (fun e => h.1 e.symm)), ih h.2]; rfl

theorem replaceDstar_restyle (f : ℕ → List Char) (hf : ∀ n, '*' ∉ f n) (ps : List Piece)
    (h : PiecesOK ps) : replaceDstar (restyle ['*'] f ps) = restyle ['*'] f ps := by
  induction ps with
  | nil => rfl
  | cons p ps ih =>
    have hc : restyle ['*'] f (p :: ps) = p.style ['*'] f ++ restyle ['*'] f ps := rfl
    rw [hc]
    cases p with
    | chr c =>
      have : c ≠ '*' := h.loc (.chr c) (by simp)
      simp only [Piece.style, List.cons_append, List.nil_append]
      rw [replaceDstar_other _ _ (.inl this), ih h.tail]
    | times =>
      simp only [Piece.style, List.cons_append, List.nil_append]
      rw [replaceDstar_other, ih h.tail]
      refine .inr ?_
      cases ps with
      | nil => simp [restyle]
      | cons q qs =>
        have hnext := (List.isChain_cons_cons.1 h.chain).1
        cases q with
        | chr x =>
          have : x ≠ '*' := h.tail.loc (.chr x) (by simp)
          simpa [restyle, Piece.style] using this
        | times => exact absurd hnext (by simp [Piece.Next])
        | pow m => exact absurd hnext (by simp [Piece.Next])
    | pow n => simp only [Piece.style]; rw [replaceDstar_plain _ (hf n), ih h.tail]

/-! ## Pieces of a unit expression -/

def chrs (s : List Char) : List Piece := s.map .chr

def itemPieces (x : List Char × ℕ) : List Piece := chrs x.1 ++ if x.2 = 1 then [] else [.pow x.2]

def productPieces : List (List Char × ℕ) → List Piece
  | [] => []
  | [x] => itemPieces x
  | x :: xs => itemPieces x ++ .times :: productPieces xs

@[simp] theorem restyle_append (t : List Char) (f : ℕ → List Char) (a b : List Piece) :
    restyle t f (a ++ b) = restyle t f a ++ restyle t f b := by simp [restyle]

@[simp] theorem restyle_chrs (t : List Char) (f : ℕ → List Char) (s : List Char) :
    restyle t f (chrs s) = s := by
  induction s with
  | nil => rfl
  | cons c s ih =>
    change [c] ++ restyle t f (chrs s) = _
    rw [ih]; rfl

theorem renderAll_eq (ps : List Piece) :
    renderAll ps = restyle ['*'] (fun n => '*' :: '*' :: natDigits n) ps := by
  unfold renderAll restyle
  exact List.flatMap_congr (fun p _ => by cases p <;> rfl)

theorem restyle_item (st : Style) (x : List Char × ℕ) :
    restyle st.times st.pow (itemPieces x) = st.item x := by
  unfold itemPieces Style.item
  rw [restyle_append, restyle_chrs]
  congr 1
  split
  · rfl
  · simp [restyle, Piece.style]

theorem restyle_product (st : Style) (l : List (List Char × ℕ)) :
    restyle st.times st.pow (productPieces l) = st.product l := by
  induction l with
  | nil => rfl
  | cons x l ih =>
    cases l with
    | nil => exact restyle_item st x
    | cons y l =>
      rw [productPieces, Style.product, restyle_append, restyle_item]
      · change st.item x ++ (st.times ++ restyle st.times st.pow (productPieces (y :: l))) = _
        rw [ih, List.append_assoc]
      · simp
      · simp

/-! ### They are well formed -/

theorem chain_chrs_append (s : List Char) (qs : List Piece) (h : qs.IsChain Piece.Next) :
    (chrs s ++ qs).IsChain Piece.Next := by
  induction s with
  | nil => exact h
  | cons c s ih =>
    rw [chrs, List.map_cons, List.cons_append, List.isChain_cons]
    exact ⟨fun y _ => by simp [Piece.Next], ih⟩

/-- The first piece is a character, or nothing. -/
def StartsChr (ps : List Piece) : Prop := ∀ p, ps.head? = some p → ∃ c, p = .chr c

/-- A boundary: the first piece may follow a power. -/
def StartsBoundary (ps : List Piece) : Prop := ∀ p, ps.head? = some p → ∀ n, Piece.Next (.pow n) p

theorem item_ok (x : List Char × ℕ) (h : '*' ∉ x.1) (qs : List Piece) (hq : PiecesOK qs)
    (hb : StartsBoundary qs) : PiecesOK (itemPieces x ++ qs) := by
  unfold itemPieces
  rw [List.append_assoc]
  constructor
  · intro p hp
    rw [List.mem_append, List.mem_append] at hp
    rcases hp with hp | hp | hp
    · obtain ⟨c, hc, rfl⟩ := List.mem_map.1 hp
      rintro rfl; exact h hc
    · split at hp
      · simp at hp
      · rw [List.mem_singleton.1 hp]; trivial
    · exact hq.loc p hp
  · refine chain_chrs_append _ _ ?_
    split
    · exact hq.chain
    · rw [List.singleton_append, List.isChain_cons]
      exact ⟨fun y hy => hb y hy _, hq.chain⟩

theorem item_starts {x : List Char × ℕ} (h : x.1 ≠ []) (qs : List Piece) :
    StartsChr (itemPieces x ++ qs) := by
  obtain ⟨c, s, hs⟩ := List.exists_cons_of_ne_nil h
  intro p hp
  rw [itemPieces, hs] at hp
  simp only [chrs, List.map_cons, List.cons_append, List.head?_cons, Option.some.injEq] at hp
  exact ⟨c, hp.symm⟩

theorem product_ok (l : List (List Char × ℕ)) (h : ∀ x ∈ l, x.1 ≠ [] ∧ '*' ∉ x.1) (qs : List Piece)
    (hq : PiecesOK qs) (hb : StartsBoundary qs) : PiecesOK (productPieces l ++ qs) := by
  induction l with
  | nil => exact hq
  | cons x l ih =>
    cases l with
    | nil => exact item_ok x (h x (by simp)).2 qs hq hb
    | cons y l =>
      rw [productPieces, List.append_assoc]
      · have hok := ih (fun z hz => h z (List.mem_cons_of_mem _ hz))
        refine item_ok x (h x (by simp)).2 _ ⟨?_, ?_⟩ ?_
        · intro p hp
          rw [List.cons_append, List.mem_cons] at hp
          rcases hp with rfl | hp
          · trivial
          · exact hok.loc p hp
        · rw [List.cons_append, List.isChain_cons]
          refine ⟨fun p hp => ?_, hok.chain⟩
          have hst : StartsChr (productPieces (y :: l) ++ qs) := by
            cases l with
            | nil => exact item_starts (h y (by simp)).1 qs
            | cons z l =>
              rw [productPieces, List.append_assoc]
              · exact item_starts (h y (by simp)).1 _
              · simp
          obtain ⟨c, rfl⟩ := hst p hp
          trivial
        · intro p hp n
          simp only [List.cons_append, List.head?_cons, Option.some.injEq] at hp
          rw [← hp]; trivial
      · simp

theorem chrs_ok (s : List Char) (h : '*' ∉ s) (qs : List Piece) (hq : PiecesOK qs) :
    PiecesOK (chrs s ++ qs) := by
  refine ⟨fun p hp => ?_, chain_chrs_append s qs hq.chain⟩
  rcases List.mem_append.1 hp with hp | hp
  · obtain ⟨c, hc, rfl⟩ := List.mem_map.1 hp
    rintro rfl; exact h hc
  · exact hq.loc p hp

theorem nil_ok : PiecesOK [] := ⟨by simp, List.isChain_nil⟩

theorem nil_boundary : StartsBoundary [] := by intro p hp; simp at hp

theorem chrs_boundary {c : Char} (s : List Char) (qs : List Piece) (hc : isDig c = false) (hd : c ≠ '.') :
    StartsBoundary (chrs (c :: s) ++ qs) := by
  intro p hp n
  simp only [chrs, List.map_cons, List.cons_append, List.head?_cons, Option.some.injEq] at hp
  rw [← hp]; exact ⟨hc, hd⟩

/-- The pieces of an expression, with the fraction written `pre a mid b post`. -/
def exprPieces (pre mid post : List Char) (a b : List (List Char × ℕ)) : List Piece :=
  if b = [] then (if a = [] then chrs "dimensionless".toList else productPieces a)
  else
    chrs pre ++ ((if a = [] then chrs ['1'] else productPieces a) ++ (chrs mid ++
      ((if 1 < b.length then chrs ['('] ++ (productPieces b ++ chrs [')']) else productPieces b) ++
        chrs post)))

/-- Both are styles of the same pieces. -/
theorem restyle_expr (st : Style) (pre mid post : List Char)
    (hst : ∀ x y, st.fraction x y = pre ++ x ++ mid ++ y ++ post) (a b : List (List Char × ℕ)) :
    restyle st.times st.pow (exprPieces pre mid post a b) = st.typeset a b := by
  unfold exprPieces Style.typeset
  split
  · split
    · exact restyle_chrs _ _ _
    · exact restyle_product st _
  · rw [hst]
    simp only [restyle_append, restyle_chrs, List.append_assoc]
    congr 2
    · split
      · exact restyle_chrs _ _ _
      · exact restyle_product st _
    · congr 2
      split
      · simp only [restyle_append, restyle_chrs, restyle_product]; rfl
      · exact restyle_product st _

theorem product_starts {a : List (List Char × ℕ)} (ha : a ≠ []) (h : ∀ x ∈ a, x.1 ≠ []) (qs : List Piece) :
    StartsChr (productPieces a ++ qs) := by
  cases a with
  | nil => exact absurd rfl ha
  | cons x l =>
    cases l with
    | nil => exact item_starts (h x (by simp)) qs
    | cons z l =>
      rw [productPieces, List.append_assoc]
      · exact item_starts (h x (by simp)) _
      · simp

theorem expr_ok (pre mid post : List Char) (a b : List (List Char × ℕ))
    (h1 : '*' ∉ pre) (h2 : '*' ∉ mid) (h3 : '*' ∉ post)
    (hm : ∃ c s, mid = c :: s ∧ isDig c = false ∧ c ≠ '.')
    (hp : ∀ c, post.head? = some c → isDig c = false ∧ c ≠ '.')
    (ha : ∀ x ∈ a, x.1 ≠ [] ∧ '*' ∉ x.1) (hb : ∀ x ∈ b, x.1 ≠ [] ∧ '*' ∉ x.1) :
    PiecesOK (exprPieces pre mid post a b) := by
  have chrs' : ∀ s : List Char, '*' ∉ s → PiecesOK (chrs s) := fun s hs => by
    have := chrs_ok s hs [] nil_ok
    rwa [List.append_nil] at this
  have prod' : ∀ l : List (List Char × ℕ), (∀ x ∈ l, x.1 ≠ [] ∧ '*' ∉ x.1) → PiecesOK (productPieces l) :=
    fun l hl => by
      have := product_ok l hl [] nil_ok nil_boundary
      rwa [List.append_nil] at this
  have hpb : StartsBoundary (chrs post) := by
    cases post with
    | nil => exact nil_boundary
    | cons c s =>
      obtain ⟨q1, q2⟩ := hp c rfl
      have := chrs_boundary s [] q1 q2
      rwa [List.append_nil] at this
  unfold exprPieces
  split
  · split
    · exact chrs' _ (by decide)
    · exact prod' _ ha
  · obtain ⟨c, s, rfl, hc, hd⟩ := hm
    refine chrs_ok _ h1 _ ?_
    have hden : PiecesOK ((if 1 < b.length then chrs ['('] ++ (productPieces b ++ chrs [')'])
        else productPieces b) ++ chrs post) := by
      split
      · simp only [List.append_assoc]
        refine chrs_ok _ (by decide) _ (product_ok b hb _ (chrs_ok _ (by decide) _ (chrs' _ h3)) ?_)
        exact chrs_boundary [] _ (by decide) (by decide)
      · exact product_ok b hb _ (chrs' _ h3) hpb
    have hmid := chrs_ok _ h2 _ hden
    split
    · exact chrs_ok _ (by decide) _ hmid
    · exact product_ok a ha _ hmid (chrs_boundary s _ hc hd)

end PQ
