import Verif.Model.RegistrySums
import Verif.Spec.UnitSums
import Verif.Lemmas.UnitText2
import Verif.Props.Dispatch
import Verif.Props.Arithmetic

/-! # Lemmas about sums in unit strings -/

namespace PQ

open Dict LawfulRPow

variable {K : Type _}

def signTok (neg : Bool) : Tok := if neg then .minus else .plus
def signOp (neg : Bool) : PyBinOp := if neg then .sub else .add

/-- Tree of a sum. -/
def tailAst : List (Bool × UX) → PyAST → PyAST
  | [], a => a
  | (neg, f) :: l, a => tailAst l (.binOp (signOp neg) a f.ast)

theorem tailAst_arith : ∀ (l : List (Bool × UX)) (a : PyAST), Arithmetic a → Arithmetic (tailAst l a)
  | [], _, h => h
  | (_, f) :: l, _, h => tailAst_arith l _ (.binOp _ h f.ast_arith)

/-- The tokens of the rest of a sum. -/
inductive TailToks : List (Bool × UX) → List Tok → Prop
  | nil : TailToks [] []
  | cons {neg f l ts tl} : Parses .term f ts → TailToks l tl → TailToks ((neg, f) :: l) (signTok neg :: ts ++ tl)

theorem TailToks.head {l : List (Bool × UX)} {tl : List Tok} (h : TailToks l tl) :
    tl = [] ∨ ∃ neg r, tl = signTok neg :: r := by
  cases h with
  | nil => exact .inl rfl
  | cons hp ht => exact .inr ⟨_, _, rfl⟩

theorem TailToks.not_dstar {l : List (Bool × UX)} {tl : List Tok} (h : TailToks l tl) : tl.head? ≠ some .dstar := by
  rcases h.head with rfl | ⟨neg, r, rfl⟩
  · simp
  · cases neg <;> simp [signTok]

theorem pTermLoop_tail {l : List (Bool × UX)} {tl : List Tok} (h : TailToks l tl) (n : Nat) (a : PyAST) :
    pTermLoop (n + 1) a tl = some (a, tl) := by
  rcases h.head with rfl | ⟨neg, r, rfl⟩
  · rfl
  · cases neg <;> rfl

theorem pSumLoop_tail {l : List (Bool × UX)} {tl : List Tok} (h : TailToks l tl) : ∀ (n : Nat) (a : PyAST),
    8 * tl.length < n → pSumLoop n a tl = some (tailAst l a, []) := by
  induction h with
  | nil => intro n a hn; obtain ⟨k, rfl⟩ : ∃ k, n = k + 1 := ⟨n - 1, by omega⟩; rfl
  | @cons neg f l ts tl hp ht ih =>
    intro n a hn
    simp only [List.cons_append, List.length_cons, List.length_append] at hn
    obtain ⟨k, rfl⟩ : ∃ k, n = k + 1 := ⟨n - 1, by omega⟩
    obtain ⟨m, hm, he⟩ := hp.2 k tl (by omega) ht.not_dstar
    have h1 := hp.1
    obtain ⟨m', rfl⟩ : ∃ m', m = m' + 1 := ⟨m - 1, by omega⟩
    have key : pTerm k (ts ++ tl) = some (f.ast, tl) := by rw [he, pTermLoop_tail ht]
    rw [List.cons_append, tailAst]
    cases neg with
    | false =>
      show pSumLoop (k + 1) a (.plus :: (ts ++ tl)) = _
      rw [pSumLoop, key]
      exact ih k _ (by omega)
    | true =>
      show pSumLoop (k + 1) a (.minus :: (ts ++ tl)) = _
      rw [pSumLoop, key]
      exact ih k _ (by omega)

theorem pSum_tail {e : UX} {ts : List Tok} (h : Parses .term e ts) {l : List (Bool × UX)} {tl : List Tok}
    (ht : TailToks l tl) {n : Nat} (hn : 8 * (ts ++ tl).length + 1 < n) :
    pSum n (ts ++ tl) = some (tailAst l e.ast, []) := by
  simp only [List.length_append] at hn
  obtain ⟨k, rfl⟩ : ∃ k, n = k + 1 := ⟨n - 1, by omega⟩
  obtain ⟨m, hm, he⟩ := h.2 k tl (by omega) ht.not_dstar
  have := h.1
  obtain ⟨m', rfl⟩ : ∃ m', m = m' + 1 := ⟨m - 1, by omega⟩
  rw [pSum, he, pTermLoop_tail ht]
  exact pSumLoop_tail ht k _ (by omega)

/-- The plain form of the rest of a sum. -/
structure ReadsTail (l : List (Bool × UX)) (s : List Char) : Prop where
  toks : ∃ tl, TailToks l tl ∧ ∀ rest, Bd rest → Bd (plainOps s ++ rest) ∧
    lexGo .idle (plainOps s ++ rest) = (lexGo .idle rest).map (tl ++ ·)
  clean : Clean true (plainOps s)

theorem WritesTail.reads {l : List (Bool × UX)} {s : List Char} (h : WritesTail l s) : ReadsTail l s := by
  induction h with
  | nil =>
    refine ⟨⟨[], .nil, fun rest hr => ⟨hr, ?_⟩⟩, trivial⟩
    show lexGo .idle rest = _
    cases lexGo .idle rest <;> rfl
  | @cons neg f l t s b₁ b₂ h₁ h₂ hw _ ih =>
    obtain ⟨⟨tl, htl, hlex⟩, hcl⟩ := ih
    obtain ⟨⟨ts, hl, hp⟩, hst, hc⟩ := hw.reads
    have hop : plainOps [if neg then '-' else '+'] = [if neg then '-' else '+'] := by cases neg <;> decide
    have he : plainOps (b₁ ++ [if neg then '-' else '+'] ++ b₂ ++ t ++ s) =
        b₁ ++ [if neg then '-' else '+'] ++ b₂ ++ plainOps t ++ plainOps s := by
      simp only [plainOps_append, plainOps_blank h₁, plainOps_blank h₂, hop]
    refine ⟨⟨signTok neg :: ts ++ tl, .cons hp htl, fun rest hr => ?_⟩, ?_⟩
    · obtain ⟨hb, hx⟩ := hlex rest hr
      rw [he]
      have e : b₁ ++ [if neg then '-' else '+'] ++ b₂ ++ plainOps t ++ plainOps s ++ rest =
          b₁ ++ ((if neg then '-' else '+') :: (b₂ ++ (plainOps t ++ (plainOps s ++ rest)))) := by simp
      rw [e]
      constructor
      · refine bd_blank h₁ (Or.inr ⟨_, _, rfl, ?_⟩)
        cases neg <;> simp
      · have hs : ∀ r : List Char, lexGo .idle ((if neg then '-' else '+') :: r) =
            (lexGo .idle r).map ([signTok neg] ++ ·) := by
          intro r
          cases neg with
          | false =>
            exact lexGo_sym (t := .plus) (by decide) (by decide) (by
              intro c' r _ h; rcases h with ⟨h, -⟩ | ⟨h, -⟩ <;> exact absurd h (by decide))
          | true =>
            exact lexGo_sym (t := .minus) (by decide) (by decide) (by
              intro c' r _ h; rcases h with ⟨h, -⟩ | ⟨h, -⟩ <;> exact absurd h (by decide))
        rw [lexGo_blank h₁, hs, lexGo_blank h₂, hl _ hb, hx, Option.map_map, Option.map_map]
        congr 1
        funext x; simp
    · rw [he]
      refine (((clean_blank h₁ _).append (clean_true_cons (s := []) ?_ trivial)).append
        (clean_blank h₂ _)).append hc |>.append hcl
      cases neg <;> decide

/-- The plain form of a sum. -/
theorem preprocess_sum {e : UX} {s : List Char} {l : List (Bool × UX)} {r b : List Char} (h : Reads .term e s)
    (ht : ReadsTail l r) (hb : Blank b) (hin : isIn (s ++ r ++ b) = false) :
    preprocess (s ++ r ++ b) = plainOps s ++ plainOps r ++ b := by
  have he : plainOps (s ++ r ++ b) = plainOps s ++ plainOps r ++ b := by
    rw [plainOps_append, plainOps_append, plainOps_blank hb]
  have hcl : Clean false (plainOps s ++ plainOps r ++ b) := ((h.clean.append ht.clean).append (clean_blank hb _)).mono
  have hne : plainOps s ++ plainOps r ++ b ≠ [] := by
    obtain ⟨c, r, hr, -⟩ := h.start
    rw [hr]; simp
  obtain ⟨-, -, h3⟩ := hcl.notMem
  have hc : (plainOps s ++ plainOps r ++ b).contains '%' = false := by simpa using h3
  have hi : isIn (plainOps s ++ plainOps r ++ b) = false := by
    rw [← he]
    rcases plainOps_star (s ++ r ++ b) with h' | h'
    · rw [h']; exact hin
    · by_contra hx
      have hx : isIn (plainOps (s ++ r ++ b)) = true := by simpa using hx
      simp only [isIn, Bool.or_eq_true, beq_iff_eq] at hx
      rcases hx with ((hx | hx) | hx) | hx <;> (rw [hx] at h'; revert h'; decide)
  unfold preprocess
  change (let s := dotSub (plainOps (s ++ r ++ b))
          let s := if s = [] then "dimensionless".toList else s
          let s := if s.contains '%' then replaceChar '%' "percent".toList s else s
          if isIn s then "inch".toList else s) = _
  simp only [he, hcl.dotSub, hne, if_false, hc, hi, Bool.false_eq_true]

/-- Reading a written sum evaluates its tree. -/
theorem lookup_sum [One K] [Mul K] [Div K] [Neg K] [RPow K] [RatCast K]
    (P : List Char → Py PyAST) (F : PyOps K) (w : World K) {e : UX} {l : List (Bool × UX)} {s b : List Char}
    (h : WritesSum e l s) (hb : Blank b) (hin : ¬ LooksLikeIn (s ++ b)) :
    w.lookup P F (s ++ b) = evalTree (stdOps F) w (tailAst l e.ast) := by
  obtain ⟨t, r, hw, ht, rfl⟩ := h
  have hr := hw.reads
  have htr := ht.reads
  have hi : isIn (t ++ r ++ b) = false := by
    by_contra hx
    exact hin (looksLikeIn_of_isIn (by simpa using hx))
  obtain ⟨ts, hl, hp⟩ := hr.toks
  obtain ⟨tl, htt, hlt⟩ := htr.toks
  have hlexes : Lexes (plainOps t ++ plainOps r) (ts ++ tl) := by
    intro rest hrest
    obtain ⟨h1, h2⟩ := hlt rest hrest
    rw [List.append_assoc, hl _ h1, h2, Option.map_map]
    congr 1
    funext x; simp
  have hlex : lex (plainOps t ++ plainOps r ++ b) = some (ts ++ tl) := by
    have := (hlexes.blank (b₁ := []) (b₂ := b) (by simp [Blank]) hb)
    rw [List.nil_append] at this
    exact this.lex ((hr.start.append _).append _)
  have hpar : parseWith P (plainOps t ++ plainOps r ++ b) = .ok (tailAst l e.ast) := by
    unfold parseWith
    rw [hlex]
    have := pSum_tail hp htt (n := 8 * (ts ++ tl).length + 8) (by omega)
    simp only [this]
  rw [World.lookup, PQ.lookup, preprocess_sum hr htr hb hi, registryGet, hpar]
  simp only [valid_iff.2 (tailAst_arith l _ e.ast_arith), if_true]

end PQ
