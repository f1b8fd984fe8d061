import Verif.Spec.UnitText
import Verif.Lemmas.RoundTrip3

/-! # Reading a unit string -/

namespace PQ

open Dict LawfulRPow

variable {K : Type _}

set_option linter.unusedSectionVars false

/-- Syntax tree of an expression. -/
def UX.ast : UX → PyAST
  | .name s => .name s
  | .num q => .constant (.num q)
  | .neg a => .unaryOp .uSub a.ast
  | .mul a b => .binOp .mul a.ast b.ast
  | .div a b => .binOp .div a.ast b.ast
  | .pow a b => .binOp .pow a.ast b.ast

theorem UX.ast_arith (e : UX) : Arithmetic e.ast := by
  induction e with
  | name s => exact .name _
  | num q => exact .constant _
  | neg a ih => exact .unaryOp _ ih
  | mul a b iha ihb => exact .binOp _ iha ihb
  | div a b iha ihb => exact .binOp _ iha ihb
  | pow a b iha ihb => exact .binOp _ iha ihb

/-! ## lexing -/

theorem lexGo_blank {b : List Char} (hb : Blank b) (rest : List Char) :
    lexGo .idle (b ++ rest) = lexGo .idle rest := by
  induction b with
  | nil => rfl
  | cons c b ih =>
    have hc := hb c (by simp)
    rw [List.cons_append, lexGo_idle_cons (p := .idle) (by rcases hc with rfl | rfl <;> decide)]
    exact ih (fun x hx => hb x (by simp [hx]))

theorem bd_blank {b rest : List Char} (hb : Blank b) (hr : Bd rest) : Bd (b ++ rest) := by
  cases b with
  | nil => exact hr
  | cons c b => exact Or.inr ⟨c, b ++ rest, rfl, by have := hb c (by simp); tauto⟩

theorem Lexes.blank {s : List Char} {ts : List Tok} (h : Lexes s ts) {b₁ b₂ : List Char}
    (h₁ : Blank b₁) (h₂ : Blank b₂) : Lexes (b₁ ++ s ++ b₂) ts := by
  intro rest hr
  rw [List.append_assoc, List.append_assoc, lexGo_blank h₁, h _ (bd_blank h₂ hr), lexGo_blank h₂]

/-- What follows an operator: blanks and something that is no operator. -/
theorem no_op_head {b t rest : List Char} (hb : Blank b) (ht : NoOpStart t) :
    ∀ c r, b ++ t ++ rest = c :: r → c ≠ '*' ∧ c ≠ '/' := by
  intro c r h
  cases b with
  | nil =>
    obtain ⟨c', r', rfl, h1, h2, -⟩ := ht
    simp only [List.nil_append, List.cons_append, List.cons.injEq] at h
    rw [← h.1]; exact ⟨h1, h2⟩
  | cons x b =>
    simp only [List.cons_append, List.cons.injEq] at h
    rw [← h.1]
    rcases hb x (by simp) with rfl | rfl <;> exact ⟨by decide, by decide⟩

theorem Lexes.infix {a b b₁ b₂ : List Char} {ta tb : List Tok} (ha : Lexes a ta) (hb : Lexes b tb)
    (h₁ : Blank b₁) (h₂ : Blank b₂) (hn : NoOpStart b) {op : List Char} {t : Tok}
    (hop : op = ['*'] ∧ t = .star ∨ op = ['/'] ∧ t = .slash ∨ op = ['*', '*'] ∧ t = .dstar) :
    Lexes (a ++ b₁ ++ op ++ b₂ ++ b) (ta ++ t :: tb) := by
  intro rest hr
  have e : a ++ b₁ ++ op ++ b₂ ++ b ++ rest = a ++ (b₁ ++ (op ++ (b₂ ++ b ++ rest))) := by simp
  have hbd : Bd (b₁ ++ (op ++ (b₂ ++ b ++ rest))) := by
    refine bd_blank h₁ ?_
    rcases hop with ⟨rfl, -⟩ | ⟨rfl, -⟩ | ⟨rfl, -⟩
    · exact Or.inr ⟨'*', _, rfl, by simp⟩
    · exact Or.inr ⟨'/', _, rfl, by simp⟩
    · exact Or.inr ⟨'*', _, rfl, by simp⟩
  have hblank : lexGo .idle (b₂ ++ b ++ rest) = (lexGo .idle rest).map (tb ++ ·) := by
    rw [List.append_assoc, lexGo_blank h₂, hb rest hr]
  have hsym : lexGo .idle (op ++ (b₂ ++ b ++ rest)) =
      (lexGo .idle (b₂ ++ b ++ rest)).map ([t] ++ ·) := by
    have hh := no_op_head (rest := rest) h₂ hn
    rcases hop with ⟨rfl, rfl⟩ | ⟨rfl, rfl⟩ | ⟨rfl, rfl⟩
    · refine lexGo_sym (by decide) (by decide) ?_
      intro c' r he; have := hh c' r he; tauto
    · refine lexGo_sym (by decide) (by decide) ?_
      intro c' r he; have := hh c' r he; tauto
    · exact lexGo_dstar _
  rw [e, ha _ hbd, lexGo_blank h₁, hsym, hblank, Option.map_map, Option.map_map]
  congr 1
  funext x; simp

theorem Lexes.minus {b b₁ : List Char} {tb : List Tok} (hb : Lexes b tb) (h₁ : Blank b₁) :
    Lexes ('-' :: b₁ ++ b) (.minus :: tb) := by
  intro rest hr
  have e : '-' :: b₁ ++ b ++ rest = '-' :: (b₁ ++ (b ++ rest)) := by simp
  rw [e, lexGo_sym (t := .minus) (by decide) (by decide) (by
      intro c' r _ h; rcases h with ⟨h, -⟩ | ⟨h, -⟩ <;> exact absurd h (by decide)),
    lexGo_blank h₁, hb rest hr, Option.map_map]
  congr 1

/-! ## parsing -/

/-- The tokens `ts` parse as `e`, whatever follows. -/
def Parses : Prec → UX → List Tok → Prop
  | .atom, e, ts => (∃ t r, ts = t :: r ∧ t ≠ .plus ∧ t ≠ .minus ∧ t ≠ .tilde) ∧
      ∀ n r, 8 * ts.length ≤ n + 2 → pAtom n (ts ++ r) = some (e.ast, r)
  | .factor, e, ts => 1 ≤ ts.length ∧ ∀ n r, 8 * ts.length ≤ n + 1 → r.head? ≠ some .dstar →
      pFactor n (ts ++ r) = some (e.ast, r)
  | .term, e, ts => 1 ≤ ts.length ∧ ∀ n r, 8 * ts.length ≤ n → r.head? ≠ some .dstar →
      ∃ m, n ≤ m + ts.length ∧ pTerm n (ts ++ r) = pTermLoop m e.ast r

theorem pFactor_of_atom {n : Nat} {t : Tok} {ts : List Tok} (h1 : t ≠ .plus) (h2 : t ≠ .minus)
    (h3 : t ≠ .tilde) :
    pFactor (n + 1) (t :: ts) = match pAtom n (t :: ts) with
      | none => none
      | some (a, .dstar :: r) =>
        match pFactor n r with
        | none => none
        | some (b, r) => some (.binOp .pow a b, r)
      | some (a, r) => some (a, r) := by
  rw [pFactor.eq_def]
  cases t <;> first | rfl | exact absurd rfl h1 | exact absurd rfl h2 | exact absurd rfl h3

theorem Parses.name (s : List Char) : Parses .atom (.name s) [.name s] := by
  refine ⟨⟨_, _, rfl, by simp, by simp, by simp⟩, fun n r hn => ?_⟩
  obtain ⟨m, rfl⟩ : ∃ m, n = m + 1 := ⟨n - 1, by simp at hn; omega⟩
  rfl

theorem Parses.num (q : ℚ) : Parses .atom (.num q) [.num q] := by
  refine ⟨⟨_, _, rfl, by simp, by simp, by simp⟩, fun n r hn => ?_⟩
  obtain ⟨m, rfl⟩ : ∃ m, n = m + 1 := ⟨n - 1, by simp at hn; omega⟩
  rfl

theorem Parses.toFactor {e : UX} {ts : List Tok} (h : Parses .atom e ts) : Parses .factor e ts := by
  obtain ⟨⟨t, r0, rfl, h1, h2, h3⟩, h⟩ := h
  refine ⟨by simp, fun n r hn hr => ?_⟩
  obtain ⟨m, rfl⟩ : ∃ m, n = m + 1 := ⟨n - 1, by simp at hn; omega⟩
  have := h m r (by omega)
  rw [List.cons_append] at this ⊢
  rw [pFactor_of_atom h1 h2 h3, this]
  cases r with
  | nil => rfl
  | cons t' r' => cases t' <;> first | rfl | exact absurd rfl hr

theorem Parses.pow {a b : UX} {ta tb : List Tok} (ha : Parses .atom a ta) (hb : Parses .factor b tb) :
    Parses .factor (.pow a b) (ta ++ .dstar :: tb) := by
  obtain ⟨⟨t, r0, rfl, h1, h2, h3⟩, ha⟩ := ha
  refine ⟨by simp, fun n r hn hr => ?_⟩
  simp only [List.length_append, List.length_cons] at hn
  obtain ⟨m, rfl⟩ : ∃ m, n = m + 1 := ⟨n - 1, by omega⟩
  have h := ha m (.dstar :: tb ++ r) (by simp only [List.length_cons]; omega)
  have e : t :: r0 ++ Tok.dstar :: tb ++ r = t :: r0 ++ (.dstar :: tb ++ r) := by simp
  rw [e]
  rw [List.cons_append] at h ⊢
  rw [pFactor_of_atom h1 h2 h3, h]
  simp only [List.cons_append]
  rw [hb.2 m r (by omega) hr]
  rfl

theorem Parses.neg {a : UX} {ta : List Tok} (ha : Parses .factor a ta) :
    Parses .factor (.neg a) (.minus :: ta) := by
  refine ⟨by simp, fun n r hn hr => ?_⟩
  simp only [List.length_cons] at hn
  obtain ⟨m, rfl⟩ : ∃ m, n = m + 1 := ⟨n - 1, by omega⟩
  rw [List.cons_append, pFactor, ha.2 m r (by omega) hr]
  rfl

theorem Parses.toTerm {e : UX} {ts : List Tok} (h : Parses .factor e ts) : Parses .term e ts := by
  refine ⟨h.1, fun n r hn hr => ?_⟩
  have := h.1
  obtain ⟨m, rfl⟩ : ∃ m, n = m + 1 := ⟨n - 1, by omega⟩
  refine ⟨m, by omega, ?_⟩
  rw [pTerm, h.2 m r (by omega) hr]

theorem Parses.mul {a b : UX} {ta tb : List Tok} (ha : Parses .term a ta) (hb : Parses .factor b tb) :
    Parses .term (.mul a b) (ta ++ .star :: tb) := by
  refine ⟨by simp; omega, fun n r hn hr => ?_⟩
  simp only [List.length_append, List.length_cons] at hn
  obtain ⟨m, hm, h⟩ := ha.2 n (.star :: tb ++ r) (by omega) (by simp)
  have := ha.1
  obtain ⟨m', rfl⟩ : ∃ m', m = m' + 1 := ⟨m - 1, by omega⟩
  refine ⟨m', by simp only [List.length_append, List.length_cons]; omega, ?_⟩
  rw [List.append_assoc, List.cons_append] at *
  rw [h, pTermLoop, hb.2 m' r (by omega) hr]
  rfl

theorem Parses.div {a b : UX} {ta tb : List Tok} (ha : Parses .term a ta) (hb : Parses .factor b tb) :
    Parses .term (.div a b) (ta ++ .slash :: tb) := by
  refine ⟨by simp; omega, fun n r hn hr => ?_⟩
  simp only [List.length_append, List.length_cons] at hn
  obtain ⟨m, hm, h⟩ := ha.2 n (.slash :: tb ++ r) (by omega) (by simp)
  have := ha.1
  obtain ⟨m', rfl⟩ : ∃ m', m = m' + 1 := ⟨m - 1, by omega⟩
  refine ⟨m', by simp only [List.length_append, List.length_cons]; omega, ?_⟩
  rw [List.append_assoc, List.cons_append] at *
  rw [h, pTermLoop, hb.2 m' r (by omega) hr]
  rfl

/-- A complete sum. -/
theorem Parses.sum {e : UX} {ts : List Tok} (h : Parses .term e ts) {n : Nat} {r : List Tok}
    (hn : 8 * ts.length < n) (hr : EndsTerm r) : pSum n (ts ++ r) = some (e.ast, r) := by
  obtain ⟨k, rfl⟩ : ∃ k, n = k + 1 := ⟨n - 1, by omega⟩
  obtain ⟨m, hm, he⟩ := h.2 k r (by omega) hr.head
  have := h.1
  obtain ⟨m', rfl⟩ : ∃ m', m = m' + 1 := ⟨m - 1, by omega⟩
  obtain ⟨k', rfl⟩ : ∃ k', k = k' + 1 := ⟨k - 1, by omega⟩
  rw [pSum, he, pTermLoop_end _ _ hr]
  exact pSumLoop_end _ _ hr

theorem Parses.paren {e : UX} {ts : List Tok} (h : Parses .term e ts) :
    Parses .atom e (.lpar :: ts ++ [.rpar]) := by
  refine ⟨⟨.lpar, _, rfl, by simp, by simp, by simp⟩, fun n r hn => ?_⟩
  simp only [List.length_append, List.length_cons, List.length_nil] at hn
  obtain ⟨m, rfl⟩ : ∃ m, n = m + 1 := ⟨n - 1, by omega⟩
  have e' : Tok.lpar :: ts ++ [.rpar] ++ r = .lpar :: (ts ++ .rpar :: r) := by simp
  rw [e', pAtom, h.sum (r := .rpar :: r) (by omega) (Or.inr ⟨r, rfl⟩)]

/-! ## the rewriting of the label -/

/-- The two replacements of operator characters. -/
def plainOps (s : List Char) : List Char := replaceChar '·' ['*'] (replaceChar '^' ['*', '*'] s)

theorem plainOps_append (a b : List Char) : plainOps (a ++ b) = plainOps a ++ plainOps b := by
  simp [plainOps, replaceChar_append]

theorem plainOps_of {s : List Char} (h1 : '^' ∉ s) (h2 : '·' ∉ s) : plainOps s = s := by
  rw [plainOps, replaceChar_of_notMem _ h1, replaceChar_of_notMem _ h2]

theorem plainOps_blank {b : List Char} (h : Blank b) : plainOps b = b :=
  plainOps_of (fun hm => by rcases h _ hm with h | h <;> exact absurd h (by decide))
    (fun hm => by rcases h _ hm with h | h <;> exact absurd h (by decide))

theorem IsDecimal.spec {s : List Char} {q : ℚ} (h : IsDecimal s q) :
    ∃ c cs, s = c :: cs ∧ isDig c = true ∧ (∀ x ∈ cs, isDig x = true ∨ x = '.') ∧
      decimalLit (c :: cs) = some q := by
  have key : ∀ (n : Nat) (t : List Char), s = natDigits n ++ t → (∀ x ∈ t, isDig x = true ∨ x = '.') →
      decimalLit s = some q → ∃ c cs, s = c :: cs ∧ isDig c = true ∧
      (∀ x ∈ cs, isDig x = true ∨ x = '.') ∧ decimalLit (c :: cs) = some q := by
    rintro n t hs ht hq
    rcases hc : natDigits n with _ | ⟨x, xs⟩
    · exact absurd hc (natDigits_ne_nil n)
    · rw [hc, List.cons_append] at hs
      refine ⟨x, xs ++ t, hs, natDigits_isDig n x (by simp [hc]), ?_, by rw [← hs]; exact hq⟩
      intro y hy
      rcases List.mem_append.1 hy with hy | hy
      · exact Or.inl (natDigits_isDig n y (by simp [hc, hy]))
      · exact ht y hy
  obtain ⟨n, ⟨rfl, rfl⟩ | ⟨fp, rfl, hf, rfl⟩⟩ := h
  · exact key n [] (by simp) (by simp) (decimalLit_nat n)
  · refine key n ('.' :: fp) rfl ?_ (decimalLit_frac n fp hf)
    intro x hx
    rcases List.mem_cons.1 hx with rfl | hx
    · exact Or.inr rfl
    · exact Or.inl (List.all_eq_true.1 hf x hx)

theorem clean_blank {b : List Char} (h : Blank b) (pl : Bool) : Clean pl b := by
  induction b generalizing pl with
  | nil => trivial
  | cons c b ih =>
    have hc := h c (by simp)
    refine ⟨?_, ?_, ?_, ?_, ih (fun x hx => h x (by simp [hx])) _⟩ <;>
      rcases hc with rfl | rfl <;> first | decide | simp

/-- A string that can be read as an expression: its plain form lexes and parses. -/
structure Reads (p : Prec) (e : UX) (s : List Char) : Prop where
  toks : ∃ ts, Lexes (plainOps s) ts ∧ Parses p e ts
  start : NoOpStart (plainOps s)
  clean : Clean true (plainOps s)

theorem noOp_of {c : Char} {r : List Char} (h : c ≠ '*' ∧ c ≠ '/' ∧ c ≠ ' ' ∧ c ≠ '\t') :
    NoOpStart (c :: r) := ⟨c, r, rfl, h⟩

theorem clean_true_cons {c : Char} {s : List Char} (hc : c ≠ '^' ∧ c ≠ '·' ∧ c ≠ '%' ∧ c ≠ '.')
    (hs : Clean true s) : Clean true (c :: s) :=
  ⟨hc.1, hc.2.1, hc.2.2.1, fun h => hc.2.2.2 h.1, hs.mono⟩

theorem Writes.reads {p : Prec} {e : UX} {s : List Char} (h : Writes p e s) : Reads p e s := by
  induction h with
  | @name s hs =>
    have hc := clean_of_idCont hs.2.2.1 true
    rw [show s = plainOps s from (plainOps_of hc.notMem.1 hc.notMem.2.1).symm] at hc
    have he : plainOps s = s := by
      have := (clean_of_idCont hs.2.2.1 true).notMem
      exact plainOps_of this.1 this.2.1
    refine ⟨⟨[.name s], ?_, .name s⟩, ?_, hc⟩
    · rw [he]; exact lexes_ident hs
    · rw [he]; exact ident_noOp hs
  | @num s q hs =>
    obtain ⟨c, cs, rfl, h1, h2, h3⟩ := hs.spec
    have hd : ∀ x ∈ c :: cs, isDig x = true ∨ x = '.' := by
      intro x hx
      rcases List.mem_cons.1 hx with rfl | hx
      · exact Or.inl h1
      · exact h2 x hx
    have hcl := clean_number hd
    have he : plainOps (c :: cs) = c :: cs := plainOps_of hcl.notMem.1 hcl.notMem.2.1
    have hne : ∀ d, isDig d = false → c ≠ d := fun d hd => isDig_ne h1 hd
    refine ⟨⟨[.num q], ?_, .num q⟩, ?_, ?_⟩
    · rw [he]; exact lexes_number h1 h2 h3
    · rw [he]; exact noOp_of ⟨hne _ (by decide), hne _ (by decide), hne _ (by decide), hne _ (by decide)⟩
    · rw [he]
      obtain ⟨a1, a2, a3, -, a5⟩ := hcl
      exact ⟨a1, a2, a3, fun h => hne '.' (by decide) h.1, a5⟩
  | @paren e s b₁ b₂ h₁ _ h₂ ih =>
    obtain ⟨⟨ts, hl, hp⟩, hst, hc⟩ := ih
    have he : plainOps ('(' :: (b₁ ++ s ++ b₂) ++ [')']) = '(' :: (b₁ ++ plainOps s ++ b₂) ++ [')'] := by
      rw [show '(' :: (b₁ ++ s ++ b₂) ++ [')'] = ['('] ++ (b₁ ++ s ++ b₂) ++ [')'] from rfl]
      simp only [plainOps_append, plainOps_blank h₁, plainOps_blank h₂]
      rfl
    refine ⟨⟨.lpar :: ts ++ [.rpar], ?_, hp.paren⟩, ?_, ?_⟩
    · rw [he]; exact (hl.blank h₁ h₂).paren
    · rw [he]; exact noOp_of (by decide)
    · rw [he]
      refine Clean.append (a := '(' :: _) (clean_true_cons (by decide) ?_) (clean_true_cons (by decide) trivial)
      exact ((clean_blank h₁ _).append hc).append (clean_blank h₂ _)
  | atom _ ih =>
    obtain ⟨⟨ts, hl, hp⟩, hst, hc⟩ := ih
    exact ⟨⟨ts, hl, hp.toFactor⟩, hst, hc⟩
  | factor _ ih =>
    obtain ⟨⟨ts, hl, hp⟩, hst, hc⟩ := ih
    exact ⟨⟨ts, hl, hp.toTerm⟩, hst, hc⟩
  | @pow a b s t b₁ b₂ op _ h₁ hop h₂ _ iha ihb =>
    obtain ⟨⟨ta, hla, hpa⟩, hsa, hca⟩ := iha
    obtain ⟨⟨tb, hlb, hpb⟩, hsb, hcb⟩ := ihb
    have hop' : plainOps op = ['*', '*'] := by rcases hop with rfl | rfl <;> decide
    have he : plainOps (s ++ b₁ ++ op ++ b₂ ++ t) = plainOps s ++ b₁ ++ ['*', '*'] ++ b₂ ++ plainOps t := by
      simp only [plainOps_append, plainOps_blank h₁, plainOps_blank h₂, hop']
    refine ⟨⟨_, ?_, hpa.pow hpb⟩, ?_, ?_⟩
    · rw [he]; exact hla.infix hlb h₁ h₂ hsb (Or.inr (Or.inr ⟨rfl, rfl⟩))
    · rw [he]; exact (((hsa.append _).append _).append _).append _
    · rw [he]
      exact (((hca.append (clean_blank h₁ _)).append
        (clean_true_cons (by decide) (clean_true_cons (s := []) (by decide) trivial))).append
        (clean_blank h₂ _)).append hcb
  | @neg a s b₁ h₁ _ ih =>
    obtain ⟨⟨ts, hl, hp⟩, hst, hc⟩ := ih
    have he : plainOps ('-' :: b₁ ++ s) = '-' :: b₁ ++ plainOps s := by
      rw [show '-' :: b₁ ++ s = ['-'] ++ b₁ ++ s from rfl]
      simp only [plainOps_append, plainOps_blank h₁]
      rfl
    refine ⟨⟨_, ?_, hp.neg⟩, ?_, ?_⟩
    · rw [he]; exact hl.minus h₁
    · rw [he]; exact noOp_of (by decide)
    · rw [he]; exact clean_true_cons (by decide) ((clean_blank h₁ _).append hc)
  | @mul a b s t b₁ b₂ op _ h₁ hop h₂ _ iha ihb =>
    obtain ⟨⟨ta, hla, hpa⟩, hsa, hca⟩ := iha
    obtain ⟨⟨tb, hlb, hpb⟩, hsb, hcb⟩ := ihb
    have hop' : plainOps op = ['*'] := by rcases hop with rfl | rfl <;> decide
    have he : plainOps (s ++ b₁ ++ op ++ b₂ ++ t) = plainOps s ++ b₁ ++ ['*'] ++ b₂ ++ plainOps t := by
      simp only [plainOps_append, plainOps_blank h₁, plainOps_blank h₂, hop']
    refine ⟨⟨_, ?_, hpa.mul hpb⟩, ?_, ?_⟩
    · rw [he]; exact hla.infix hlb h₁ h₂ hsb (Or.inl ⟨rfl, rfl⟩)
    · rw [he]; exact (((hsa.append _).append _).append _).append _
    · rw [he]
      exact (((hca.append (clean_blank h₁ _)).append (clean_true_cons (s := []) (by decide) trivial)).append
        (clean_blank h₂ _)).append hcb
  | @div a b s t b₁ b₂ _ h₁ h₂ _ iha ihb =>
    obtain ⟨⟨ta, hla, hpa⟩, hsa, hca⟩ := iha
    obtain ⟨⟨tb, hlb, hpb⟩, hsb, hcb⟩ := ihb
    have hop' : plainOps ['/'] = ['/'] := by decide
    have he : plainOps (s ++ b₁ ++ ['/'] ++ b₂ ++ t) = plainOps s ++ b₁ ++ ['/'] ++ b₂ ++ plainOps t := by
      simp only [plainOps_append, plainOps_blank h₁, plainOps_blank h₂, hop']
    refine ⟨⟨_, ?_, hpa.div hpb⟩, ?_, ?_⟩
    · rw [he]; exact hla.infix hlb h₁ h₂ hsb (Or.inr (Or.inl ⟨rfl, rfl⟩))
    · rw [he]; exact (((hsa.append _).append _).append _).append _
    · rw [he]
      exact (((hca.append (clean_blank h₁ _)).append (clean_true_cons (s := []) (by decide) trivial)).append
        (clean_blank h₂ _)).append hcb

/-- A star in the plain form, or nothing was replaced. -/
theorem plainOps_star (s : List Char) : plainOps s = s ∨ '*' ∈ plainOps s := by
  by_cases h1 : '^' ∈ s
  · right
    rw [plainOps]
    simp only [replaceChar, List.mem_flatMap]
    refine ⟨'*', ⟨'^', h1, by simp⟩, by decide⟩
  · by_cases h2 : '·' ∈ s
    · right
      rw [plainOps, replaceChar_of_notMem _ h1]
      simp only [replaceChar, List.mem_flatMap]
      exact ⟨'·', h2, by simp⟩
    · exact Or.inl (plainOps_of h1 h2)

theorem preprocess_reads {p : Prec} {e : UX} {s b : List Char} (h : Reads p e s) (hb : Blank b)
    (hin : isIn (s ++ b) = false) : preprocess (s ++ b) = plainOps s ++ b := by
  have he : plainOps (s ++ b) = plainOps s ++ b := by rw [plainOps_append, plainOps_blank hb]
  have hcl : Clean false (plainOps s ++ b) := (h.clean.append (clean_blank hb _)).mono
  have hne : plainOps s ++ b ≠ [] := by
    obtain ⟨c, r, hr, -⟩ := h.start
    rw [hr]; simp
  obtain ⟨-, -, h3⟩ := hcl.notMem
  have hc : (plainOps s ++ b).contains '%' = false := by simpa using h3
  have hi : isIn (plainOps s ++ b) = false := by
    rw [← he]
    rcases plainOps_star (s ++ b) with h' | h'
    · rw [h']; exact hin
    · by_contra hx
      have hx : isIn (plainOps (s ++ b)) = true := by simpa using hx
      simp only [isIn, Bool.or_eq_true, beq_iff_eq] at hx
      rcases hx with ((hx | hx) | hx) | hx <;> (rw [hx] at h'; revert h'; decide)
  unfold preprocess
  change (let s := dotSub (plainOps (s ++ b))
          let s := if s = [] then "dimensionless".toList else s
          let s := if s.contains '%' then replaceChar '%' "percent".toList s else s
          if isIn s then "inch".toList else s) = _
  simp only [he, hcl.dotSub, hne, if_false, hc, hi, Bool.false_eq_true]

/-- Reading a written expression evaluates its tree. -/
theorem lookup_writes [One K] [Mul K] [Div K] [Neg K] [RPow K] [RatCast K]
    (P : List Char → Py PyAST) (F : PyOps K) (w : World K) {e : UX} {s b : List Char}
    (h : Writes .term e s) (hb : Blank b) (hin : ¬ LooksLikeIn (s ++ b)) :
    w.lookup P F (s ++ b) = evalTree (stdOps F) w e.ast := by
  have hr := h.reads
  have hi : isIn (s ++ b) = false := by
    by_contra hx
    exact hin (looksLikeIn_of_isIn (by simpa using hx))
  obtain ⟨ts, hl, hp⟩ := hr.toks
  have hlex : lex (plainOps s ++ b) = some ts := by
    have := (hl.blank (b₁ := []) (b₂ := b) (by simp [Blank]) hb)
    rw [List.nil_append] at this
    exact this.lex (hr.start.append _)
  have hpar : parseWith P (plainOps s ++ b) = .ok e.ast := by
    unfold parseWith
    rw [hlex]
    have := hp.sum (n := 8 * ts.length + 8) (r := []) (by omega) (Or.inl rfl)
    rw [List.append_nil] at this
    simp only [this]
  rw [World.lookup, PQ.lookup, preprocess_reads hr hb hi, registryGet, hpar]
  simp only [valid_iff.2 e.ast_arith, if_true]

end PQ
