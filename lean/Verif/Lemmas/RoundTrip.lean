import Verif.Lemmas.Strings
import Mathlib.Data.Nat.Digits.Lemmas
import Mathlib.Data.List.TakeWhile

/-! # Printing a dimensionality and reading it back -/

namespace PQ

open Dict

variable {K : Type _}

/-! ## decimal numbers -/

theorem digChar_isDig {n : Nat} (h : n < 10) : isDig (digChar n) = true := by
  interval_cases n <;> decide

theorem digVal_digChar {n : Nat} (h : n < 10) : digVal (digChar n) = n := by
  interval_cases n <;> decide

theorem digitsVal_cons (acc : Nat) (c : Char) (cs : List Char) :
    digitsVal acc (c :: cs) = digitsVal (10 * acc + digVal c) cs := by
  simp only [digitsVal, List.foldl_cons]

theorem digitsVal_append (acc : Nat) (a b : List Char) :
    digitsVal acc (a ++ b) = digitsVal (digitsVal acc a) b := by
  induction a generalizing acc with
  | nil => rfl
  | cons c a ih => rw [List.cons_append, digitsVal_cons, ih, digitsVal_cons]

theorem digitsVal_digits (l : List Nat) (h : ∀ d ∈ l, d < 10) :
    digitsVal 0 (l.reverse.map digChar) = Nat.ofDigits 10 l := by
  induction l with
  | nil => rfl
  | cons d l ih =>
    rw [List.reverse_cons, List.map_append, digitsVal_append, ih (fun x hx => h x (by simp [hx]))]
    rw [List.map_singleton, digitsVal_cons, digVal_digChar (h d (by simp)), Nat.ofDigits_cons]
    simp only [digitsVal, List.foldl_nil]
    push_cast; omega

theorem natDigits_val (n : Nat) : digitsVal 0 (natDigits n) = n := by
  unfold natDigits
  split
  · rename_i h; subst h; rfl
  · rw [digitsVal_digits _ (fun d hd => Nat.digits_lt_base (by norm_num) hd), Nat.ofDigits_digits]

theorem natDigits_isDig (n : Nat) : ∀ c ∈ natDigits n, isDig c = true := by
  unfold natDigits
  split
  · simp; decide
  · intro c hc
    simp only [List.mem_map, List.mem_reverse] at hc
    obtain ⟨d, hd, rfl⟩ := hc
    exact digChar_isDig (Nat.digits_lt_base (by norm_num) hd)

theorem natDigits_ne_nil (n : Nat) : natDigits n ≠ [] := by
  unfold natDigits
  split
  · simp
  · rename_i h; simp [Nat.digits_ne_nil_iff_ne_zero.2 h]

theorem digChar_eq_zero {n : Nat} (h : n < 10) (e : digChar n = '0') : n = 0 := by
  interval_cases n <;> first | rfl | (revert e; decide)

theorem natDigits_head (n : Nat) (h : (natDigits n).head? = some '0') : (natDigits n).length = 1 := by
  unfold natDigits at h ⊢
  split
  · rfl
  · rename_i hn
    rw [if_neg hn] at h
    exfalso
    have hne : Nat.digits 10 n ≠ [] := Nat.digits_ne_nil_iff_ne_zero.2 hn
    rw [List.head?_map, List.head?_reverse, List.getLast?_eq_some_getLast hne] at h
    simp only [Option.map_some, Option.some.injEq] at h
    exact Nat.getLast_digit_ne_zero 10 hn
      (digChar_eq_zero (Nat.digits_lt_base (by norm_num) (List.getLast_mem hne)) h)

theorem natDigits_last {n : Nat} (h : ¬ 10 ∣ n) : (natDigits n).getLast? ≠ some '0' := by
  unfold natDigits
  split
  · rename_i hn; exact absurd (by simp [hn]) h
  · rename_i hn
    rw [List.getLast?_map, List.getLast?_reverse]
    rw [Nat.digits_of_two_le_of_pos (by norm_num) (Nat.pos_of_ne_zero hn)]
    simp only [List.head?_cons, Option.map_some, ne_eq, Option.some.injEq]
    intro e
    exact h (Nat.dvd_of_mod_eq_zero (digChar_eq_zero (Nat.mod_lt _ (by norm_num)) e))

theorem isDig_ne {c d : Char} (h : isDig c = true) (hd : isDig d = false) : c ≠ d := by
  rintro rfl; simp [h] at hd

/-- An integer literal. -/
theorem decimalLit_nat (n : Nat) : decimalLit (natDigits n) = some (n : ℚ) := by
  have h1 : (natDigits n).takeWhile isDig = natDigits n := by
    exact List.takeWhile_eq_self_iff.2 (natDigits_isDig n)
  have h2 : (natDigits n).dropWhile isDig = [] := by
    exact List.dropWhile_eq_nil_iff.2 (natDigits_isDig n)
  unfold decimalLit
  simp only [h1, h2]
  rw [if_neg]
  · rw [natDigits_val]
  · rintro (h | ⟨h, h'⟩)
    · exact natDigits_ne_nil n h
    · exact h' (natDigits_head n h)

/-- A literal with a fractional part. -/
theorem decimalLit_frac (n : Nat) (fp : List Char) (hf : fp.all isDig = true) :
    decimalLit (natDigits n ++ '.' :: fp) =
      some ((digitsVal 0 (natDigits n ++ fp) : ℚ) / 10 ^ fp.length) := by
  have hd : isDig '.' = false := by decide
  have h1 : (natDigits n ++ '.' :: fp).takeWhile isDig = natDigits n := by
    rw [List.takeWhile_append_of_pos (natDigits_isDig n), List.takeWhile_cons_of_neg (by simp [hd])]
    simp
  have h2 : (natDigits n ++ '.' :: fp).dropWhile isDig = '.' :: fp := by
    rw [List.dropWhile_append_of_pos (natDigits_isDig n), List.dropWhile_cons_of_neg (by simp [hd])]
  unfold decimalLit
  simp only [h1, h2]
  rw [if_neg, if_pos ⟨trivial, hf⟩]
  rintro (h | ⟨h, h'⟩)
  · exact natDigits_ne_nil n h
  · exact h' (natDigits_head n h)

theorem rstrip_eq {c : Char} {s : List Char} (h : s.getLast? ≠ some c) : rstrip c s = s := by
  unfold rstrip
  rw [← List.head?_reverse] at h
  generalize hr : s.reverse = r at h
  have : r.dropWhile (· == c) = r := by
    cases r with
    | nil => rfl
    | cons x r =>
      rw [List.dropWhile_cons_of_neg]
      simp only [List.head?_cons, ne_eq, Option.some.injEq] at h
      simpa using h
  rw [this, ← hr, List.reverse_reverse]

theorem rstrip_snoc (c : Char) (s : List Char) : rstrip c (s ++ [c]) = rstrip c s := by
  simp [rstrip]

theorem getLast?_append_ne {a b : List Char} (h : b ≠ []) : (a ++ b).getLast? = b.getLast? :=
  List.getLast?_append_of_ne_nil a h

/-- A faithfully printed exponent: the suffix is `**` and a literal denoting the exponent. -/
theorem expSuffix_spec {fr : ℚ → List Char} {d : PyNum} (h : FaithfulExp fr d) :
    ∃ c cs, expSuffix fr d = '*' :: '*' :: c :: cs ∧ isDig c = true ∧
      (∀ x ∈ cs, isDig x = true ∨ x = '.') ∧ decimalLit (c :: cs) = some d.val := by
  have key : ∀ l : List Char, l ≠ [] → (∀ x ∈ l, isDig x = true ∨ x = '.') →
      (∃ a, l.head? = some a ∧ isDig a = true) → expSuffix fr d = '*' :: '*' :: l →
      decimalLit l = some d.val → ∃ c cs, expSuffix fr d = '*' :: '*' :: c :: cs ∧ isDig c = true ∧
      (∀ x ∈ cs, isDig x = true ∨ x = '.') ∧ decimalLit (c :: cs) = some d.val := by
    intro l hne hl ⟨a, ha, had⟩ he hdl
    cases l with
    | nil => exact absurd rfl hne
    | cons c cs =>
      simp only [List.head?_cons, Option.some.injEq] at ha; subst ha
      exact ⟨c, cs, he, had, fun x hx => hl x (by simp [hx]), hdl⟩
  have headDig : ∀ (n : Nat) (r : List Char), ∃ a, (natDigits n ++ r).head? = some a ∧ isDig a = true := by
    intro n r
    rcases hc : natDigits n with _ | ⟨x, xs⟩
    · exact absurd hc (natDigits_ne_nil n)
    · exact ⟨x, rfl, natDigits_isDig n x (by simp [hc])⟩
  have digLast : ∀ (n : Nat) (pre : List Char), (pre ++ natDigits n).getLast? ≠ some '.' := by
    intro n pre
    rw [getLast?_append_ne (natDigits_ne_nil n)]
    intro he
    exact isDig_ne (natDigits_isDig n _ (List.mem_of_getLast? he)) (by decide : isDig '.' = false) rfl
  cases d with
  | int n =>
    obtain ⟨hn, hd⟩ := h
    have hstr : (PyNum.int n).str fr = natDigits n.natAbs := by
      simp [PyNum.str, not_lt.2 hn.le]
    have hnd : ¬ 10 ∣ n.natAbs := by
      intro h'; exact hd (Int.natCast_dvd.2 h')
    refine key (natDigits n.natAbs) (natDigits_ne_nil _) (fun x hx => Or.inl (natDigits_isDig _ x hx))
      (by simpa using headDig n.natAbs []) ?_ ?_
    · unfold expSuffix
      rw [hstr, show '*' :: '*' :: natDigits n.natAbs = ['*', '*'] ++ natDigits n.natAbs from rfl,
        rstrip_eq (c := '0') (by rw [getLast?_append_ne (natDigits_ne_nil _)]; exact natDigits_last hnd),
        rstrip_eq (digLast _ _)]
      try rfl
    · rw [decimalLit_nat]
      simp only [PyNum.val, Option.some.injEq]
      have : ((n.natAbs : ℤ) : ℚ) = (n : ℚ) := by rw [Int.natAbs_of_nonneg hn.le]
      rw [← this, Int.cast_natCast]
  | float q =>
    obtain ⟨hq, i, fp, hs, hfp⟩ := h
    have hstr : (PyNum.float q).str fr = natDigits i ++ '.' :: fp := hs
    rcases hfp with ⟨rfl, rfl⟩ | ⟨hne, hall, hlast, rfl⟩
    · refine key (natDigits i) (natDigits_ne_nil _) (fun x hx => Or.inl (natDigits_isDig _ x hx))
        (by simpa using headDig i []) ?_ ?_
      · unfold expSuffix
        rw [hstr, show '*' :: '*' :: (natDigits i ++ ['.', '0']) =
            ((['*', '*'] ++ natDigits i) ++ ['.']) ++ ['0'] by simp,
          rstrip_snoc, rstrip_eq (c := '0') (by rw [List.getLast?_concat]; decide), rstrip_snoc, rstrip_eq (digLast _ _)]
        rfl
      · exact decimalLit_nat i
    · refine key (natDigits i ++ '.' :: fp) (by simp) ?_ (headDig i _) ?_ (decimalLit_frac i fp hall)
      · intro x hx
        simp only [List.mem_append, List.mem_cons] at hx
        rcases hx with hx | rfl | hx
        · exact Or.inl (natDigits_isDig _ x hx)
        · exact Or.inr rfl
        · exact Or.inl (List.all_eq_true.1 hall x hx)
      · unfold expSuffix
        have e : '*' :: '*' :: (natDigits i ++ '.' :: fp) = (['*', '*'] ++ natDigits i ++ ['.']) ++ fp := by
          simp
        have hl : ((['*', '*'] ++ natDigits i ++ ['.']) ++ fp).getLast? = fp.getLast? :=
          getLast?_append_ne hne
        have hdot : fp.getLast? ≠ some '.' := by
          intro he
          exact isDig_ne (List.all_eq_true.1 hall _ (List.mem_of_getLast? he))
            (by decide : isDig '.' = false) rfl
        rw [hstr, e, rstrip_eq (c := '0') (by rw [hl]; exact hlast),
          rstrip_eq (c := '.') (by rw [hl]; exact hdot), ← e]

/-! ## lexing -/

/-- `s` can be followed by `rest` without changing the last token: nothing, an operator, a
closing parenthesis or a blank. -/
def Bd (rest : List Char) : Prop :=
  rest = [] ∨ ∃ c r, rest = c :: r ∧ (c = '*' ∨ c = '/' ∨ c = ')' ∨ c = ' ' ∨ c = '\t' ∨ c = '+' ∨ c = '-')

/-- Reading `s` yields the tokens `ts`, whatever follows. -/
def Lexes (s : List Char) (ts : List Tok) : Prop :=
  ∀ rest, Bd rest → lexGo .idle (s ++ rest) = (lexGo .idle rest).map (ts ++ ·)

theorem lexGo_nil (p : Pending) : lexGo p [] = p.flush [] := by cases p <;> rfl

theorem lexGo_idle_cons {c : Char} {p : Pending} (h : Pending.start c = some p) (cs : List Char) :
    lexGo .idle (c :: cs) = lexGo p cs := by
  rw [lexGo]
  simp only [Pending.extend, h]
  rcases lexGo p cs with _ | ts <;> rfl

theorem lexGo_extend {p p' : Pending} {c : Char} (h : p.extend c = some p') (cs : List Char) :
    lexGo p (c :: cs) = lexGo p' cs := by
  cases p <;> simp_all [lexGo]

/-- A token that is not continued by what follows is finished. -/
theorem lexGo_break {p : Pending} {rest : List Char} (h : ∀ c r, rest = c :: r → p.extend c = none) :
    lexGo p rest = (lexGo .idle rest).bind p.flush := by
  cases rest with
  | nil => rw [lexGo_nil, lexGo_nil]; rfl
  | cons c r =>
    have h1 := h c r rfl
    rcases hs : Pending.start c with _ | p'
    · have e : ∀ q : Pending, q.extend c = none → lexGo q (c :: r) = none := by
        intro q hq; cases q <;> simp_all [lexGo]
      rw [e p h1, e .idle rfl]; rfl
    · rw [lexGo_idle_cons hs]
      rcases hl : lexGo p' r with _ | ts
      · cases p <;> simp_all [lexGo]
      · cases p <;> simp_all [lexGo]

theorem lexGo_word {cs : List Char} (h : cs.all isIdCont = true) (acc rest : List Char) :
    lexGo (.word acc) (cs ++ rest) = lexGo (.word (acc ++ cs)) rest := by
  induction cs generalizing acc with
  | nil => simp
  | cons c cs ih =>
    simp only [List.all_cons, Bool.and_eq_true] at h
    rw [List.cons_append, lexGo_extend (p' := .word (acc ++ [c])) (by simp [Pending.extend, h.1]),
      ih h.2]
    simp

theorem lexGo_number {cs : List Char} (h : ∀ x ∈ cs, isDig x = true ∨ x = '.') (acc rest : List Char) :
    lexGo (.number acc) (cs ++ rest) = lexGo (.number (acc ++ cs)) rest := by
  induction cs generalizing acc with
  | nil => simp
  | cons c cs ih =>
    have hc := h c (by simp)
    rw [List.cons_append, lexGo_extend (p' := .number (acc ++ [c])) ?_,
      ih (fun x hx => h x (by simp [hx]))]
    · simp
    · rcases hc with hc | hc <;> simp [Pending.extend, isIdCont, hc]

theorem idStart_not {c : Char} (h : isIdStart c = true) :
    c ≠ '*' ∧ c ≠ '/' ∧ c ≠ '(' ∧ c ≠ ')' ∧ c ≠ '.' ∧ c ≠ ' ' ∧ c ≠ '\t' := by
  refine ⟨?_, ?_, ?_, ?_, ?_, ?_, ?_⟩ <;> (rintro rfl; revert h; decide)

theorem bd_not_cont {c : Char} (h : c = '*' ∨ c = '/' ∨ c = ')' ∨ c = ' ' ∨ c = '\t' ∨ c = '+' ∨ c = '-') :
    isIdCont c = false ∧ c ≠ '.' := by
  rcases h with rfl | rfl | rfl | rfl | rfl | rfl | rfl <;> decide

theorem bind_flush_cons {x : Option (List Tok)} {p : Pending} {t : Tok}
    (h : ∀ ts, p.flush ts = some (t :: ts)) : x.bind p.flush = x.map ([t] ++ ·) := by
  cases x with
  | none => rfl
  | some ts => simp [h]

/-- An identifier is one name token. -/
theorem lexes_ident {s : List Char} (h : IsIdent s) : Lexes s [.name s] := by
  intro rest hb
  obtain ⟨hne, hh, hall, hk⟩ := h
  cases s with
  | nil => exact absurd rfl hne
  | cons c cs =>
    have hc := hh c rfl
    simp only [List.all_cons, Bool.and_eq_true] at hall
    rw [List.cons_append, lexGo_idle_cons (p := .word [c]) (by simp [Pending.start, hc]),
      lexGo_word hall.2, lexGo_break]
    · exact bind_flush_cons (fun ts => by simp [Pending.flush, hk])
    · rintro c' r rfl
      rcases hb with hb | ⟨c'', r', hb, hcc⟩
      · simp at hb
      · simp only [List.cons.injEq] at hb
        rw [← hb.1] at hcc
        simp [Pending.extend, (bd_not_cont hcc).1]

theorem lexes_number {c : Char} {cs : List Char} {q : ℚ} (hc : isDig c = true)
    (hcs : ∀ x ∈ cs, isDig x = true ∨ x = '.') (hq : decimalLit (c :: cs) = some q) :
    Lexes (c :: cs) [.num q] := by
  intro rest hb
  have hns : isIdStart c = false := by
    by_contra hx
    have hx : isIdStart c = true := by simpa using hx
    simp only [isIdStart, isAsciiLetter, isDig, Bool.or_eq_true, Bool.and_eq_true, beq_iff_eq,
      decide_eq_true_eq] at hc hx
    have e1 : 'a'.toNat = 97 := rfl
    have e2 : 'A'.toNat = 65 := rfl
    have e3 : '9'.toNat = 57 := rfl
    rcases hx with (hx | hx) | hx
    · omega
    · omega
    · subst hx
      have : '_'.toNat = 95 := rfl
      omega
  rw [List.cons_append, lexGo_idle_cons (p := .number [c]) (by simp [Pending.start, hc, hns]),
    lexGo_number hcs, lexGo_break]
  · exact bind_flush_cons (fun ts => by simp [Pending.flush, hq])
  · rintro c' r rfl
    rcases hb with hb | ⟨c'', r', hb, hcc⟩
    · simp at hb
    · simp only [List.cons.injEq] at hb
      rw [← hb.1] at hcc
      have := bd_not_cont hcc
      simp [Pending.extend, this.1, this.2]

/-- A one-character operator in front of something that does not continue it. -/
theorem lexGo_sym {c : Char} {t : Tok} (hs : Pending.start c = some (.sym [c]))
    (ht : symTok [c] = some t) {rest : List Char}
    (hr : ∀ c' r, rest = c' :: r → ¬ ((c = '*' ∧ c' = '*') ∨ (c = '/' ∧ c' = '/'))) :
    lexGo .idle (c :: rest) = (lexGo .idle rest).map ([t] ++ ·) := by
  rw [lexGo_idle_cons hs, lexGo_break]
  · exact bind_flush_cons (fun ts => by simp [Pending.flush, ht])
  · intro c' r he
    have := hr c' r he
    simp only [Pending.extend]
    rw [if_neg]
    simpa using this

theorem lexGo_dstar (rest : List Char) :
    lexGo .idle ('*' :: '*' :: rest) = (lexGo .idle rest).map ([.dstar] ++ ·) := by
  rw [lexGo_idle_cons (p := .sym ['*']) (by decide),
    lexGo_extend (p' := .sym ['*', '*']) (by decide), lexGo_break]
  · exact bind_flush_cons (fun ts => by simp [Pending.flush, symTok])
  · intro c' r _
    simp [Pending.extend]

/-- What does not start with an operator or a blank. -/
def NoOpStart (s : List Char) : Prop :=
  ∃ c r, s = c :: r ∧ c ≠ '*' ∧ c ≠ '/' ∧ c ≠ ' ' ∧ c ≠ '\t'

theorem NoOpStart.append {s : List Char} (h : NoOpStart s) (t : List Char) : NoOpStart (s ++ t) := by
  obtain ⟨c, r, rfl, h1, h2, h3⟩ := h
  exact ⟨c, r ++ t, rfl, h1, h2, h3⟩

theorem Lexes.op {a b : List Char} {ta tb : List Tok} (ha : Lexes a ta) (hb : Lexes b tb)
    (hn : NoOpStart b) {c : Char} {t : Tok} (hc : c = '*' ∧ t = .star ∨ c = '/' ∧ t = .slash) :
    Lexes (a ++ c :: b) (ta ++ t :: tb) := by
  intro rest hr
  obtain ⟨c0, r0, hb0, h1, h2⟩ := hn.append rest
  have e : a ++ c :: b ++ rest = a ++ c :: (b ++ rest) := by simp
  rw [e, ha _ (Or.inr ⟨c, b ++ rest, rfl, by tauto⟩),
    lexGo_sym (t := t), hb rest hr]
  · rw [Option.map_map, Option.map_map]
    congr 1
    funext x; simp
  · rcases hc with ⟨rfl, -⟩ | ⟨rfl, -⟩ <;> decide
  · rcases hc with ⟨rfl, rfl⟩ | ⟨rfl, rfl⟩ <;> decide
  · intro c' r he
    rw [hb0] at he
    simp only [List.cons.injEq] at he
    rw [← he.1]
    tauto

theorem Lexes.paren {b : List Char} {tb : List Tok} (hb : Lexes b tb) :
    Lexes ('(' :: b ++ [')']) (.lpar :: tb ++ [.rpar]) := by
  intro rest hr
  have e : '(' :: b ++ [')'] ++ rest = '(' :: (b ++ ')' :: rest) := by simp
  rw [e, lexGo_sym (t := .lpar) (by decide) (by decide) (by
      intro c' r _ h; rcases h with ⟨h, -⟩ | ⟨h, -⟩ <;> exact absurd h (by decide)),
    hb _ (Or.inr ⟨')', rest, rfl, by simp⟩),
    lexGo_sym (t := .rpar) (by decide) (by decide) (by
      intro c' r _ h; rcases h with ⟨h, -⟩ | ⟨h, -⟩ <;> exact absurd h (by decide))]
  rw [Option.map_map, Option.map_map]
  congr 1
  funext x; simp

theorem lexes_pow {s : List Char} (h : IsIdent s) {c : Char} {cs : List Char} {q : ℚ}
    (hc : isDig c = true) (hcs : ∀ x ∈ cs, isDig x = true ∨ x = '.')
    (hq : decimalLit (c :: cs) = some q) :
    Lexes (s ++ '*' :: '*' :: c :: cs) [.name s, .dstar, .num q] := by
  intro rest hr
  have e : s ++ '*' :: '*' :: c :: cs ++ rest = s ++ '*' :: '*' :: (c :: cs ++ rest) := by simp
  rw [e, lexes_ident h _ (Or.inr ⟨'*', _, rfl, by simp⟩), lexGo_dstar, lexes_number hc hcs hq rest hr, Option.map_map, Option.map_map]
  congr 1

theorem Lexes.lex {s : List Char} {ts : List Tok} (h : Lexes s ts) (hn : NoOpStart s) :
    lex s = some ts := by
  have := h [] (Or.inl rfl)
  rw [List.append_nil] at this
  rw [PQ.lex, if_neg, this]
  · simp [lexGo_nil, Pending.flush]
  · obtain ⟨c, r, rfl, -, -, h3, h4⟩ := hn
    simp [h3, h4]

end PQ
