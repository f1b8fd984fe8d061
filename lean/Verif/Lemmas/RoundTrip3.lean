import Verif.Lemmas.RoundTrip2

/-! # Printing, rewriting, parsing, evaluating: assembled -/

namespace PQ

open Dict LawfulRPow

variable {K : Type _}

/-! ## the label rewriting leaves a printed dimensionality alone -/

/-- No character the rewriting touches: no `^`, `·`, `%`, and no point after a letter. -/
def Clean : Bool → List Char → Prop
  | _, [] => True
  | pl, c :: cs => c ≠ '^' ∧ c ≠ '·' ∧ c ≠ '%' ∧ ¬ (c = '.' ∧ pl = true) ∧ Clean (isAsciiLetter c) cs

theorem Clean.mono {s : List Char} {pl : Bool} (h : Clean true s) : Clean pl s := by
  cases s with
  | nil => trivial
  | cons c s => obtain ⟨h1, h2, h3, h4, h5⟩ := h; exact ⟨h1, h2, h3, fun h => h4 ⟨h.1, rfl⟩, h5⟩

theorem Clean.append {a b : List Char} {pl : Bool} (ha : Clean pl a) (hb : Clean true b) :
    Clean pl (a ++ b) := by
  induction a generalizing pl with
  | nil => exact hb.mono
  | cons c a ih => obtain ⟨h1, h2, h3, h4, h5⟩ := ha; exact ⟨h1, h2, h3, h4, ih h5⟩

theorem Clean.notMem {s : List Char} {pl : Bool} (h : Clean pl s) : '^' ∉ s ∧ '·' ∉ s ∧ '%' ∉ s := by
  induction s generalizing pl with
  | nil => simp
  | cons c s ih =>
    obtain ⟨h1, h2, h3, -, h5⟩ := h
    obtain ⟨i1, i2, i3⟩ := ih h5
    simp only [List.mem_cons, not_or]
    exact ⟨⟨h1.symm, i1⟩, ⟨h2.symm, i2⟩, ⟨h3.symm, i3⟩⟩

theorem Clean.dotSub {s : List Char} {pl : Bool} (h : Clean pl s) : PQ.dotSub s = s := by
  fun_induction PQ.dotSub s generalizing pl with
  | case1 a b c rest hc ih =>
    simp only [Bool.and_eq_true, beq_iff_eq] at hc
    obtain ⟨-, -, -, -, -, -, -, h4, -⟩ := h
    exact absurd ⟨hc.1.2, hc.1.1⟩ h4
  | case2 a b c rest hc ih =>
    obtain ⟨-, -, -, -, h5⟩ := h
    rw [ih h5]
  | case3 s hs => rfl

theorem clean_of_idCont {s : List Char} (h : s.all isIdCont = true) (pl : Bool) : Clean pl s := by
  induction s generalizing pl with
  | nil => trivial
  | cons c s ih =>
    simp only [List.all_cons, Bool.and_eq_true] at h
    refine ⟨?_, ?_, ?_, ?_, ih h.2 _⟩
    · rintro rfl; exact absurd h.1 (by decide)
    · rintro rfl; exact absurd h.1 (by decide)
    · rintro rfl; exact absurd h.1 (by decide)
    · rintro ⟨rfl, -⟩; exact absurd h.1 (by decide)

theorem dig_not_letter {c : Char} (h : isDig c = true ∨ c = '.') : isAsciiLetter c = false := by
  rcases h with h | rfl
  · by_contra hx
    have hx : isAsciiLetter c = true := by simpa using hx
    simp only [isAsciiLetter, isDig, Bool.or_eq_true, Bool.and_eq_true, decide_eq_true_eq] at h hx
    have e1 : 'a'.toNat = 97 := rfl
    have e2 : 'A'.toNat = 65 := rfl
    have e3 : '9'.toNat = 57 := rfl
    omega
  · decide

theorem clean_number {s : List Char} (h : ∀ x ∈ s, isDig x = true ∨ x = '.') : Clean false s := by
  induction s with
  | nil => trivial
  | cons c s ih =>
    have hc := h c (by simp)
    refine ⟨?_, ?_, ?_, by simp, ?_⟩
    · rintro rfl; exact absurd hc (by decide)
    · rintro rfl; exact absurd hc (by decide)
    · rintro rfl; exact absurd hc (by decide)
    · rw [dig_not_letter hc]; exact ih (fun x hx => h x (by simp [hx]))

theorem preprocess_clean {s : List Char} (h : Clean false s) (hne : s ≠ []) (hin : isIn s = false) :
    preprocess s = s := by
  obtain ⟨h1, h2, h3⟩ := h.notMem
  unfold preprocess
  have hc : s.contains '%' = false := by simpa using h3
  simp only [replaceChar_of_notMem _ h1, replaceChar_of_notMem _ h2, h.dotSub, hne, if_false, hc,
    hin, Bool.false_eq_true]

theorem isIn_lex {s : List Char} (h : isIn s = true) : lex s = none ∨ lex s = some [.name s] := by
  simp only [isIn, Bool.or_eq_true, beq_iff_eq] at h
  rcases h with ((rfl | rfl) | rfl) | rfl <;> decide +kernel

/-! ## items -/

/-- What is printed for a unit with a (positive) exponent. -/
def mkItem (w : World K) (u : UKey) (d : PyNum) : Item :=
  ⟨w.unitSymbol false u, if d.val ≠ 1 then some d.val else none⟩

/-- A string that prints an item. -/
structure ItemStr (s : List Char) (i : Item) : Prop where
  lexes : Lexes s i.toks
  start : NoOpStart s
  clean : Clean true s

theorem ident_noOp {s : List Char} (h : IsIdent s) : NoOpStart s := by
  obtain ⟨hne, hh, -, -⟩ := h
  cases s with
  | nil => exact absurd rfl hne
  | cons c cs => have h := idStart_not (hh c rfl)
                 exact ⟨c, cs, rfl, h.1, h.2.1, h.2.2.2.2.2.1, h.2.2.2.2.2.2⟩

theorem fmtItem_str {w : World K} {fr : ℚ → List Char} {u : UKey} {d : PyNum}
    (hi : IsIdent (w.unitSymbol false u)) (hd : FaithfulExp fr d) :
    ItemStr (fmtItem w fr false u d) (mkItem w u d) := by
  unfold fmtItem mkItem
  simp only [Bool.false_eq_true, if_false]
  by_cases h1 : d.val ≠ 1
  · rw [if_pos h1, if_pos h1]
    obtain ⟨c, cs, he, hc, hcs, hv⟩ := expSuffix_spec hd
    rw [he]
    refine ⟨lexes_pow hi hc hcs hv, (ident_noOp hi).append _, (clean_of_idCont hi.2.2.1 _).append ?_⟩
    refine ⟨by decide, by decide, by decide, by decide, by decide, by decide, by decide, by decide, ?_⟩
    refine clean_number ?_
    intro x hx
    rcases List.mem_cons.1 hx with rfl | hx
    · exact Or.inl hc
    · exact hcs x hx
  · rw [if_neg h1, if_neg h1]
    exact ⟨lexes_ident hi, ident_noOp hi, clean_of_idCont hi.2.2.1 _⟩

theorem joinStar_str {ss : List (List Char)} {is : List Item} (h : List.Forall₂ ItemStr ss is) :
    ∀ {s : List Char} {i : Item}, ItemStr s i →
      Lexes (joinStar (s :: ss)) (i.toks ++ starToks is) ∧ NoOpStart (joinStar (s :: ss)) ∧
      Clean true (joinStar (s :: ss)) := by
  induction h with
  | nil =>
    intro s i hs
    simp only [joinStar, starToks, List.append_nil]
    exact ⟨hs.lexes, hs.start, hs.clean⟩
  | @cons s' i' ss is hs' _ ih =>
    intro s i hs
    obtain ⟨h1, h2, h3⟩ := ih hs'
    have e : joinStar (s :: s' :: ss) = s ++ '*' :: joinStar (s' :: ss) := rfl
    rw [e]
    refine ⟨hs.lexes.op h1 h2 (Or.inl ⟨rfl, rfl⟩), hs.start.append _, hs.clean.append ?_⟩
    exact ⟨by decide, by decide, by decide, by decide, h3.mono⟩

theorem forall₂_map {α β γ : Type _} {R : β → γ → Prop} (l : List α) (f : α → β) (g : α → γ)
    (h : ∀ x ∈ l, R (f x) (g x)) : List.Forall₂ R (l.map f) (l.map g) := by
  induction l with
  | nil => exact .nil
  | cons x l ih => exact .cons (h x (by simp)) (ih fun y hy => h y (by simp [hy]))

theorem name_mem_toks {is : List Item} {i : Item} {s : List Char}
    (h : i.toks ++ starToks is = [.name s]) : s = i.id := by
  obtain ⟨id, e⟩ := i
  cases e with
  | some q => simp [Item.toks] at h
  | none =>
    simp only [Item.toks, List.singleton_append, List.cons.injEq, Tok.name.injEq] at h
    exact h.1.symm

/-! ## sorting -/

theorem sorted_perm (w : World K) (d : PDim) : (PDim.sorted w d).Perm d := List.perm_insertionSort _ _

theorem looksLikeIn_of_isIn {s : List Char} (h : isIn s = true) : LooksLikeIn s := by
  simp only [isIn, Bool.or_eq_true, beq_iff_eq] at h
  rcases h with ((rfl | rfl) | rfl) | rfl <;> (unfold LooksLikeIn; decide +kernel)

section
variable [Field K] [LinearOrder K] [IsStrictOrderedRing K] [RPow K] [LawfulRPow K]

theorem printed_roundtrip (P : List Char → Py PyAST) (F : PyOps K) {w : World K}
    {fr : ℚ → List Char} {d : PDim} (hn : Dict.Nodup d) (hp : Printable w fr d) :
    ∃ v q, w.lookup P F (formatUnits w fr false d) = .ok v ∧ v.asQty = some q ∧ q.mag = 1 ∧
      SameContent q.dim d.toDim := by
  have hperm := sorted_perm w d
  have hcanon : Canon d.toDim := by
    refine ⟨?_, ?_⟩
    · simpa [PDim.toDim, Dict.Nodup, List.map_map, Function.comp_def] using hn
    · intro kv hk
      simp only [PDim.toDim, List.mem_map] at hk
      obtain ⟨x, hx, rfl⟩ := hk
      rcases hp.exp x hx with ⟨h, -⟩ | ⟨h, -⟩
      · exact h.ne'
      · exact h.ne
  set items := PDim.sorted w d with hitems
  have hmem : ∀ {kv}, kv ∈ items → kv ∈ d := fun h => hperm.mem_iff.1 h
  let pos := items.filter (fun kv => decide (0 < kv.2.val))
  let neg := items.filter (fun kv => decide (kv.2.val < 0))
  have hpos : ∀ kv ∈ pos, kv ∈ d ∧ 0 < kv.2.val := fun kv h => by
    obtain ⟨h1, h2⟩ := List.mem_filter.1 h; exact ⟨hmem h1, by simpa using h2⟩
  have hneg : ∀ kv ∈ neg, kv ∈ d ∧ kv.2.val < 0 := fun kv h => by
    obtain ⟨h1, h2⟩ := List.mem_filter.1 h; exact ⟨hmem h1, by simpa using h2⟩
  have negval : ∀ e : PyNum, e.neg.val = - e.val := by
    intro e; cases e <;> simp [PyNum.neg, PyNum.val]
  -- strings of items
  have strPos : ∀ kv ∈ pos, ItemStr (fmtItem w fr false kv.1 kv.2) (mkItem w kv.1 kv.2) := by
    intro kv hk
    obtain ⟨h1, h2⟩ := hpos kv hk
    refine fmtItem_str (hp.symbol kv h1).1 ?_
    rcases hp.exp kv h1 with ⟨-, h⟩ | ⟨h, -⟩
    · exact h
    · exact absurd h2 (not_lt.2 h.le)
  have strNeg : ∀ kv ∈ neg, ItemStr (fmtItem w fr false kv.1 kv.2.neg) (mkItem w kv.1 kv.2.neg) := by
    intro kv hk
    obtain ⟨h1, h2⟩ := hneg kv hk
    refine fmtItem_str (hp.symbol kv h1).1 ?_
    rcases hp.exp kv h1 with ⟨h, -⟩ | ⟨-, h⟩
    · exact absurd h2 (not_lt.2 h.le)
    · exact h
  -- meaning of items
  have itemExp : ∀ e : PyNum, (if e.val ≠ 1 then some e.val else none : Option ℚ).getD 1 = e.val := by
    intro e
    by_cases h : e.val = 1
    · simp [h]
    · simp [h]
  have forPos : ∀ kv ∈ pos, ItemFor w (mkItem w kv.1 kv.2) kv.1 kv.2.val := fun kv hk =>
    ⟨(hp.symbol kv (hpos kv hk).1).2.2, hp.cls kv (hpos kv hk).1, itemExp _⟩
  have forNeg : ∀ kv ∈ neg, ItemFor w (mkItem w kv.1 kv.2.neg) kv.1 (- kv.2.val) := fun kv hk =>
    ⟨(hp.symbol kv (hneg kv hk).1).2.2, hp.cls kv (hneg kv hk).1, by
      rw [← negval]; exact itemExp _⟩
  let lp : List (UKey × ℚ) := pos.map (fun kv => (kv.1, kv.2.val))
  let ln : List (UKey × ℚ) := neg.map (fun kv => (kv.1, - kv.2.val))
  -- the exponents
  have hexp : ∀ u, itemsExp lp u - itemsExp ln u = expo d.toDim u := by
    intro u
    rw [← itemsExp_eq_expo hcanon.nodup]
    have e1 : itemsExp d.toDim u = itemsExp (items.map (fun kv => (kv.1, kv.2.val))) u :=
      itemsExp_perm (hperm.symm.map _) u
    rw [e1]
    have hz : ∀ kv ∈ items, 0 < kv.2.val ∨ kv.2.val < 0 := fun kv hk => by
      rcases hp.exp kv (hmem hk) with ⟨h, -⟩ | ⟨h, -⟩
      · exact Or.inl h
      · exact Or.inr h
    change itemsExp ((items.filter (fun kv => decide (0 < kv.2.val))).map (fun kv => (kv.1, kv.2.val))) u
      - itemsExp ((items.filter (fun kv => decide (kv.2.val < 0))).map (fun kv => (kv.1, - kv.2.val))) u
      = _
    clear_value items
    clear hitems hperm hmem pos neg hpos hneg strPos strNeg forPos forNeg lp ln e1
    induction items with
    | nil => simp [itemsExp]
    | cons kv l ih =>
      have ih := ih (fun x hx => hz x (by simp [hx]))
      rcases hz kv (by simp) with h | h
      · rw [List.filter_cons_of_pos (by simpa using h), List.filter_cons_of_neg (by simpa using h.le)]
        simp only [List.map_cons, itemsExp]
        rw [← ih]; ring
      · rw [List.filter_cons_of_neg (by simpa using h.le), List.filter_cons_of_pos (by simpa using h)]
        simp only [List.map_cons, itemsExp]
        rw [← ih]
        by_cases hk : kv.1 = u <;> simp [hk] <;> ring
  -- it suffices to read the string as a tree with the right meaning
  have finish : ∀ (s : List Char) (t : PyAST) (f : UKey → ℚ), formatUnits w fr false d = s →
      Clean false s → s ≠ [] → isIn s = false → parseWith P s = .ok t → Arithmetic t →
      EvalsTo F w t f → (∀ u, f u = expo d.toDim u) →
      ∃ v q, w.lookup P F (formatUnits w fr false d) = .ok v ∧ v.asQty = some q ∧ q.mag = 1 ∧
        SameContent q.dim d.toDim := by
    rintro s t f hs hc hne hin ht ha ⟨v, q, e1, e2, e3, e4, e5⟩ hf
    refine ⟨v, q, ?_, e2, e3, e4.sameContent hcanon (fun u => (e5 u).trans (hf u))⟩
    rw [World.lookup, PQ.lookup, hs, preprocess_clean hc hne hin, registryGet, ht]
    simp only [valid_iff.2 ha, if_true, e1]
  have arithItem : ∀ i : Item, Arithmetic i.ast := by
    rintro ⟨id, e⟩
    cases e with
    | none => exact .name _
    | some q => exact .binOp _ (.name _) (.constant _)
  have arithProd : ∀ (is : List Item) (t : PyAST), Arithmetic t → Arithmetic (prodAst t is) := by
    intro is
    induction is with
    | nil => exact fun t h => h
    | cons i is ih => exact fun t h => ih _ (.binOp _ h (arithItem i))
  -- the two lists of strings
  have eNum : fmtNum w fr false items = pos.map (fun kv => fmtItem w fr false kv.1 kv.2) := rfl
  have eDen : fmtDen w fr false items = neg.map (fun kv => fmtItem w fr false kv.1 kv.2.neg) := rfl
  have fPos := forall₂_map pos (fun kv => fmtItem w fr false kv.1 kv.2) (fun kv => mkItem w kv.1 kv.2)
    strPos
  have fNeg := forall₂_map neg (fun kv => fmtItem w fr false kv.1 kv.2.neg)
    (fun kv => mkItem w kv.1 kv.2.neg) strNeg
  have mPos := forall₂_map (R := fun i (kv : UKey × ℚ) => ItemFor w i kv.1 kv.2) pos
    (fun kv => mkItem w kv.1 kv.2) (fun kv => (kv.1, kv.2.val)) forPos
  have mNeg := forall₂_map (R := fun i (kv : UKey × ℚ) => ItemFor w i kv.1 kv.2) neg
    (fun kv => mkItem w kv.1 kv.2.neg) (fun kv => (kv.1, - kv.2.val)) forNeg
  have noOp_ne : ∀ s : List Char, NoOpStart s → s ≠ [] := by
    rintro s ⟨c, r, rfl, -⟩; simp
  -- not the inch
  have notIn : ∀ (s : List Char) (ts : List Tok), lex s = some ts →
      (∀ x, ts = [.name x] → ¬ LooksLikeIn x) → isIn s = false := by
    intro s ts hl hx
    by_contra hi
    have hi : isIn s = true := by simpa using hi
    rcases isIn_lex hi with h | h
    · rw [h] at hl; simp at hl
    · rw [h] at hl
      simp only [Option.some.injEq] at hl
      exact hx s hl.symm (looksLikeIn_of_isIn hi)
  -- the denominator as one factor
  have hden : neg ≠ [] → ∃ (ds : List Char) (D : Denom),
      ds = (if 1 < (fmtDen w fr false items).length
        then '(' :: joinStar (fmtDen w fr false items) ++ [')'] else joinStar (fmtDen w fr false items)) ∧
      Lexes ds D.toks ∧ NoOpStart ds ∧ Clean true ds ∧ Arithmetic D.ast ∧
      EvalsTo F w D.ast (itemsExp ln) := by
    intro hne
    rw [eDen]
    rcases hn' : neg with _ | ⟨kv, l⟩
    · exact absurd hn' hne
    · rw [hn'] at fNeg mNeg
      simp only [List.map_cons, List.forall₂_cons] at fNeg mNeg
      obtain ⟨h1, h2, h3⟩ := joinStar_str fNeg.2 fNeg.1
      have hev : EvalsTo F w (prodAst (mkItem w kv.1 kv.2.neg).ast
          (l.map (fun kv => mkItem w kv.1 kv.2.neg))) (itemsExp ln) := by
        have := evalsTo_prod1 F w _ _ (kv.1, - kv.2.val) _ mNeg.1 mNeg.2
        have e : ln = (kv.1, - kv.2.val) :: l.map (fun kv => (kv.1, - kv.2.val)) := by
          simp only [ln, hn', List.map_cons]
        rw [e]; exact this
      rcases l with _ | ⟨kv', l'⟩
      · refine ⟨_, .one (mkItem w kv.1 kv.2.neg), rfl, ?_, ?_, ?_, arithItem _, hev⟩
        · simpa [starToks, Denom.toks] using h1
        · simpa using h2
        · simpa using h3
      · refine ⟨_, .many (mkItem w kv.1 kv.2.neg) ((kv' :: l').map (fun (x : UKey × PyNum) => mkItem w x.1 x.2.neg)),
          rfl, ?_, ?_, ?_, arithProd _ _ (arithItem _), hev⟩
        · simp only [List.map_cons, List.length_cons, List.length_map, if_pos (show 1 < l'.length + 1 + 1 by omega)]
          exact h1.paren
        · simp only [List.map_cons, List.length_cons, List.length_map, if_pos (show 1 < l'.length + 1 + 1 by omega)]
          exact ⟨'(', _, rfl, by decide, by decide, by decide, by decide⟩
        · simp only [List.map_cons, List.length_cons, List.length_map, if_pos (show 1 < l'.length + 1 + 1 by omega)]
          refine Clean.append (a := '(' :: _) ⟨by decide, by decide, by decide, by decide, h3.mono⟩ ?_
          exact ⟨by decide, by decide, by decide, by decide, trivial⟩
  have hfmt : formatUnits w fr false d =
      (let res := joinStar (fmtNum w fr false items)
       let res := if (fmtDen w fr false items).length = 0 then res
         else (if res = [] then ['1'] else res) ++ '/' ::
           (if 1 < (fmtDen w fr false items).length
            then '(' :: joinStar (fmtDen w fr false items) ++ [')']
            else joinStar (fmtDen w fr false items))
       if res = [] then "dimensionless".toList else res) := rfl
  rcases hpe : pos with _ | ⟨kv, l⟩
  · have lp0 : lp = [] := by simp [lp, hpe]
    have eNum0 : fmtNum w fr false items = [] := by rw [eNum, hpe]; rfl
    by_cases hne : neg = []
    · -- dimensionless
      have ln0 : ln = [] := by simp [ln, hne]
      have eDen0 : fmtDen w fr false items = [] := by rw [eDen, hne]; rfl
      obtain ⟨u, hu, huc⟩ := hp.dimless
      have hs : formatUnits w fr false d = "dimensionless".toList := by
        rw [hfmt, eNum0, eDen0]; rfl
      have hlex : lex "dimensionless".toList = some [.name "dimensionless".toList] := by decide +kernel
      refine finish _ (.name "dimensionless".toList) (fun _ => 0) hs ?_ (by decide) (by decide)
        (parse_name P hlex) (.name _) ?_ ?_
      · exact clean_of_idCont (by decide) _
      · refine ⟨.unit u, ⟨1, unitDim u⟩, ?_, rfl, rfl, ?_, ?_⟩
        · simp [evalTree, World.context, hu]
        · simp only [unitDim, huc, if_true]; exact Canon.nil
        · intro v; simp [unitDim, huc, expo]
      · intro v; rw [← hexp v, lp0, ln0]; simp [itemsExp]
    · -- 1/den
      obtain ⟨ds, D, hds, hL, hN, hC, hA, hE⟩ := hden hne
      have hl0 : ¬ (fmtDen w fr false items).length = 0 := by rw [eDen]; simpa using hne
      have hs : formatUnits w fr false d = '1' :: '/' :: ds := by
        rw [hfmt, eNum0]
        simp only [joinStar, if_neg hl0, ← hds, if_true]
        rfl
      have hL1 : Lexes ['1'] [.num 1] := lexes_number (by decide) (by simp) (by
        have := decimalLit_nat 1
        rw [show natDigits 1 = ['1'] by decide +kernel] at this
        simpa using this)
      have hlex := (hL1.op hL hN (Or.inr ⟨rfl, rfl⟩)).lex
        ⟨'1', _, rfl, by decide, by decide, by decide, by decide⟩
      refine finish ('1' :: '/' :: ds) _ _ hs ?_ (by simp) (notIn _ _ hlex (by simp)) (parse_inv P hlex)
        (.binOp _ (.constant _) hA) hE.inv ?_
      · exact ⟨by decide, by decide, by decide, by decide, by decide, by decide, by decide, by decide,
          hC.mono⟩
      · intro v; rw [← hexp v, lp0]; simp [itemsExp]
  · have hposd : kv ∈ d := (hpos kv (by rw [hpe]; simp)).1
    rw [hpe] at fPos mPos
    simp only [List.map_cons, List.forall₂_cons] at fPos mPos
    obtain ⟨h1, h2, h3⟩ := joinStar_str fPos.2 fPos.1
    have hev : EvalsTo F w (prodAst (mkItem w kv.1 kv.2).ast (l.map (fun kv => mkItem w kv.1 kv.2)))
        (itemsExp lp) := by
      have := evalsTo_prod1 F w _ _ (kv.1, kv.2.val) _ mPos.1 mPos.2
      have e : lp = (kv.1, kv.2.val) :: l.map (fun kv => (kv.1, kv.2.val)) := by
        simp only [lp, hpe, List.map_cons]
      rw [e]; exact this
    have eNum1 : fmtNum w fr false items =
        fmtItem w fr false kv.1 kv.2 :: l.map (fun kv => fmtItem w fr false kv.1 kv.2) := by
      rw [eNum, hpe]; rfl
    have hjne := noOp_ne _ h2
    by_cases hne : neg = []
    · have ln0 : ln = [] := by simp [ln, hne]
      have eDen0 : fmtDen w fr false items = [] := by rw [eDen, hne]; rfl
      have hs : formatUnits w fr false d = joinStar (fmtItem w fr false kv.1 kv.2 ::
          l.map (fun kv => fmtItem w fr false kv.1 kv.2)) := by
        rw [hfmt, eNum1, eDen0]; simp only [List.length_nil, if_true, if_neg hjne]
      refine finish _ _ _ hs h3.mono hjne (notIn _ _ (h1.lex h2) ?_) (parse_prod P (h1.lex h2))
        (arithProd _ _ (arithItem _)) hev ?_
      · intro x hx
        rw [name_mem_toks hx]
        exact (hp.symbol kv hposd).2.1
      · intro v; rw [← hexp v, ln0]; simp [itemsExp]
    · obtain ⟨ds, D, hds, hL, hN, hC, hA, hE⟩ := hden hne
      have hl0 : ¬ (fmtDen w fr false items).length = 0 := by rw [eDen]; simpa using hne
      have hs : formatUnits w fr false d = joinStar (fmtItem w fr false kv.1 kv.2 ::
          l.map (fun kv => fmtItem w fr false kv.1 kv.2)) ++ '/' :: ds := by
        rw [hfmt, eNum1]
        simp only [if_neg hl0, ← hds, if_neg hjne]
        rw [if_neg (by simp)]
      have hlex := (h1.op hL hN (Or.inr ⟨rfl, rfl⟩)).lex (h2.append _)
      refine finish _ _ _ hs ?_ (by simp) (notIn _ _ hlex ?_) (parse_frac P hlex)
        (.binOp _ (arithProd _ _ (arithItem _)) hA) (hev.div hE) hexp
      · exact h3.mono.append ⟨by decide, by decide, by decide, by decide, hC.mono⟩
      · intro x hx
        have := congrArg List.length hx
        have hi := (mkItem w kv.1 kv.2).toks_length
        have hd := D.toks_length
        simp at this
        omega

end
end PQ
