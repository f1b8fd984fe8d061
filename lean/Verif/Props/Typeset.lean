import Verif.Lemmas.Typeset
import Verif.Lemmas.Example
import Verif.Props.UnitStrings

/-!
# Property C57: the typeset forms of a unit show the same units and exponents as its string
-/

namespace PQ

variable {K : Type _}

/-! ## The plain string -/

theorem natAbs_val {e : PyNum} (hd : e.val.den = 1) (h : 0 < e.val) : e.val = (e.val.num.natAbs : ℕ) := by
  have h1 : e.val = e.val.num := ((Rat.den_eq_one_iff _).1 hd).symm
  have h2 : 0 < e.val.num := Rat.num_pos.2 h
  have h3 : ((e.val.num.natAbs : ℕ) : ℤ) = e.val.num := Int.natAbs_of_nonneg h2.le
  calc e.val = ((e.val.num : ℤ) : ℚ) := h1
    _ = (((e.val.num.natAbs : ℕ) : ℤ) : ℚ) := by rw [h3]
    _ = _ := Int.cast_natCast _

/-- The symbols used. -/
def symbolOf (w : World K) (uni : Bool) (u : UKey) : List Char :=
  if uni then w.unitUSymbol uni u else w.unitSymbol uni u

theorem fmtItem_pos (w : World K) {fr : ℚ → List Char} (uni : Bool) (u : UKey) {e : PyNum}
    (hf : FaithfulExp fr e) (hd : e.val.den = 1) (h : 0 < e.val) :
    fmtItem w fr uni u e = asciiStyle.item (symbolOf w uni u, e.val.num.natAbs) := by
  have hv := natAbs_val hd h
  have hi : fmtItem w fr uni u e =
    if e.val ≠ 1 then symbolOf w uni u ++ expSuffix fr e else symbolOf w uni u := rfl
  rw [hi]
  unfold Style.item
  simp only
  by_cases h1 : e.val = 1
  · have h2 : e.val.num.natAbs = 1 := by rw [h1]; rfl
    rw [if_neg (by simpa using h1), if_pos h2, List.append_nil]
  · have h2 : e.val.num.natAbs ≠ 1 := by
      intro hn; rw [hn] at hv; exact h1 (by simpa using hv)
    rw [if_pos h1, if_neg h2, expSuffix_nat hf hv]
    rfl

theorem fmtNum_eq (w : World K) {fr : ℚ → List Char} (uni : Bool) (items : List (UKey × PyNum))
    (h : ∀ kv ∈ items, PrintsExp fr kv.2 ∧ kv.2.val.den = 1) :
    fmtNum w fr uni items = (above (symbolOf w uni) items).map asciiStyle.item := by
  induction items with
  | nil => rfl
  | cons kv items ih =>
    have ih := ih (fun x hx => h x (List.mem_cons_of_mem _ hx))
    unfold fmtNum above at ih ⊢
    by_cases hp : 0 < kv.2.val
    · have hf : FaithfulExp fr kv.2 := by
        rcases (h kv (by simp)).1 with ⟨-, h⟩ | ⟨h, -⟩
        · exact h
        · exact absurd hp (by linarith)
      simp only [List.filter_cons, hp, decide_true, if_true, List.map_cons, List.filterMap_cons]
      rw [fmtItem_pos w uni _ hf (h kv (by simp)).2 hp, ih]
    · simp only [List.filter_cons, hp, decide_false, List.filterMap_cons, if_false, Bool.false_eq_true]
      exact ih

theorem fmtDen_eq (w : World K) {fr : ℚ → List Char} (uni : Bool) (items : List (UKey × PyNum))
    (h : ∀ kv ∈ items, PrintsExp fr kv.2 ∧ kv.2.val.den = 1) :
    fmtDen w fr uni items = (below (symbolOf w uni) items).map asciiStyle.item := by
  induction items with
  | nil => rfl
  | cons kv items ih =>
    have ih := ih (fun x hx => h x (List.mem_cons_of_mem _ hx))
    unfold fmtDen below at ih ⊢
    by_cases hp : kv.2.val < 0
    · have hf : FaithfulExp fr kv.2.neg := by
        rcases (h kv (by simp)).1 with ⟨h, -⟩ | ⟨-, h⟩
        · exact absurd hp (by linarith)
        · exact h
      have hn : kv.2.neg.val = - kv.2.val := neg_val kv.2
      have hd : kv.2.neg.val.den = 1 := by rw [hn, Rat.neg_den]; exact (h kv (by simp)).2
      simp only [List.filter_cons, hp, decide_true, if_true, List.map_cons, List.filterMap_cons]
      rw [fmtItem_pos w uni _ hf hd (by rw [hn]; linarith), ih]
      rw [hn, Rat.neg_num, Int.natAbs_neg]
    · simp only [List.filter_cons, hp, decide_false, List.filterMap_cons, if_false, Bool.false_eq_true]
      exact ih

theorem joinStar_items (l : List (List Char × ℕ)) :
    joinStar (l.map asciiStyle.item) = asciiStyle.product l := by
  induction l with
  | nil => rfl
  | cons x l ih =>
    cases l with
    | nil => rfl
    | cons y l =>
      simp only [List.map_cons, joinStar, Style.product] at ih ⊢
      rw [ih]
      simp [asciiStyle]

theorem product_ne_nil {st : Style} {l : List (List Char × ℕ)} (hl : l ≠ []) (h : ∀ x ∈ l, x.1 ≠ []) :
    st.product l ≠ [] := by
  cases l with
  | nil => exact absurd rfl hl
  | cons x l =>
    have hx := h x (by simp)
    cases l with
    | nil => simp [Style.product, Style.item, hx]
    | cons y l => simp [Style.product, Style.item, hx]

theorem mem_above {symbol : UKey → List Char} {items : List (UKey × PyNum)} {x : List Char × ℕ}
    (h : x ∈ above symbol items) : ∃ kv ∈ items, x.1 = symbol kv.1 := by
  obtain ⟨kv, hm, hk⟩ := List.mem_filterMap.1 h
  split at hk
  · simp only [Option.some.injEq] at hk; exact ⟨kv, hm, by rw [← hk]⟩
  · simp at hk

theorem mem_below {symbol : UKey → List Char} {items : List (UKey × PyNum)} {x : List Char × ℕ}
    (h : x ∈ below symbol items) : ∃ kv ∈ items, x.1 = symbol kv.1 := by
  obtain ⟨kv, hm, hk⟩ := List.mem_filterMap.1 h
  split at hk
  · simp only [Option.some.injEq] at hk; exact ⟨kv, hm, by rw [← hk]⟩
  · simp at hk

section
variable (w : World K) (fr : ℚ → List Char) (uni : Bool) (d : PDim)

/-- The units in the order in which they are written. -/
abbrev aboveOf : List (List Char × ℕ) := above (symbolOf w uni) (PDim.sorted w d)
abbrev belowOf : List (List Char × ℕ) := below (symbolOf w uni) (PDim.sorted w d)

variable {w fr uni d}

theorem sorted_mem {kv : UKey × PyNum} (h : kv ∈ PDim.sorted w d) : kv ∈ d :=
  (List.perm_insertionSort _ d).mem_iff.1 h

theorem above_plain (h : Typesettable (symbolOf w uni) fr d) :
    ∀ x ∈ aboveOf w uni d, PlainSymbol x.1 := by
  intro x hx
  obtain ⟨kv, hm, e⟩ := mem_above hx
  rw [e]; exact h.symbol kv (sorted_mem hm)

theorem below_plain (h : Typesettable (symbolOf w uni) fr d) :
    ∀ x ∈ belowOf w uni d, PlainSymbol x.1 := by
  intro x hx
  obtain ⟨kv, hm, e⟩ := mem_below hx
  rw [e]; exact h.symbol kv (sorted_mem hm)

theorem format_ascii (h : Typesettable (symbolOf w uni) fr d) :
    formatUnits w fr uni d = asciiStyle.typeset (aboveOf w uni d) (belowOf w uni d) := by
  have hs : ∀ kv ∈ PDim.sorted w d, PrintsExp fr kv.2 ∧ kv.2.val.den = 1 :=
    fun kv hkv => h.exp kv (sorted_mem hkv)
  have ha := above_plain h
  have hb := below_plain h
  unfold formatUnits
  simp only [fmtNum_eq w uni _ hs, fmtDen_eq w uni _ hs, joinStar_items, List.length_map]
  change ∀ x ∈ above (symbolOf w uni) (PDim.sorted w d), _ at ha
  change ∀ x ∈ below (symbolOf w uni) (PDim.sorted w d), _ at hb
  change _ = Style.typeset _ (above (symbolOf w uni) (PDim.sorted w d)) (below (symbolOf w uni) (PDim.sorted w d))
  generalize above (symbolOf w uni) (PDim.sorted w d) = A at *
  generalize below (symbolOf w uni) (PDim.sorted w d) = B at *
  unfold Style.typeset
  have ea : asciiStyle.product A = [] ↔ A = [] := by
    constructor
    · intro hp
      by_contra hne
      exact product_ne_nil hne (fun x hx => (ha x hx).1) hp
    · intro h; rw [h]; rfl
  by_cases hb0 : B = []
  · have hl : B.length = 0 := by rw [hb0]; rfl
    simp only [if_pos hl, if_pos hb0]
    by_cases ha0 : A = []
    · rw [if_pos (ea.2 ha0), if_pos ha0]
    · rw [if_neg (fun h => ha0 (ea.1 h)), if_neg ha0]
  · have hl : ¬ B.length = 0 := by simpa using hb0
    simp only [if_neg hl, if_neg hb0, ea]
    rw [if_neg (by simp)]
    rfl

end

/-! ## The other forms -/

/-- Splitting at the only `/`. -/
theorem splitLastSlash_go_none (s : List Char) (h : '/' ∉ s) (n : ℕ) : splitLastSlash.go s n = none := by
  induction n with
  | zero => rfl
  | succ n ih =>
    rw [splitLastSlash.go, if_neg, ih]
    rintro ⟨h1, -⟩
    exact h (List.mem_of_getElem? h1)

theorem splitLastSlash_go_some (x y : List Char) (hy : '/' ∉ y) (hx0 : x ≠ []) (hy0 : y ≠ []) (n : ℕ)
    (hn : x.length < n) (hn2 : n ≤ (x ++ '/' :: y).length) :
    splitLastSlash.go (x ++ '/' :: y) n = some (x, y) := by
  have xl : 0 < x.length := List.length_pos_iff.2 hx0
  have yl : 0 < y.length := List.length_pos_iff.2 hy0
  induction n with
  | zero => omega
  | succ n ih =>
    rw [splitLastSlash.go]
    by_cases he : n = x.length
    · subst he
      rw [if_pos]
      · simp
      · refine ⟨by simp, xl, ?_⟩
        simp only [List.length_append, List.length_cons]; omega
    · rw [if_neg, ih (by omega) (by omega)]
      rintro ⟨h1, -⟩
      rw [List.getElem?_append_right (by omega)] at h1
      obtain ⟨k, hk⟩ : ∃ k, n - x.length = k + 1 := ⟨n - x.length - 1, by omega⟩
      rw [hk, List.getElem?_cons_succ] at h1
      exact hy (List.mem_of_getElem? h1)

theorem natDigits_notMem {c : Char} (hc : isDig c = false) (n : ℕ) : c ∉ natDigits n := fun h => by
  rw [natDigits_isDig n c h] at hc; exact absurd hc (by simp)

theorem slash_product (l : List (List Char × ℕ)) (h : ∀ x ∈ l, '/' ∉ x.1) :
    '/' ∉ asciiStyle.product l := by
  have item : ∀ x ∈ l, '/' ∉ asciiStyle.item x := by
    intro x hx
    unfold Style.item
    rw [List.mem_append, not_or]
    refine ⟨h x hx, ?_⟩
    split
    · simp
    · simp only [asciiStyle, List.mem_append, not_or]
      exact ⟨by decide, natDigits_notMem (by decide) _⟩
  induction l with
  | nil => simp [Style.product]
  | cons x l ih =>
    cases l with
    | nil => exact item x (by simp)
    | cons y l =>
      rw [Style.product]
      · simp only [List.mem_append, not_or]
        refine ⟨⟨item x (by simp), by decide⟩, ih (fun z hz => h z (List.mem_cons_of_mem _ hz))
          (fun z hz => item z (List.mem_cons_of_mem _ hz))⟩
      · simp

theorem supChar_digChar {k : ℕ} (h : k < 10) : supChar (digChar k) = superDigit k := by
  unfold supChar
  rw [digVal_digChar h]
  have : k = 0 ∨ k = 1 ∨ k = 2 ∨ k = 3 ∨ k = 4 ∨ k = 5 ∨ k = 6 ∨ k = 7 ∨ k = 8 ∨ k = 9 := by omega
  rcases this with rfl | rfl | rfl | rfl | rfl | rfl | rfl | rfl | rfl | rfl <;> rfl

theorem supers_eq (n : ℕ) : (natDigits n).map supChar = unicodeStyle.pow n := by
  unfold natDigits unicodeStyle
  simp only
  split
  · rfl
  · rw [List.map_map]
    refine List.map_congr_left (fun k hk => ?_)
    exact supChar_digChar (Nat.digits_lt_base (by norm_num) (List.mem_reverse.1 hk))

theorem superDigit_ne (k : ℕ) : superDigit k ≠ '*' := by
  unfold superDigit
  split <;> decide

section
variable {w : World K} {fr : ℚ → List Char} {uni : Bool} {d : PDim}

/-- The string as pieces, with either way of writing the fraction. -/
theorem pieces_ok (h : Typesettable (symbolOf w uni) fr d) (pre mid post : List Char)
    (h1 : '*' ∉ pre) (h2 : '*' ∉ mid) (h3 : '*' ∉ post)
    (hm : ∃ c s, mid = c :: s ∧ isDig c = false ∧ c ≠ '.')
    (hp : ∀ c, post.head? = some c → isDig c = false ∧ c ≠ '.') :
    PiecesOK (exprPieces pre mid post (aboveOf w uni d) (belowOf w uni d)) :=
  expr_ok pre mid post _ _ h1 h2 h3 hm hp (fun x hx => ⟨(above_plain h x hx).1, (above_plain h x hx).2.1⟩)
    (fun x hx => ⟨(below_plain h x hx).1, (below_plain h x hx).2.1⟩)

theorem format_pieces (h : Typesettable (symbolOf w uni) fr d) :
    formatUnits w fr uni d = renderAll (exprPieces [] ['/'] [] (aboveOf w uni d) (belowOf w uni d)) := by
  rw [format_ascii h, renderAll_eq]
  exact (restyle_expr asciiStyle [] ['/'] [] (by intro x y; simp [asciiStyle]) _ _).symm

theorem ok_plain (h : Typesettable (symbolOf w uni) fr d) :
    PiecesOK (exprPieces [] ['/'] [] (aboveOf w uni d) (belowOf w uni d)) :=
  pieces_ok h [] ['/'] [] (by simp) (by decide) (by simp) ⟨'/', [], rfl, by decide, by decide⟩ (by simp)

theorem format_unicode (h : Typesettable (symbolOf w uni) fr d) :
    formatUnitsUnicode w fr uni d = unicodeStyle.typeset (aboveOf w uni d) (belowOf w uni d) := by
  have hok := ok_plain h
  unfold formatUnitsUnicode superscript
  rw [format_pieces h, superscriptGo_pieces _ hok _ le_rfl]
  have hf : (fun n => (natDigits n).map supChar) = unicodeStyle.pow := funext supers_eq
  rw [hf]
  have hst : ∀ n, '*' ∉ unicodeStyle.pow n := by
    intro n
    simp only [unicodeStyle]
    split
    · decide
    · intro hm
      obtain ⟨k, -, hk⟩ := List.mem_map.1 hm
      exact superDigit_ne k hk
  rw [replaceDstar_restyle _ hst _ hok, replaceChar_restyle _ _ hst _ hok.loc]
  exact restyle_expr unicodeStyle [] ['/'] [] (by intro x y; simp [unicodeStyle]) _ _

theorem format_html (h : Typesettable (symbolOf w uni) fr d) :
    formatUnitsHtml w fr uni d = htmlStyle.typeset (aboveOf w uni d) (belowOf w uni d) := by
  have hok := ok_plain h
  unfold formatUnitsHtml
  simp only
  rw [format_pieces h, expSubGo_pieces _ _ _ hok _ le_rfl, replaceChar_restyle _ _ _ _ hok.loc]
  · exact restyle_expr htmlStyle [] ['/'] [] (by intro x y; simp [htmlStyle]) _ _
  · intro n
    simp only [List.mem_append, not_or]
    exact ⟨⟨by decide, natDigits_notMem (by decide) n⟩, by decide⟩

/-- The ASCII style with `\frac`. -/
def fracStyle : Style := { asciiStyle with fraction := latexStyle.fraction }

theorem product_frac (l : List (List Char × ℕ)) : fracStyle.product l = asciiStyle.product l := by
  rw [← restyle_product, ← restyle_product]; rfl

/-- The fraction of `format_units_latex`. -/
def fracForm (s : List Char) : List Char :=
  match splitLastSlash s with
  | some (a, b) => "\\frac{".toList ++ a ++ "}{".toList ++ b ++ "}".toList
  | none => s

theorem latex_eq (w : World K) (fr : ℚ → List Char) (uni : Bool) (d : PDim)
    (hh : ((formatUnits w fr uni d).head? == some '(' && (formatUnits w fr uni d).getLast? == some ')')
      = false) :
    formatUnitsLatex w fr uni d = "$\\mathrm{".toList ++ replaceChar '*' "{\\cdot}".toList
      (expSubGo "^{".toList "}".toList (fracForm (formatUnits w fr uni d)).length
        (fracForm (formatUnits w fr uni d))) ++ "}$".toList := by
  unfold formatUnitsLatex
  simp only [hh, Bool.false_eq_true, if_false]
  rfl

theorem format_latex (h : Typesettable (symbolOf w uni) fr d) :
    formatUnitsLatex w fr uni d =
      "$\\mathrm{".toList ++ latexStyle.typeset (aboveOf w uni d) (belowOf w uni d) ++ "}$".toList := by
  have ha := above_plain h
  have hb := below_plain h
  have hpre : '*' ∉ "\\frac{".toList := by decide
  have hok := pieces_ok h "\\frac{".toList "}{".toList "}".toList (by decide) (by decide) (by decide)
    ⟨'}', ['{'], by decide, by decide, by decide⟩ (by intro c hc; cases hc; decide)
  -- not taken for a compound unit
  have hhead : ((formatUnits w fr uni d).head? == some '(' && (formatUnits w fr uni d).getLast? == some ')')
      = false := by
    have : (formatUnits w fr uni d).head? ≠ some '(' := by
      rw [format_ascii h]
      have hprod : ∀ l : List (List Char × ℕ), l ≠ [] → (∀ x ∈ l, PlainSymbol x.1) → ∀ t,
          (asciiStyle.product l ++ t).head? ≠ some '(' := by
        intro l hl hp t
        cases l with
        | nil => exact absurd rfl hl
        | cons x l =>
          obtain ⟨h1, -, -, h4⟩ := hp x (by simp)
          obtain ⟨c, s, hs⟩ := List.exists_cons_of_ne_nil h1
          rw [hs] at h4
          cases l <;> simpa [Style.product, Style.item, hs] using h4
      unfold Style.typeset
      split
      · split
        · decide
        · rename_i hne
          have := hprod _ hne ha []
          rwa [List.append_nil] at this
      · simp only [asciiStyle]
        split
        · simp
        · rename_i hne
          exact hprod _ hne ha _
    rw [Bool.and_eq_false_iff]; left
    simpa using this
  -- the fraction
  have hfrac : fracForm (formatUnits w fr uni d) =
      renderAll (exprPieces "\\frac{".toList "}{".toList "}".toList (aboveOf w uni d) (belowOf w uni d)) := by
    have hr : renderAll (exprPieces "\\frac{".toList "}{".toList "}".toList (aboveOf w uni d)
        (belowOf w uni d)) = fracStyle.typeset (aboveOf w uni d) (belowOf w uni d) := by
      rw [renderAll_eq]
      exact restyle_expr fracStyle _ _ _ (by intro x y; simp [fracStyle, latexStyle]) _ _
    rw [hr, format_ascii h]
    unfold Style.typeset fracForm
    simp only [product_frac]
    by_cases hb0 : belowOf w uni d = []
    · rw [if_pos hb0, if_pos hb0]
      have : '/' ∉ (if aboveOf w uni d = [] then "dimensionless".toList
          else asciiStyle.product (aboveOf w uni d)) := by
        split
        · decide
        · exact slash_product _ (fun x hx => (ha x hx).2.2.1)
      rw [splitLastSlash, splitLastSlash_go_none _ this]
    · rw [if_neg hb0, if_neg hb0]
      have hsplit : ∀ x y : List Char, x ≠ [] → y ≠ [] → '/' ∉ y →
          splitLastSlash (x ++ '/' :: y) = some (x, y) := by
        intro x y hx hy hs
        rw [splitLastSlash]
        refine splitLastSlash_go_some x y hs hx hy _ ?_ le_rfl
        simp
      simp only [asciiStyle] at hsplit ⊢
      rw [hsplit]
      · rfl
      · split
        · simp
        · rename_i hne
          exact product_ne_nil hne (fun x hx => (ha x hx).1)
      · split
        · simp
        · exact product_ne_nil hb0 (fun x hx => (hb x hx).1)
      · have hs := slash_product _ (fun x hx => (hb x hx).2.2.1)
        simp only [asciiStyle] at hs
        split
        · simp only [List.cons_append, List.mem_cons, List.mem_append, List.not_mem_nil, or_false, not_or]
          exact ⟨by decide, hs, by decide⟩
        · exact hs
  rw [latex_eq w fr uni d hhead, hfrac, expSubGo_pieces _ _ _ hok _ le_rfl, replaceChar_restyle _ _ _ _ hok.loc]
  · congr 2
    exact restyle_expr latexStyle _ _ _ (by intro x y; simp [latexStyle]) _ _
  · intro n
    simp only [List.mem_append, not_or]
    exact ⟨⟨by decide, natDigits_notMem (by decide) n⟩, by decide⟩

/-- C57: when the symbols are plain and the exponents integers that print faithfully, the plain string,
the Unicode, HTML and LaTeX forms are four typesettings of one and the same expression: the units with
positive exponents over those with negative ones, in the display order, each with its exponent.
Missing: exponents with a fraction (`C57_false_*`), integers ending in 0 (`C26_false_exponent_ten`),
compound units. -/
theorem C57_forms (h : Typesettable (symbolOf w uni) fr d) :
    ∃ items : List (UKey × PyNum), items.Perm d ∧
      items.Pairwise (fun a b => orderLE (w.order a.1) (w.order b.1) = true) ∧
      let A := above (symbolOf w uni) items
      let B := below (symbolOf w uni) items
      formatUnits w fr uni d = asciiStyle.typeset A B ∧
      formatUnitsUnicode w fr uni d = unicodeStyle.typeset A B ∧
      formatUnitsHtml w fr uni d = htmlStyle.typeset A B ∧
      formatUnitsLatex w fr uni d = "$\\mathrm{".toList ++ latexStyle.typeset A B ++ "}$".toList :=
  ⟨PDim.sorted w d, List.perm_insertionSort _ d, sorted_pairwise w d, format_ascii h, format_unicode h,
    format_html h, format_latex h⟩

end

/-- `km**2*m/(s**3*Hz)` in the example world. -/
theorem exTypesettable : Typesettable (symbolOf exWorld false) exFr
    [(uHz, .int (-1)), (uKm, .int 2), (uM, .int 1), (uS, .int (-3))] := by
  constructor
  · have sKm : symbolOf exWorld false uKm = "km".toList := by decide +kernel
    have sM : symbolOf exWorld false uM = "m".toList := by decide +kernel
    have sS : symbolOf exWorld false uS = "s".toList := by decide +kernel
    have sHz : symbolOf exWorld false uHz = "Hz".toList := by decide +kernel
    have id1 : ∀ s ∈ ["km", "m", "s", "Hz"], PlainSymbol s.toList := by
      intro s hs
      simp only [List.mem_cons, List.not_mem_nil, or_false] at hs
      rcases hs with rfl | rfl | rfl | rfl <;> exact ⟨by decide, by decide, by decide, by decide⟩
    intro kv hk
    simp only [List.mem_cons, List.not_mem_nil, or_false] at hk
    rcases hk with rfl | rfl | rfl | rfl
    · simp only [sHz]; exact id1 "Hz" (by simp)
    · simp only [sKm]; exact id1 "km" (by simp)
    · simp only [sM]; exact id1 "m" (by simp)
    · simp only [sS]; exact id1 "s" (by simp)
  · intro kv hk
    simp only [List.mem_cons, List.not_mem_nil, or_false] at hk
    rcases hk with rfl | rfl | rfl | rfl
    · exact ⟨.inr ⟨by simp [PyNum.val], by simp [PyNum.neg, FaithfulExp]⟩, by simp [PyNum.val]⟩
    · exact ⟨.inl ⟨by simp [PyNum.val], by simp [FaithfulExp]⟩, by simp [PyNum.val]⟩
    · exact ⟨.inl ⟨by simp [PyNum.val], by simp [FaithfulExp]⟩, by simp [PyNum.val]⟩
    · refine ⟨.inr ⟨by simp [PyNum.val], by simp [PyNum.neg, FaithfulExp]⟩, ?_⟩
      simp [PyNum.val]

/-- A concrete case meets the hypotheses; this is what the four forms are. -/
example : Typesettable (symbolOf exWorld false) exFr
      [(uHz, .int (-1)), (uKm, .int 2), (uM, .int 1), (uS, .int (-3))] ∧
    formatUnitsUnicode exWorld exFr false
      [(uHz, .int (-1)), (uKm, .int 2), (uM, .int 1), (uS, .int (-3))] = "m·km²/(s³·Hz)".toList ∧
    formatUnitsHtml exWorld exFr false
      [(uHz, .int (-1)), (uKm, .int 2), (uM, .int 1), (uS, .int (-3))] =
      "m&sdot;km<sup>2</sup>/(s<sup>3</sup>&sdot;Hz)".toList ∧
    formatUnitsLatex exWorld exFr false
      [(uHz, .int (-1)), (uKm, .int 2), (uM, .int 1), (uS, .int (-3))] =
      "$\\mathrm{\\frac{m{\\cdot}km^{2}}{(s^{3}{\\cdot}Hz)}}$".toList :=
  ⟨exTypesettable, by decide +kernel, by decide +kernel, by decide +kernel⟩

/-- C86 as stated is false: of the exponent 0.5 only the zero is raised in HTML and LaTeX. -/
theorem C86_false_half :
    formatUnits exWorld exFr false [(uM, .float (1/2))] = "m**0.5".toList ∧
    formatUnitsHtml exWorld exFr false [(uM, .float (1/2))] = "m<sup>0</sup>.5".toList ∧
    formatUnitsLatex exWorld exFr false [(uM, .float (1/2))] = "$\\mathrm{m^{0}.5}$".toList :=
  ⟨by decide +kernel, by decide +kernel, by decide +kernel⟩

/-- C86 as stated is false: the Unicode form of the exponent 12.5 raises only its first digit. -/
theorem C86_false_unicode (fr : ℚ → List Char) (hfr : fr (25/2) = "12.5".toList) :
    formatUnits exWorld fr false [(uM, .float (25/2))] = "m**12.5".toList ∧
    formatUnitsUnicode exWorld fr false [(uM, .float (25/2))] = "m¹2.5".toList := by
  have h1 : formatUnits exWorld fr false [(uM, .float (25/2))] = "m**12.5".toList := by
    have e2 : expSuffix fr (.float (25/2)) = "**12.5".toList := by
      show rstrip '.' (rstrip '0' ('*' :: '*' :: fr (25/2))) = _
      rw [hfr]; decide +kernel
    rw [formatUnits_single exWorld fr uM _ (by norm_num [PyNum.val]) (by norm_num [PyNum.val])
      (by rw [exSymbol_m]; simp), exSymbol_m, e2]; rfl
  refine ⟨h1, ?_⟩
  rw [formatUnitsUnicode, h1]
  decide +kernel

/-! ## Exponents with a fraction -/

theorem expSubGo_skip (pre post : List Char) (s t : List Char) (h : '*' ∉ s) (n : ℕ) :
    expSubGo pre post (s.length + n) (s ++ t) = s ++ expSubGo pre post n t := by
  induction s with
  | nil => simp
  | cons c s ih =>
    simp only [List.mem_cons, not_or] at h
    rw [List.length_cons, show s.length + 1 + n = (s.length + n) + 1 by omega, List.cons_append,
      expSubGo_other _ _ _ _ _ (.inl (fun e => h.1 e.symm)), ih h.2]
    rfl

theorem superscriptGo_skip (s t : List Char) (h : '*' ∉ s) (n : ℕ) :
    superscriptGo (s.length + n) (s ++ t) = s ++ superscriptGo n t := by
  induction s with
  | nil => simp
  | cons c s ih =>
    simp only [List.mem_cons, not_or] at h
    rw [List.length_cons, show s.length + 1 + n = (s.length + n) + 1 by omega, List.cons_append,
      superscriptGo_other _ _ _ (.inl (fun e => h.1 e.symm)), ih h.2]
    rfl

theorem expSubGo_fixed (pre post : List Char) (s : List Char) (h : '*' ∉ s) (n : ℕ) :
    expSubGo pre post n s = s := by
  induction n generalizing s with
  | zero => rfl
  | succ n ih =>
    cases s with
    | nil => rfl
    | cons c s =>
      simp only [List.mem_cons, not_or] at h
      rw [expSubGo_other _ _ _ _ _ (.inl (fun e => h.1 e.symm)), ih s h.2]

theorem superscriptGo_fixed (s : List Char) (h : '*' ∉ s) (n : ℕ) : superscriptGo n s = s := by
  induction n generalizing s with
  | zero => rfl
  | succ n ih =>
    cases s with
    | nil => rfl
    | cons c s =>
      simp only [List.mem_cons, not_or] at h
      rw [superscriptGo_other _ _ _ (.inl (fun e => h.1 e.symm)), ih s h.2]

theorem replaceChar_fixed (r : List Char) (s : List Char) (h : '*' ∉ s) : replaceChar '*' r s = s := by
  induction s with
  | nil => rfl
  | cons c s ih =>
    simp only [List.mem_cons, not_or] at h
    have := ih h.2
    unfold replaceChar at this ⊢
    rw [List.flatMap_cons, this, if_neg (fun e => h.1 e.symm)]
    rfl

theorem replaceDstar_fixed (s : List Char) (h : '*' ∉ s) : replaceDstar s = s := by
  have := replaceDstar_plain s h []
  simpa [replaceDstar] using this

section
variable {w : World K} {fr : ℚ → List Char}

/-- C86, one unit with the exponent `whole.frac`: what is printed, for every unit and every such exponent.
The plain form has the whole exponent; HTML and LaTeX raise the part before the point and leave the
rest on the line; Unicode leaves an exponent with one digit before the point whole after `^`, and of a
longer one raises all but the last of the digits before the point. -/
theorem C86_single_partial (u : UKey) (q : ℚ) (whole frac : List Char) (hq : 0 < q) (hq1 : q ≠ 1)
    (hs : PlainSymbol (w.unitSymbol false u)) (hfr : fr q = whole ++ '.' :: frac)
    (hw : whole ≠ []) (hwd : ∀ c ∈ whole, isDig c = true) (hf : ∀ c ∈ frac, isDig c = true)
    (hl : ∃ c, frac.getLast? = some c ∧ c ≠ '0') :
    let s := w.unitSymbol false u
    formatUnits w fr false [(u, .float q)] = s ++ "**".toList ++ whole ++ '.' :: frac ∧
    formatUnitsHtml w fr false [(u, .float q)] =
      s ++ "<sup>".toList ++ whole ++ "</sup>".toList ++ '.' :: frac ∧
    formatUnitsLatex w fr false [(u, .float q)] =
      "$\\mathrm{".toList ++ s ++ "^{".toList ++ whole ++ "}".toList ++ '.' :: frac ++ "}$".toList ∧
    formatUnitsUnicode w fr false [(u, .float q)] =
      if whole.length = 1 then s ++ '^' :: whole ++ '.' :: frac
      else s ++ whole.dropLast.map supChar ++ [whole.getLast hw] ++ '.' :: frac := by
  intro s
  obtain ⟨hs0, hs1, hs2, hs3⟩ := hs
  have nodig : ∀ {l : List Char} {c : Char}, (∀ c ∈ l, isDig c = true) → isDig c = false → c ∉ l := by
    intro l c hl hc hm
    rw [hl c hm] at hc; cases hc
  have star : isDig '*' = false := by decide
  have slash : isDig '/' = false := by decide
  have wstar : '*' ∉ whole := nodig hwd star
  have fstar : '*' ∉ '.' :: frac := by
    simp only [List.mem_cons, not_or]; exact ⟨by decide, nodig hf star⟩
  -- the plain form
  have rs : ∀ (a : Char) (l : List Char), (∃ c, l.getLast? = some c ∧ c ≠ a) → rstrip a l = l := by
    rintro a l ⟨c, h1, h2⟩
    obtain ⟨l', rfl⟩ := List.getLast?_eq_some_iff.1 h1
    unfold rstrip
    simp [List.reverse_append, h2]
  obtain ⟨c0, hc1, hc2⟩ := hl
  have hc3 : isDig c0 = true := hf c0 (List.mem_of_getLast? hc1)
  have hlast : ("**".toList ++ whole ++ '.' :: frac).getLast? = some c0 := by
    rw [List.getLast?_append, List.getLast?_cons, hc1]; rfl
  have hsuf : expSuffix fr (.float q) = "**".toList ++ whole ++ '.' :: frac := by
    have e : ('*' :: '*' :: PyNum.str fr (.float q)) = "**".toList ++ whole ++ '.' :: frac := by
      change '*' :: '*' :: fr q = _
      rw [hfr]; simp
    unfold expSuffix
    rw [e, rs '0' _ ⟨c0, hlast, hc2⟩, rs '.' _ ⟨c0, hlast, fun h => by rw [h] at hc3; exact absurd hc3 (by decide)⟩]
  have hplain : formatUnits w fr false [(u, .float q)] = s ++ ('*' :: '*' :: (whole ++ '.' :: frac)) := by
    rw [formatUnits_single w fr u (.float q) hq hq1 hs0, hsuf]
    simp [s]
  have hlen : (s ++ ('*' :: '*' :: (whole ++ '.' :: frac))).length =
      s.length + ((whole ++ '.' :: frac).length + 1 + 1) := by simp
  have htake : (whole ++ '.' :: frac).takeWhile isDig = whole :=
    takeWhile_digits whole _ hwd (fun c hc => by
      simp only [List.head?_cons, Option.some.injEq] at hc
      rw [← hc]; decide)
  have hwl : 0 < whole.length := List.length_pos_iff.2 hw
  have hsub : ∀ pre post : List Char, expSubGo pre post (s ++ ('*' :: '*' :: (whole ++ '.' :: frac))).length
      (s ++ ('*' :: '*' :: (whole ++ '.' :: frac))) = s ++ (pre ++ whole ++ post ++ '.' :: frac) := by
    intro pre post
    rw [hlen, expSubGo_skip _ _ _ _ hs1]
    congr 1
    rw [expSubGo]
    simp only [htake]
    rw [if_neg hwl.ne', List.drop_left' rfl, expSubGo_fixed _ _ _ fstar]
  refine ⟨by rw [hplain]; simp, ?_, ?_, ?_⟩
  · unfold formatUnitsHtml
    simp only
    rw [hplain, hsub, replaceChar_fixed]
    · simp
    · simp only [List.mem_append, not_or]
      exact ⟨hs1, ⟨⟨by decide, wstar⟩, by decide⟩, fstar⟩
  · unfold formatUnitsLatex
    simp only
    rw [hplain]
    have hcomp : ((s ++ ('*' :: '*' :: (whole ++ '.' :: frac))).head? == some '(') = false := by
      rw [List.head?_append]
      obtain ⟨a, l, hal⟩ := List.exists_cons_of_ne_nil hs0
      change s = a :: l at hal
      rw [hal]
      simp only [List.head?_cons, Option.some_or]
      refine beq_eq_false_iff_ne.2 fun h => hs3 ?_
      change s.head? = _
      rw [hal]; exact h
    have hsl : '/' ∉ s ++ ('*' :: '*' :: (whole ++ '.' :: frac)) := by
      simp only [List.mem_append, List.mem_cons, not_or]
      exact ⟨hs2, by decide, by decide, nodig hwd slash, by decide, nodig hf slash⟩
    have hnone : splitLastSlash (s ++ ('*' :: '*' :: (whole ++ '.' :: frac))) = none :=
      splitLastSlash_go_none _ hsl _
    rw [hcomp]
    simp only [Bool.false_and, Bool.false_eq_true, if_false, hnone]
    rw [hsub, replaceChar_fixed]
    · simp
    · simp only [List.mem_append, not_or]
      exact ⟨hs1, ⟨⟨by decide, wstar⟩, by decide⟩, fstar⟩
  · unfold formatUnitsUnicode superscript
    rw [hplain, hlen, superscriptGo_skip _ _ hs1]
    have hdot : ((whole ++ '.' :: frac).drop whole.length).head? = some '.' := by
      rw [List.drop_left' rfl]; rfl
    by_cases h1 : whole.length = 1
    · rw [if_pos h1]
      have e1 : superscriptGo ((whole ++ '.' :: frac).length + 1 + 1) ('*' :: '*' :: (whole ++ '.' :: frac)) =
          '*' :: '*' :: (whole ++ '.' :: frac) := by
        rw [superscriptGo]
        simp only [htake, hdot, if_true]
        rw [if_pos (by omega), superscriptGo_other _ _ _ (.inr ?_), superscriptGo_fixed]
        · rw [List.mem_append, not_or]; exact ⟨wstar, fstar⟩
        · rw [List.head?_append]
          obtain ⟨a, l, hal⟩ := List.exists_cons_of_ne_nil hw
          rw [hal]
          simp only [List.head?_cons, Option.some_or]
          intro h
          apply wstar
          rw [hal]; simp [Option.some.inj h]
      rw [e1, replaceDstar_plain _ hs1]
      rw [show replaceDstar ('*' :: '*' :: (whole ++ '.' :: frac)) =
        '^' :: replaceDstar (whole ++ '.' :: frac) from by rw [replaceDstar]]
      rw [replaceDstar_fixed, replaceChar_fixed]
      · rw [List.append_assoc, List.cons_append]
      · simp only [List.mem_append, List.mem_cons, not_or]
        exact ⟨hs1, by decide, wstar, by decide, nodig hf star⟩
      · rw [List.mem_append, not_or]; exact ⟨wstar, fstar⟩
    · rw [if_neg h1]
      have hk : whole.length - 1 ≠ 0 := by omega
      have htk : whole.take (whole.length - 1) = whole.dropLast := List.dropLast_eq_take.symm
      have hdr : (whole ++ '.' :: frac).drop (whole.length - 1) = [whole.getLast hw] ++ '.' :: frac := by
        rw [List.drop_append_of_le_length (by omega), List.drop_length_sub_one hw]
      have rest : '*' ∉ [whole.getLast hw] ++ '.' :: frac := by
        rw [List.mem_append, not_or, List.mem_singleton]
        exact ⟨fun h => wstar (h ▸ List.getLast_mem hw), fstar⟩
      have sup : '*' ∉ whole.dropLast.map supChar := by
        intro h
        obtain ⟨c, -, hc⟩ := List.mem_map.1 h
        unfold supChar at hc
        split at hc <;> exact absurd hc (by decide)
      have e1 : superscriptGo ((whole ++ '.' :: frac).length + 1 + 1) ('*' :: '*' :: (whole ++ '.' :: frac)) =
          whole.dropLast.map supChar ++ ([whole.getLast hw] ++ '.' :: frac) := by
        rw [superscriptGo]
        simp only [htake, hdot, if_true, if_neg hk, htk, hdr]
        rw [superscriptGo_fixed _ rest]
      have all : '*' ∉ s ++ (whole.dropLast.map supChar ++ ([whole.getLast hw] ++ '.' :: frac)) := by
        rw [List.mem_append, List.mem_append, not_or, not_or]; exact ⟨hs1, sup, rest⟩
      rw [e1, replaceDstar_fixed _ all, replaceChar_fixed _ _ all]
      simp

end

/-- The hypotheses are met by `m**12.5`. -/
example : PlainSymbol (exWorld.unitSymbol false uM) ∧ (0 : ℚ) < 25/2 ∧ (25/2 : ℚ) ≠ 1 ∧
    (∀ c ∈ "12".toList, isDig c = true) ∧ ∃ c, "5".toList.getLast? = some c ∧ c ≠ '0' :=
  ⟨by rw [exSymbol_m]; exact ⟨by decide, by decide, by decide, by decide⟩, by norm_num, by norm_num,
    by decide, '5', by decide, by decide⟩

end PQ
