import Verif.Lemmas.Printing
import Verif.Lemmas.Example

/-!
# C24-C27, C50: unit strings
-/

namespace PQ

open Dict

variable {K : Type _}

/-! ## C24 -/

/-- C24: a label whose syntax tree contains anything but literals, names and arithmetic operators
(attribute access, calls, subscripts, comprehensions, lambdas, comparisons, walrus, ...) raises
`LookupError` without being evaluated - for every parser, every meaning of the operators and every
state of the registry. -/
theorem C24_rejects_other_syntax (parse : List Char → Py PyAST) (O : PyOps K) (w : World K)
    (label : List Char) (t : PyAST) (ht : parse (preprocess label) = .ok t) (h : ¬ Arithmetic t) :
    lookup parse O w label = .error .lookupError := by
  simp only [lookup, registryGet, ht]
  rw [if_neg (fun hv => h (valid_iff.1 hv))]

/-- C24: whatever a unit string evaluates to was obtained from literals and registered units by
arithmetic operators alone. -/
theorem C24_only_arithmetic (parse : List Char → Py PyAST) (O : PyOps K) (w : World K)
    (label : List Char) (v : RVal K) (h : lookup parse O w label = .ok v) :
    (∃ t, parse (preprocess label) = .ok t ∧ Arithmetic t) ∧ Built O w v := by
  simp only [lookup, registryGet] at h
  rcases ht : parse (preprocess label) with e | t
  · rw [ht] at h; simp at h
  · rw [ht] at h
    simp only at h
    by_cases hv : t.valid = true
    · rw [if_pos hv] at h
      exact ⟨⟨t, rfl, valid_iff.1 hv⟩, evalTree_built O w (valid_iff.1 hv) v h⟩
    · rw [if_neg hv] at h; simp at h

/-- C24: the value depends only on the registered units the string mentions. -/
theorem C24_depends_on_mentioned (parse : List Char → Py PyAST) (O : PyOps K) (w w' : World K)
    (label : List Char)
    (hag : ∀ t id, parse (preprocess label) = .ok t → Mentions id t →
      get? w.registry (String.ofList id) = get? w'.registry (String.ofList id)) :
    lookup parse O w label = lookup parse O w' label := by
  simp only [lookup, registryGet]
  rcases ht : parse (preprocess label) with e | t
  · rfl
  · simp only
    by_cases hv : t.valid = true
    · rw [if_pos hv, if_pos hv]
      exact evalTree_frame O w w' (valid_iff.1 hv) (fun id hm => hag t id ht hm)
    · rw [if_neg hv, if_neg hv]

/-- C24: a string that mentions a name which is not registered raises. -/
theorem C24_unknown_name (parse : List Char → Py PyAST) (O : PyOps K) (w : World K)
    (label : List Char) (t : PyAST) (ht : parse (preprocess label) = .ok t) (id : List Char)
    (hm : Mentions id t) (h : get? w.registry (String.ofList id) = none)
    (hc : id ≠ "UnitQuantity".toList ∧ id ≠ "CompoundUnit".toList) :
    ¬ Returns (lookup parse O w label) := by
  have hctx : w.context id = .error .lookupError := by
    unfold World.context; rw [h]; simp only; rw [if_neg (fun h => h.elim hc.1 hc.2)]
  simp only [lookup, registryGet, ht]
  by_cases hv : t.valid = true
  · rw [if_pos hv]
    obtain ⟨e, he⟩ := evalTree_unknown O w hm hctx
    rw [he]; simp [Returns]
  · rw [if_neg hv]; simp [Returns]

/-- `().__class__`: an attribute access is rejected; `m**2/s` is accepted. -/
example : ¬ Arithmetic (.node .attribute [.node .tuple []]) ∧
    Arithmetic (.binOp .div (.binOp .pow (.name ['m']) (.constant (.num 2))) (.name ['s'])) :=
  ⟨(fun h => by cases h), .binOp _ (.binOp _ (.name _) (.constant _)) (.name _)⟩

/-- An operand hidden deep inside an arithmetic expression is found. -/
example : ¬ Arithmetic (.binOp .mul (.name ['m']) (.unaryOp .uSub (.node .call [.name ['f']]))) :=
  fun h => by cases h with | binOp _ _ h => cases h with | unaryOp _ h => nomatch h

/-! ## C25 -/

/-- C25: `^` and `**` are interchangeable, and so are `·` and `*`, anywhere in a label. -/
theorem C25_caret_and_middle_dot (parse : List Char → Py PyAST) (O : PyOps K) (w : World K)
    (s : List Char) :
    lookup parse O w (replaceChar '^' "**".toList s) = lookup parse O w s ∧
    lookup parse O w (replaceChar '·' "*".toList s) = lookup parse O w s := by
  have e1 : "**".toList = ['*', '*'] := rfl
  have e2 : "*".toList = ['*'] := rfl
  refine ⟨?_, ?_⟩
  · simp only [lookup, preprocess, e1, replaceChar_idem (show '^' ∉ ['*', '*'] by decide)]
  · simp only [lookup, preprocess, e2]
    rw [replaceChar_comm (c := '^') (d := '·') (r := ['*', '*']) (t := ['*']) (by decide) (by decide)
      (by decide), replaceChar_idem (show '·' ∉ ['*'] by decide)]

/-- C25: the empty label means `dimensionless`; `in` in any capitalisation is the inch; a percent
sign means `percent`. -/
theorem C25_special_labels (parse : List Char → Py PyAST) (O : PyOps K) (w : World K) :
    lookup parse O w [] = lookup parse O w "dimensionless".toList ∧
    lookup parse O w "%".toList = lookup parse O w "percent".toList ∧
    (∀ s ∈ ["in", "In", "iN", "IN"], lookup parse O w s.toList = lookup parse O w "inch".toList) := by
  refine ⟨?_, ?_, ?_⟩
  · have : preprocess [] = preprocess "dimensionless".toList := by decide
    simp only [lookup, this]
  · have : preprocess "%".toList = preprocess "percent".toList := by decide
    simp only [lookup, this]
  · intro s hs
    have : preprocess s.toList = preprocess "inch".toList := by
      simp only [List.mem_cons, List.not_mem_nil, or_false] at hs
      rcases hs with rfl | rfl | rfl | rfl <;> decide
    simp only [lookup, this]

/-- C68, partial. Full claim: a product of names written with points means the same as written with
stars. Proved: whenever every name but the first and last has at least two characters (and names
begin and end with letters). Missing: one-letter names in the middle, see `C68_false_dots`. -/
theorem C68_dots_partial (parse : List Char → Py PyAST) (O : PyOps K) (w : World K)
    (s : List Char) (ss : List (List Char)) (h : ∀ x ∈ s :: ss, Dottable x)
    (hlong : ∀ x ∈ ss.dropLast, Long x) (hc : ∀ x ∈ s :: ss, '^' ∉ x ∧ '·' ∉ x) :
    lookup parse O w (joinWith '.' (s :: ss)) = lookup parse O w (joinWith '*' (s :: ss)) := by
  have notIn : ∀ (c sep : Char) (l : List (List Char)), c ≠ sep → (∀ x ∈ l, c ∉ x) →
      c ∉ joinWith sep l := by
    intro c sep l hne
    induction l with
    | nil => simp [joinWith]
    | cons a l ih =>
      intro hl
      cases l with
      | nil => simpa [joinWith] using hl
      | cons b l =>
        have := ih (fun x hx => hl x (by simp [hx]))
        simp only [joinWith, List.mem_append, List.mem_cons, not_or]
        exact ⟨hl a (by simp), hne, this⟩
  have a1 := notIn '^' '.' (s :: ss) (by decide) (fun x hx => (hc x hx).1)
  have a2 := notIn '·' '.' (s :: ss) (by decide) (fun x hx => (hc x hx).2)
  have b1 := notIn '^' '*' (s :: ss) (by decide) (fun x hx => (hc x hx).1)
  have b2 := notIn '·' '*' (s :: ss) (by decide) (fun x hx => (hc x hx).2)
  have b3 := notIn '.' '*' (s :: ss) (by decide) (fun x hx => (h x hx).1)
  have key : dotSub (joinWith '.' (s :: ss)) = joinWith '*' (s :: ss) :=
    dotSub_joinDot ss s ⟨(h s (by simp)).1, (h s (by simp)).2.2⟩ (fun x hx => h x (by simp [hx])) hlong
  have : preprocess (joinWith '.' (s :: ss)) = preprocess (joinWith '*' (s :: ss)) := by
    simp only [preprocess]
    rw [replaceChar_of_notMem _ a1, replaceChar_of_notMem _ a2, replaceChar_of_notMem _ b1,
      replaceChar_of_notMem _ b2, key, dotSub_of_noDot _ b3]
  simp only [lookup, this]

example : ∀ x ∈ ["kg".toList, "km".toList, "s".toList], Dottable x := by
  intro x hx
  simp only [List.mem_cons, List.not_mem_nil, or_false] at hx
  rcases hx with rfl | rfl | rfl
  · exact ⟨by decide, ⟨'k', by decide, by decide⟩, ⟨'g', by decide, by decide⟩⟩
  · exact ⟨by decide, ⟨'k', by decide, by decide⟩, ⟨'m', by decide, by decide⟩⟩
  · exact ⟨by decide, ⟨'s', by decide, by decide⟩, ⟨'s', by decide, by decide⟩⟩

/-- C68 is false of the code for one-letter names: `m.s.A` becomes `m*s.A` (regex matches do not
overlap), whose attribute access is rejected although `m*s*A` is a fine unit. -/
theorem C68_false_dots (P : List Char → Py PyAST) (F : PyOps ℝ) (w : World ℝ)
    (hP : P "m*s.A".toList = .ok (.binOp .mul (.name ['m']) (.node .attribute [.name ['s']])))
    (um us uA : UKey) (h1 : get? w.registry "m" = some um) (h2 : get? w.registry "s" = some us)
    (h3 : get? w.registry "A" = some uA) :
    w.lookup P F "m.s.A".toList = .error .lookupError ∧ Returns (w.lookup P F "m*s*A".toList) := by
  constructor
  · have hp : preprocess "m.s.A".toList = "m*s.A".toList := by decide
    have hl : lex "m*s.A".toList = none := by decide +kernel
    refine C24_rejects_other_syntax (parseWith P) (stdOps F) w "m.s.A".toList _
      (by rw [hp, parseWith, hl]; exact hP) ?_
    intro h
    cases h with
    | binOp _ _ h => nomatch h
  · have hp : preprocess "m*s*A".toList = "m*s*A".toList := by decide
    have hl : lex "m*s*A".toList = some [.name ['m'], .star, .name ['s'], .star, .name ['A']] := by
      decide +kernel
    have ht : parseWith P "m*s*A".toList =
        .ok (.binOp .mul (.binOp .mul (.name ['m']) (.name ['s'])) (.name ['A'])) := by
      rw [parseWith, hl]; rfl
    have c1 : w.context ['m'] = .ok (.unit um) := by
      simp only [World.context, show String.ofList ['m'] = "m" by decide, h1]
    have c2 : w.context ['s'] = .ok (.unit us) := by
      simp only [World.context, show String.ofList ['s'] = "s" by decide, h2]
    have c3 : w.context ['A'] = .ok (.unit uA) := by
      simp only [World.context, show String.ofList ['A'] = "A" by decide, h3]
    simp only [World.lookup, lookup, registryGet, hp, ht]
    rw [if_pos (valid_iff.2 (.binOp _ (.binOp _ (.name _) (.name _)) (.name _)))]
    simp only [evalTree, c1, c2, c3, stdOps, stdBin, RVal.asQty, Returns]
    exact ⟨_, rfl⟩

/-! ## C26 -/

section
variable [Field K] [LinearOrder K] [IsStrictOrderedRing K] [RPow K] [LawfulRPow K]

/-- C26, partial. Full claim: looking up the string of any dimensionality over registered units gives
a unit of that dimensionality. Proved for every dimensionality - any number of units, any mixture of
signs - whose symbols are identifiers that look the unit up and whose exponents are integers not
divisible by 10 or floats with an ordinary decimal `repr` (`Printable`). Missing: the exponents and
units of the `C26_false` theorems. `P` and `F` stand for the parts of Python's grammar and operators
that are not modelled; the result does not depend on them. -/
theorem C26_format_lookup_partial (P : List Char → Py PyAST) (F : PyOps K) (w : World K)
    (fr : ℚ → List Char) (d : PDim) (hn : Dict.Nodup d) (hp : Printable w fr d) :
    ∃ v q, w.lookup P F (formatUnits w fr false d) = .ok v ∧ v.asQty = some q ∧ q.mag = 1 ∧
      SameContent q.dim d.toDim :=
  printed_roundtrip P F hn hp

end

/-- `repr` of a float that prints halves (enough for the examples). -/
def exFr (q : ℚ) : List Char :=
  if q = 1 / 2 then "0.5".toList else if q = 2 then "2.0".toList else "nan".toList

/-- `km**2*m**0.5/(s**3*Hz)` is printable in the example world. -/
theorem exPrintable : Printable exWorld exFr
    [(uHz, .int (-1)), (uKm, .int 2), (uM, .float (1/2)), (uS, .int (-3))] := by
  refine ⟨?_, ?_, ?_, ⟨⟨.dimensionless, "dimensionless"⟩, by decide +kernel, rfl⟩⟩
  · have sKm : exWorld.unitSymbol false uKm = "km".toList := by decide +kernel
    have sM : exWorld.unitSymbol false uM = "m".toList := by decide +kernel
    have sS : exWorld.unitSymbol false uS = "s".toList := by decide +kernel
    have sHz : exWorld.unitSymbol false uHz = "Hz".toList := by decide +kernel
    have id1 : ∀ s ∈ ["km", "m", "s", "Hz"], IsIdent s.toList ∧ ¬ LooksLikeIn s.toList := by
      intro s hs
      simp only [List.mem_cons, List.not_mem_nil, or_false] at hs
      rcases hs with rfl | rfl | rfl | rfl <;>
        exact ⟨⟨by decide, by simp [isIdStart, isAsciiLetter], by decide, by decide⟩,
          by unfold LooksLikeIn; decide +kernel⟩
    intro kv hk
    simp only [List.mem_cons, List.not_mem_nil, or_false] at hk
    rcases hk with rfl | rfl | rfl | rfl
    · simp only [sHz]; exact ⟨(id1 "Hz" (by simp)).1, (id1 "Hz" (by simp)).2, by decide +kernel⟩
    · simp only [sKm]; exact ⟨(id1 "km" (by simp)).1, (id1 "km" (by simp)).2, by decide +kernel⟩
    · simp only [sM]; exact ⟨(id1 "m" (by simp)).1, (id1 "m" (by simp)).2, by decide +kernel⟩
    · simp only [sS]; exact ⟨(id1 "s" (by simp)).1, (id1 "s" (by simp)).2, by decide +kernel⟩
  · intro kv hk
    simp only [List.mem_cons, List.not_mem_nil, or_false] at hk
    rcases hk with rfl | rfl | rfl | rfl <;> decide
  · intro kv hk
    simp only [List.mem_cons, List.not_mem_nil, or_false] at hk
    rcases hk with rfl | rfl | rfl | rfl
    · right; exact ⟨by simp [PyNum.val], by simp [PyNum.neg, FaithfulExp]⟩
    · left; exact ⟨by simp [PyNum.val], by simp [FaithfulExp]⟩
    · left
      refine ⟨by simp [PyNum.val], by norm_num, 0, ['5'], ?_, Or.inr ⟨by simp, by decide, by decide, ?_⟩⟩
      · decide +kernel
      · have : digitsVal 0 (natDigits 0 ++ ['5']) = 5 := by decide +kernel
        rw [this]; norm_num
    · right; exact ⟨by simp [PyNum.val], by simp [PyNum.neg, FaithfulExp]⟩

example : formatUnits exWorld exFr false
    [(uHz, .int (-1)), (uKm, .int 2), (uM, .float (1/2)), (uS, .int (-3))] =
      "m**0.5*km**2/(s**3*Hz)".toList := by decide +kernel

theorem formatUnits_single (w : World K) (fr : ℚ → List Char) (u : UKey) (d : PyNum) (h0 : 0 < d.val)
    (h1 : d.val ≠ 1) (hs : w.unitSymbol false u ≠ []) :
    formatUnits w fr false [(u, d)] = w.unitSymbol false u ++ expSuffix fr d := by
  simp [formatUnits, PDim.sorted, fmtNum, fmtDen, fmtItem, h0, h1, joinStar, hs, not_lt.2 h0.le]

theorem exSymbol_m : exWorld.unitSymbol false uM = ['m'] := by decide +kernel

theorem exFormat_int (fr : ℚ → List Char) (n : ℕ) (h : 1 < n) :
    formatUnits exWorld fr false [(uM, .int n)] =
      'm' :: rstrip '.' (rstrip '0' ('*' :: '*' :: natDigits n)) := by
  have h0 : (0:ℚ) < PyNum.val (.int n) := by simp [PyNum.val]; omega
  have h1 : PyNum.val (.int n) ≠ 1 := by simp [PyNum.val]; omega
  rw [formatUnits_single exWorld fr uM (.int n) h0 h1 (by rw [exSymbol_m]; simp), exSymbol_m]
  rfl

/-- C26 is false of the code for exponents that are multiples of 10: `m**10` prints as `m**1`. -/
theorem C26_false_exponent_ten (P : List Char → Py PyAST) (F : PyOps ℝ) (fr : ℚ → List Char) :
    formatUnits exWorld fr false [(uM, .int 10)] = "m**1".toList ∧
    ∃ v q, exWorld.lookup P F (formatUnits exWorld fr false [(uM, .int 10)]) = .ok v ∧
      v.asQty = some q ∧ ¬ SameContent q.dim [(uM, 10)] := by
  have hs : formatUnits exWorld fr false [(uM, .int 10)] = "m**1".toList := by
    have := exFormat_int fr 10 (by norm_num)
    rw [show (.int 10 : PyNum) = .int ((10 : ℕ) : ℤ) from rfl, this]; decide +kernel
  refine ⟨hs, ?_⟩
  rw [hs]
  have hp : preprocess "m**1".toList = "m**1".toList := by decide
  have hl : lex "m**1".toList = some [.name ['m'], .dstar, .num 1] := by decide +kernel
  have ht : parseWith P "m**1".toList = .ok (.binOp .pow (.name ['m']) (.constant (.num 1))) := by
    rw [parseWith, hl]; rfl
  have c1 : exWorld.context ['m'] = .ok (.unit uM) := by
    have : get? exWorld.registry "m" = some uM := by decide +kernel
    simp only [World.context, show String.ofList ['m'] = "m" by decide, this]
  refine ⟨.qty ⟨rpow 1 1, Dim.pow (unitDim uM) 1⟩, _, ?_, rfl, ?_⟩
  · simp only [World.lookup, lookup, registryGet, hp, ht]
    rw [if_pos (valid_iff.2 (.binOp _ (.name _) (.constant _)))]
    simp only [evalTree, c1, stdOps, stdBin, RVal.asQty, RVal.asNum]
  · intro h
    have h1 := h uM
    have h2 : get? (Dim.pow (unitDim uM) 1) uM = some 1 := by decide +kernel
    rw [h2] at h1
    simp [Dict.get?_cons] at h1

/-- C26 is false of the code for the inch: its symbol `in` is a Python keyword, so `in**2` is not an
expression and the lookup raises whatever Python's parser raises. -/
theorem C26_false_inch (P : List Char → Py PyAST) (F : PyOps K) (w : World K) (e : PyErr)
    [One K] [Mul K] [Div K] [Neg K] [RPow K] [RatCast K]
    (hP : P "in**2".toList = .error e) (u : UKey) (hu : w.unitSymbol false u = "in".toList)
    (fr : ℚ → List Char) :
    formatUnits w fr false [(u, .int 2)] = "in**2".toList ∧
    w.lookup P F (formatUnits w fr false [(u, .int 2)]) = .error e := by
  have hs : formatUnits w fr false [(u, .int 2)] = "in**2".toList := by
    have e2 : expSuffix fr (.int 2) = "**2".toList := by
      show rstrip '.' (rstrip '0' ('*' :: '*' :: natDigits 2)) = _
      decide +kernel
    rw [formatUnits_single w fr u _ (by simp [PyNum.val]) (by simp [PyNum.val]) (by rw [hu]; decide),
      hu, e2]; rfl
  refine ⟨hs, ?_⟩
  rw [hs]
  have hp : preprocess "in**2".toList = "in**2".toList := by decide
  have hl : lex "in**2".toList = none := by decide +kernel
  simp only [World.lookup, lookup, registryGet, hp, parseWith, hl, hP]

/-! ## C27 -/

/-- C27: the four string forms do not depend on the order in which the units were inserted (unless
two units were created with the same number, which never happens: see `order_inj`). -/
theorem C27_insertion_order [Field K] [LinearOrder K] [RPow K] {h : Hasher} {w : World K}
    (hr : Reachable h w) (fr : ℚ → List Char) (uni : Bool) (d e : PDim) (hp : d.Perm e)
    (hn : Dict.Nodup d) (hk : ∀ kv ∈ d, kv.1 ∈ w.units.map Prod.fst) :
    formatUnits w fr uni d = formatUnits w fr uni e ∧
    formatUnitsUnicode w fr uni d = formatUnitsUnicode w fr uni e ∧
    formatUnitsLatex w fr uni d = formatUnitsLatex w fr uni e ∧
    formatUnitsHtml w fr uni d = formatUnitsHtml w fr uni e := by
  have hs : PDim.sorted w d = PDim.sorted w e :=
    sorted_eq_of_perm w hp hn (fun x hx y hy ho => order_inj hr (hk x hx) (hk y hy) ho)
  have h0 : formatUnits w fr uni d = formatUnits w fr uni e := by simp only [formatUnits, hs]
  refine ⟨h0, ?_, ?_, ?_⟩
  · unfold formatUnitsUnicode; rw [h0]
  · unfold formatUnitsLatex; rw [h0]
  · unfold formatUnitsHtml; rw [h0]

example : formatUnits exWorld exFr false [(uS, .int (-2)), (uM, .int 1)] = "m/s**2".toList ∧
    formatUnits exWorld exFr false [(uM, .int 1), (uS, .int (-2))] = "m/s**2".toList ∧
    formatUnitsUnicode exWorld exFr false [(uM, .int 1), (uKm, .int 1), (uS, .int (-12))] =
      "m·km/s¹²".toList ∧
    formatUnitsHtml exWorld exFr false [(uM, .int 2)] = "m<sup>2</sup>".toList := by
  decide +kernel

example : formatUnitsLatex exWorld exFr false [(uM, .int 1), (uS, .int (-2))] =
    "$\\mathrm{\\frac{m}{s^{2}}}$".toList := by decide +kernel

section
variable [Field K] [LinearOrder K] [IsStrictOrderedRing K] [RPow K] [LawfulRPow K]

/-- C69, partial. Full claim: different dimensionalities have different strings. Proved for
`Printable` ones. Missing: exponents divisible by 10, see `C69_false_ten_hundred`. -/
theorem C69_injective_partial (w : World K) (fr : ℚ → List Char) (d e : PDim) (hd : Dict.Nodup d)
    (he : Dict.Nodup e) (hpd : Printable w fr d) (hpe : Printable w fr e)
    (h : formatUnits w fr false d = formatUnits w fr false e) : SameContent d.toDim e.toDim := by
  let P : List Char → Py PyAST := fun _ => .error .exception
  let F : PyOps K := ⟨fun _ _ _ => .error .typeError, fun _ _ => .error .typeError⟩
  obtain ⟨v, q, h1, h2, -, h3⟩ := printed_roundtrip P F hd hpd
  obtain ⟨v', q', h1', h2', -, h3'⟩ := printed_roundtrip P F he hpe
  rw [h, h1'] at h1
  simp only [Except.ok.injEq] at h1
  subst h1
  rw [h2'] at h2
  simp only [Option.some.injEq] at h2
  subst h2
  exact fun u => (h3 u).symm.trans (h3' u)

end

/-- C69, partial. Full claim: equal dimensionalities have equal strings. Proved, whatever the
insertion order and whether exponents are held as `int` or `float`, for faithfully printed exponents.
Missing: see `C69_false_int_float`. -/
theorem C69_content_partial [Field K] [LinearOrder K] [RPow K] {h : Hasher} {w : World K}
    (hr : Reachable h w) (fr : ℚ → List Char) (uni : Bool) (d e : PDim) (hd : Dict.Nodup d)
    (he : Dict.Nodup e) (hs : SameContent d.toDim e.toDim)
    (hk : ∀ kv ∈ d, kv.1 ∈ w.units.map Prod.fst)
    (fd : ∀ kv ∈ d, PrintsExp fr kv.2) (fe : ∀ kv ∈ e, PrintsExp fr kv.2) :
    formatUnits w fr uni d = formatUnits w fr uni e ∧
    formatUnitsUnicode w fr uni d = formatUnitsUnicode w fr uni e ∧
    formatUnitsLatex w fr uni d = formatUnitsLatex w fr uni e ∧
    formatUnitsHtml w fr uni d = formatUnitsHtml w fr uni e := by
  have h0 : formatUnits w fr uni d = formatUnits w fr uni e :=
    formatUnits_content w uni hd he hs
      (fun x hx y hy ho => order_inj hr (hk x hx) (hk y hy) ho) fd fe
  refine ⟨h0, ?_, ?_, ?_⟩
  · unfold formatUnitsUnicode; rw [h0]
  · unfold formatUnitsLatex; rw [h0]
  · unfold formatUnitsHtml; rw [h0]

/-- `2` and `2.0` print alike. -/
example : SameContent (PDim.toDim [(uM, .int 2)]) (PDim.toDim [(uM, .float 2)]) ∧
    PrintsExp exFr (.int 2) ∧ PrintsExp exFr (.float 2) ∧
    formatUnits exWorld exFr false [(uM, .float 2)] = "m**2".toList := by
  refine ⟨fun u => by simp [PDim.toDim, PyNum.val], Or.inl ⟨by simp [PyNum.val], by simp [FaithfulExp]⟩,
    Or.inl ⟨by simp [PyNum.val], by norm_num, 2, ['0'], by decide +kernel, Or.inl ⟨rfl, by norm_num⟩⟩,
    by decide +kernel⟩

/-- C69 is false of the code: `m**10` and `m**100` have the same string, `m**1`. -/
theorem C69_false_ten_hundred (fr : ℚ → List Char) :
    formatUnits exWorld fr false [(uM, .int 10)] = formatUnits exWorld fr false [(uM, .int 100)] ∧
    ¬ SameContent (PDim.toDim [(uM, .int 10)]) (PDim.toDim [(uM, .int 100)]) := by
  constructor
  · rw [show (.int 10 : PyNum) = .int ((10 : ℕ) : ℤ) from rfl,
      show (.int 100 : PyNum) = .int ((100 : ℕ) : ℤ) from rfl, exFormat_int fr 10 (by norm_num),
      exFormat_int fr 100 (by norm_num)]
    decide +kernel
  · intro h
    have := h uM
    simp [PDim.toDim, Dict.get?_cons, PyNum.val] at this

/-- C69 is false of the code: equal dimensionalities with exponents `10` and `10.0` have different
strings, `m**1` and `m**10`. -/
theorem C69_false_int_float (fr : ℚ → List Char) (hfr : fr 10 = "10.0".toList) :
    SameContent (PDim.toDim [(uM, .int 10)]) (PDim.toDim [(uM, .float 10)]) ∧
    formatUnits exWorld fr false [(uM, .int 10)] = "m**1".toList ∧
    formatUnits exWorld fr false [(uM, .float 10)] = "m**10".toList := by
  refine ⟨?_, (C26_false_exponent_ten (fun _ => .error .exception)
    ⟨fun _ _ _ => .error .typeError, fun _ _ => .error .typeError⟩ fr).1, ?_⟩
  · intro u; simp [PDim.toDim, PyNum.val]
  · have e2 : expSuffix fr (.float 10) = "**10".toList := by
      show rstrip '.' (rstrip '0' ('*' :: '*' :: fr 10)) = _
      rw [hfr]; decide +kernel
    rw [formatUnits_single exWorld fr uM (.float 10) (by simp [PyNum.val]) (by norm_num [PyNum.val])
      (by rw [exSymbol_m]; simp), exSymbol_m, e2]; rfl

/-! ## C50 -/

/-- C50: units given as a quantity must have magnitude 1, so the dimensionality taken from it denotes
the same physical value. -/
theorem C50_quantity_argument [One K] [Mul K] [Div K] [Neg K] [RPow K] [RatCast K] [DecidableEq K]
    (P : List Char → Py PyAST) (F : PyOps K) (w : World K) (q : Quantity K) (d : Dim) :
    validateDimensionality P F w (.quantity q) = .ok d ↔
      d = q.dim ∧ (q.mag.shape = [] ∨ q.mag.shape = [1]) ∧ q.mag.toList = [1] := by
  simp only [validateDimensionality, validateUnitQuantity]
  by_cases h : (q.mag.shape = [] ∨ q.mag.shape = [1]) ∧ q.mag.toList = [1]
  · rw [if_pos h]
    simp only [Except.map, Except.ok.injEq]
    exact ⟨fun h' => ⟨h'.symm, h⟩, fun h' => h'.1.symm⟩
  · rw [if_neg h]
    simp only [Except.map]
    exact ⟨fun h' => by simp at h', fun h' => absurd h'.2 h⟩

/-- C50: units given as a `Dimensionality` are taken as they are; anything that is neither a string, a
quantity nor a `Dimensionality` is refused with `TypeError`. -/
theorem C50_dimensionality_argument [One K] [Mul K] [Div K] [Neg K] [RPow K] [RatCast K] [DecidableEq K]
    (P : List Char → Py PyAST) (F : PyOps K) (w : World K) (d : Dim) :
    validateDimensionality P F w (.dim d) = .ok d ∧
    validateDimensionality P F w (.other : UnitsArg K) = .error .typeError := ⟨rfl, rfl⟩

/-- C82, partial. Full claim: units given as a string denote the physical value of the expression.
Proved when the expression has magnitude 1. Missing: `C82_false_scale_factor`. -/
theorem C82_string_argument_partial [Field K] [LinearOrder K] [RPow K]
    (P : List Char → Py PyAST) (F : PyOps K) (w : World K) (s : List Char) (d : Dim) (v : RVal K)
    (q : SQ K) (hl : w.lookup P F s = .ok v) (hq : v.asQty = some q) (h1 : q.mag = 1)
    (hd : validateDimensionality P F w (.str s) = .ok d) (val : Valuation w) :
    val.scalar ⟨1, d⟩ = val.scalar q := by
  simp only [validateDimensionality, hl] at hd
  cases v with
  | unit u =>
    simp only [RVal.dimensionality, Except.ok.injEq] at hd
    simp only [RVal.asQty, Option.some.injEq] at hq
    subst hd; subst hq; rfl
  | qty q' =>
    simp only [RVal.dimensionality, Except.ok.injEq] at hd
    simp only [RVal.asQty, Option.some.injEq] at hq
    subst hd; subst hq
    rw [show (⟨1, q'.dim⟩ : SQ K) = ⟨q'.mag, q'.dim⟩ by rw [h1]]
  | const c => simp [RVal.asQty] at hq
  | cls l => simp [RVal.asQty] at hq
  | obj t => simp [RVal.asQty] at hq

/-- C82 is false of the code: the unit string `1000*m` is accepted and means `m` (the factor 1000 is
dropped), so `Quantity(5, '1000*m')` is five metres. -/
theorem C82_false_scale_factor (P : List Char → Py PyAST) (F : PyOps ℝ) :
    (∃ v q, exWorld.lookup P F "1000*m".toList = .ok v ∧ v.asQty = some q ∧ q.mag = 1000 ∧
      q.dim = dM) ∧
    validateDimensionality P F exWorld (.str "1000*m".toList) = .ok dM := by
  have hp : preprocess "1000*m".toList = "1000*m".toList := by decide
  have hl : lex "1000*m".toList = some [.num 1000, .star, .name ['m']] := by decide +kernel
  have ht : parseWith P "1000*m".toList = .ok (.binOp .mul (.constant (.num 1000)) (.name ['m'])) := by
    rw [parseWith, hl]; rfl
  have c1 : exWorld.context ['m'] = .ok (.unit uM) := by
    have : get? exWorld.registry "m" = some uM := by decide +kernel
    simp only [World.context, show String.ofList ['m'] = "m" by decide, this]
  have hv : exWorld.lookup P F "1000*m".toList = .ok (.qty ⟨((1000 : ℚ) : ℝ) * 1, unitDim uM⟩) := by
    simp only [World.lookup, lookup, registryGet, hp, ht]
    rw [if_pos (valid_iff.2 (.binOp _ (.constant _) (.name _)))]
    simp only [evalTree, c1, stdOps, stdBin, RVal.asQty, RVal.asNum]
  refine ⟨⟨_, _, hv, rfl, by norm_num, by decide⟩, ?_⟩
  simp only [validateDimensionality, hv, RVal.dimensionality]
  decide

end PQ
