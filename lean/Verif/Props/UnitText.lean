import Verif.Lemmas.UnitText2
import Verif.Lemmas.Example

/-!
# C92: unit strings mean what they say
-/

namespace PQ

open Dict LawfulRPow

variable {K : Type _}

/-- C92: how an expression is laid out does not matter.  Two strings that write the same expression
(different blanks, redundant parentheses, `·` for `*`, `^` for `**`, a different numeral for the same number,
trailing blanks) give the same result, value or exception. -/
theorem C92_layout [One K] [Mul K] [Div K] [Neg K] [RPow K] [RatCast K]
    (P : List Char → Py PyAST) (F : PyOps K) (w : World K) (e : UX) (s s' b b' : List Char)
    (hs : Writes .term e s) (hs' : Writes .term e s') (hb : Blank b) (hb' : Blank b')
    (hi : ¬ LooksLikeIn (s ++ b)) (hi' : ¬ LooksLikeIn (s' ++ b')) :
    w.lookup P F (s ++ b) = w.lookup P F (s' ++ b') := by
  rw [lookup_writes P F w hs hb hi, lookup_writes P F w hs' hb' hi']

section
variable [Field K] [LinearOrder K] [IsStrictOrderedRing K] [RPow K] [LawfulRPow K]

/-- C92: any string that writes a sensible expression is accepted and yields the number the expression
denotes, or a quantity with the expression's factor and exponents. -/
theorem C92_means (P : List Char → Py PyAST) (F : PyOps K) (w : World K) (e : UX) (s b : List Char)
    (hw : Writes .term e s) (hb : Blank b) (hi : ¬ LooksLikeIn (s ++ b)) (hs : e.Sensible w) :
    ∃ v, w.lookup P F (s ++ b) = .ok v ∧ Denotes w v e := by
  rw [lookup_writes P F w hw hb hi]
  exact eval_denotes F w e hs

/-- C92: the quantity obtained from a string has the physical value of the expression, whatever the
sizes of the units. -/
theorem C92_physical (P : List Char → Py PyAST) (F : PyOps K) (w : World K) (e : UX) (s b : List Char)
    (hw : Writes .term e s) (hb : Blank b) (hi : ¬ LooksLikeIn (s ++ b)) (hs : e.Sensible w)
    (hq : e.number = none) :
    ∃ v q, w.lookup P F (s ++ b) = .ok v ∧ v.asQty = some q ∧
      ∀ val : Valuation w, val.scalar q = e.value val := by
  obtain ⟨v, hv, -, h⟩ := C92_means P F w e s b hw hb hi hs
  obtain ⟨q, h1, h2, h3, h4⟩ := h hq
  refine ⟨v, q, hv, h1, fun val => ?_⟩
  obtain ⟨d, d1, d2, d3⟩ := e.value_eq val hs
  rw [d3, Valuation.scalar, h2, size_of_expo val h3 d1 (fun u => (h4 u).trans (d2 u).symm)]

/-- C92: a string given as units is taken for the expression's exponents (its numerical factor plays
no role, see C82); a string that denotes a plain number is refused. -/
theorem C92_units_argument (P : List Char → Py PyAST) (F : PyOps K) (w : World K) (e : UX)
    (s b : List Char) (hw : Writes .term e s) (hb : Blank b) (hi : ¬ LooksLikeIn (s ++ b))
    (hs : e.Sensible w) :
    (e.number = none → ∃ d, validateDimensionality P F w (.str (s ++ b)) = .ok d ∧ Canon d ∧
      ∀ u, expo d u = e.exponent w u) ∧
    (e.number ≠ none → validateDimensionality P F w (.str (s ++ b)) = .error .attributeError) := by
  obtain ⟨v, hv, h1, h2⟩ := C92_means P F w e s b hw hb hi hs
  constructor
  · intro hq
    obtain ⟨q, g1, -, g3, g4⟩ := h2 hq
    simp only [validateDimensionality, hv]
    cases v with
    | unit u =>
      simp only [RVal.asQty, Option.some.injEq] at g1
      subst g1
      exact ⟨_, rfl, g3, g4⟩
    | qty q' =>
      simp only [RVal.asQty, Option.some.injEq] at g1
      subst g1
      exact ⟨_, rfl, g3, g4⟩
    | const c => simp [RVal.asQty] at g1
    | cls l => simp [RVal.asQty] at g1
    | obj t => simp [RVal.asQty] at g1
  · intro hq
    obtain ⟨x, hx⟩ := Option.ne_none_iff_exists'.1 hq
    simp only [validateDimensionality, hv, h1 x hx, RVal.dimensionality]

end

/-! ## Non-vacuity -/

/-- `2.5*km/(s^-1 · m)**2`. -/
def exText : UX :=
  .div (.mul (.num (25/10)) (.name ['k', 'm']))
    (.pow (.mul (.pow (.name ['s']) (.neg (.num 1))) (.name ['m'])) (.num 2))

theorem ex_ident : IsIdent ['k', 'm'] ∧ IsIdent ['s'] ∧ IsIdent ['m'] := by
  refine ⟨⟨by simp, ?_, by decide, by decide⟩, ⟨by simp, ?_, by decide, by decide⟩,
    ⟨by simp, ?_, by decide, by decide⟩⟩ <;> (intro c hc; simp at hc; subst hc; decide)

theorem ex_blank0 : Blank [] := by simp [Blank]
theorem ex_blank1 : Blank [' '] := by simp [Blank]

theorem ex_decimal : IsDecimal ['1'] 1 ∧ IsDecimal ['2'] 2 ∧ IsDecimal ['2', '.', '5'] (25/10) := by
  refine ⟨⟨1, Or.inl ⟨by decide +kernel, by norm_num⟩⟩, ⟨2, Or.inl ⟨by decide +kernel, by norm_num⟩⟩,
    ⟨2, Or.inr ⟨['5'], by decide +kernel, by decide, ?_⟩⟩⟩
  rw [show digitsVal 0 (natDigits 2 ++ ['5']) = 25 by decide +kernel]
  norm_num

/-- The example is written by a string with blanks, `·` and `^`. -/
theorem ex_writes : Writes .term exText "2.5*km/(s^-1 · m)**2".toList :=
  .div (b₁ := []) (b₂ := []) (s := "2.5*km".toList) (t := "(s^-1 · m)**2".toList)
    (.mul (b₁ := []) (b₂ := []) (.factor (.atom (.num ex_decimal.2.2))) ex_blank0 (Or.inl rfl) ex_blank0
      (.atom (.name ex_ident.1)))
    ex_blank0 ex_blank0
    (.pow (s := "(s^-1 · m)".toList) (b₁ := []) (b₂ := [])
      (.paren (b₁ := []) (b₂ := []) (s := "s^-1 · m".toList) ex_blank0
        (.mul (b₁ := [' ']) (b₂ := [' '])
          (.factor (.pow (b₁ := []) (b₂ := []) (.name ex_ident.2.1) ex_blank0 (Or.inr rfl) ex_blank0
            (.neg (b₁ := []) ex_blank0 (.atom (.num ex_decimal.1)))))
          ex_blank1 (Or.inr rfl) ex_blank1 (.atom (.name ex_ident.2.2)))
        ex_blank0)
      ex_blank0 (Or.inl rfl) ex_blank0 (.atom (.num ex_decimal.2.1)))

theorem ex_sensible : exText.Sensible exWorld := by
  have h1 : exWorld.named ['k', 'm'] = some uKm := by
    change get? exWorld.registry (String.ofList ['k', 'm']) = some uKm; decide +kernel
  have h2 : exWorld.named ['s'] = some uS := by
    change get? exWorld.registry (String.ofList ['s']) = some uS; decide +kernel
  have h3 : exWorld.named ['m'] = some uM := by
    change get? exWorld.registry (String.ofList ['m']) = some uM; decide +kernel
  simp only [exText, UX.Sensible, h1, h2, h3, Option.isSome_some, UX.number, UX.factor, true_and]
  have hr : (rpow (1 : ℝ) ((Option.map (fun x : ℚ => - x) (some 1)).getD 0) * 1) = 1 := by
    rw [rpow_one_left, one_mul]
  refine ⟨⟨⟨⟨-1, rfl, Or.inl one_pos, by simp⟩, trivial⟩, 2, rfl, Or.inl ?_, by simp⟩, ?_⟩
  · rw [hr]; exact one_pos
  · rw [hr, rpow_one_left]; exact one_ne_zero

/-- Its meaning: 2.5 with exponents km: 1, s: 2, m: −2. -/
example (P : List Char → Py PyAST) (F : PyOps ℝ) :
    ∃ v q, exWorld.lookup P F "2.5*km/(s^-1 · m)**2".toList = .ok v ∧ v.asQty = some q ∧
      ∀ val : Valuation exWorld, val.scalar q = exText.value val := by
  have := C92_physical P F exWorld exText "2.5*km/(s^-1 · m)**2".toList [] ex_writes ex_blank0
    (by unfold LooksLikeIn; decide +kernel) ex_sensible rfl
  rwa [List.append_nil] at this

/-- The same expression written otherwise. -/
example (P : List Char → Py PyAST) (F : PyOps ℝ) :
    exWorld.lookup P F "m*s".toList = exWorld.lookup P F "(m) · s \t".toList := by
  have w1 : Writes .term (.mul (.name ['m']) (.name ['s'])) "m*s".toList :=
    .mul (b₁ := []) (b₂ := []) (.factor (.atom (.name ex_ident.2.2))) ex_blank0 (Or.inl rfl) ex_blank0
      (.atom (.name ex_ident.2.1))
  have w2 : Writes .term (.mul (.name ['m']) (.name ['s'])) "(m) · s".toList :=
    .mul (b₁ := [' ']) (b₂ := [' '])
      (.factor (.atom (.paren (b₁ := []) (b₂ := []) ex_blank0
        (.factor (.atom (.name ex_ident.2.2))) ex_blank0))) ex_blank1 (Or.inr rfl) ex_blank1
      (.atom (.name ex_ident.2.1))
  exact C92_layout P F exWorld _ "m*s".toList "(m) · s".toList [] " \t".toList w1 w2 ex_blank0
    (by intro c hc; simp at hc; exact hc) (by unfold LooksLikeIn; decide +kernel)
    (by unfold LooksLikeIn; decide +kernel)

end PQ
