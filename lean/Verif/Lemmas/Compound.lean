import Verif.Model.Compound
import Verif.Spec.Compound
import Verif.Props.UnitText
import Verif.Props.History
import Verif.Props.Conversion

/-!
# Lemmas on compound units
-/

namespace PQ

set_option linter.unusedSectionVars false

open Dict World LawfulRPow

variable {K : Type _} [Field K] [LinearOrder K] [IsStrictOrderedRing K] [RPow K] [LawfulRPow K]
  {h : Hasher} {w w' : World K} {P : List Char → Py PyAST} {F : PyOps K}

omit [LinearOrder K] [IsStrictOrderedRing K] [RPow K] [LawfulRPow K] in
theorem UX.exponent_named (u : UKey) (e : UX) (he : e.exponent w u ≠ 0) :
    ∃ s, w.named s = some u ∧ u.cls ≠ .dimensionless := by
  induction e with
  | name s =>
    rw [UX.exponent] at he
    by_cases hc : w.named s = some u ∧ u.cls ≠ .dimensionless
    · exact ⟨s, hc⟩
    · rw [if_neg hc] at he; exact absurd rfl he
  | num q => exact absurd rfl he
  | neg a ih => exact ih he
  | mul a b iha ihb =>
    by_cases ha : a.exponent w u = 0
    · refine ihb fun hb => he ?_
      rw [UX.exponent, ha, hb, add_zero]
    · exact iha ha
  | div a b iha ihb =>
    by_cases ha : a.exponent w u = 0
    · refine ihb fun hb => he ?_
      rw [UX.exponent, ha, hb, sub_zero]
    · exact iha ha
  | pow a b iha _ =>
    refine iha fun ha => he ?_
    rw [UX.exponent, ha, zero_mul]

omit [LinearOrder K] [IsStrictOrderedRing K] [LawfulRPow K] in
theorem UX.Sensible.mono [LT K] (hr : ∀ s u, w.named s = some u → w'.named s = some u) (e : UX)
    (he : e.Sensible w) : e.Sensible w' := by
  induction e with
  | name s =>
    obtain ⟨u, hu⟩ := Option.isSome_iff_exists.1 he
    exact Option.isSome_iff_exists.2 ⟨u, hr s u hu⟩
  | num q => trivial
  | neg a ih => exact ih he
  | mul a b iha ihb => exact ⟨iha he.1, ihb he.2⟩
  | div a b iha ihb => exact ⟨iha he.1, ihb he.2.1, he.2.2⟩
  | pow a b iha ihb => exact ⟨iha he.1, ihb he.2.1, he.2.2⟩

omit [LinearOrder K] [IsStrictOrderedRing K] [RPow K] [LawfulRPow K] in
theorem UX.exponent_congr (hr : ∀ s, w'.named s = w.named s) (u : UKey) (e : UX) :
    e.exponent w' u = e.exponent w u := by
  induction e with
  | name s => simp only [UX.exponent, hr]
  | num q => rfl
  | neg a ih => exact ih
  | mul a b iha ihb => simp only [UX.exponent, iha, ihb]
  | div a b iha ihb => simp only [UX.exponent, iha, ihb]
  | pow a b iha ihb => simp only [UX.exponent, iha]

omit [IsStrictOrderedRing K] [LawfulRPow K] in
theorem UX.exponent_keep (hr : ∀ s u, w.named s = some u → w'.named s = some u) {u : UKey} {e : UX}
    (he : e.Sensible w) : e.exponent w' u = e.exponent w u := by
  induction e with
  | name s =>
    obtain ⟨x, hx⟩ := Option.isSome_iff_exists.1 he
    simp only [UX.exponent, hx, hr s x hx]
  | num q => rfl
  | neg a ih => exact ih he
  | mul a b iha ihb => simp only [UX.exponent, iha he.1, ihb he.2]
  | div a b iha ihb => simp only [UX.exponent, iha he.1, ihb he.2.1]
  | pow a b iha ihb => simp only [UX.exponent, iha he.1]

/-- What the registry makes of the name of a compound unit. -/
theorem compoundDef_text (hw : WF w) {name : String} {e : UX} (ht : CompoundText w name e) :
    ∃ q, compoundDef P F w name = .ok q ∧ q.mag = e.factor ∧ DimOK w q.dim ∧
      (∀ u, expo q.dim u = e.exponent w u) ∧ ∀ v : Valuation w, v.scalar q = e.value v := by
  obtain ⟨s, b, hn, h1, h2⟩ := ht.written
  have hi := ht.notInch
  rw [hn] at hi
  obtain ⟨v, hv, -, hd⟩ := C92_means P F w e s b h1 h2 hi ht.sensible
  obtain ⟨q, g1, g2, g3, g4⟩ := hd ht.mentions
  have hcd : compoundDef P F w name = .ok q := by
    have hl : w.lookup P F name.toList = .ok v := by rw [hn]; exact hv
    unfold compoundDef
    rw [hl]
    clear hl hv h1 h2 hi hn g2 g3 g4 ht
    cases v with
    | unit u => injection g1 with g1; subst g1; rfl
    | qty q' => injection g1 with g1; subst g1; rfl
    | const c => exact absurd g1 (by simp [RVal.asQty])
    | cls l => exact absurd g1 (by simp [RVal.asQty])
    | obj t => exact absurd g1 (by simp [RVal.asQty])
  refine ⟨q, hcd, g2, ⟨g3, ?_, ?_⟩, g4, fun val => ?_⟩
  · intro kv hk
    have : expo q.dim kv.1 ≠ 0 := by
      rw [expo, get?_of_mem g3.nodup hk]; exact g3.nonzero kv hk
    rw [g4] at this
    obtain ⟨s, hs, -⟩ := e.exponent_named kv.1 this
    exact hw.registered _ _ hs
  · intro kv hk
    have : expo q.dim kv.1 ≠ 0 := by
      rw [expo, get?_of_mem g3.nodup hk]; exact g3.nonzero kv hk
    rw [g4] at this
    exact (e.exponent_named kv.1 this).choose_spec.2
  · obtain ⟨d, d1, d2, d3⟩ := e.value_eq val ht.sensible
    rw [d3, Valuation.scalar, g2, size_of_expo val g3 d1 (fun u => (g4 u).trans (d2 u).symm)]

end PQ

namespace PQ

set_option linter.unusedSectionVars false

open Dict World LawfulRPow

/-! ## Printed dimensionalities as expressions -/

/-- A faithfully printed exponent: the suffix is `**` and a numeral of the exponent. -/
theorem expSuffix_decimal {fr : ℚ → List Char} {d : PyNum} (h : FaithfulExp fr d) :
    ∃ l, expSuffix fr d = '*' :: '*' :: l ∧ IsDecimal l d.val := by
  have digLast : ∀ (n : Nat) (pre : List Char), (pre ++ natDigits n).getLast? ≠ some '.' := by
    intro n pre
    rw [getLast?_append_ne (natDigits_ne_nil n)]
    intro he
    exact isDig_ne (natDigits_isDig n _ (List.mem_of_getLast? he)) (by decide : isDig '.' = false) rfl
  cases d with
  | int n =>
    obtain ⟨hn, hd⟩ := h
    have hstr : (PyNum.int n).str fr = natDigits n.natAbs := by
      simp [PyNum.str, not_lt.2 hn.le]
    have hnd : ¬ 10 ∣ n.natAbs := by
      intro h'; exact hd (Int.natCast_dvd.2 h')
    refine ⟨natDigits n.natAbs, ?_, n.natAbs, Or.inl ⟨rfl, ?_⟩⟩
    · unfold expSuffix
      rw [hstr, show '*' :: '*' :: natDigits n.natAbs = ['*', '*'] ++ natDigits n.natAbs from rfl,
        rstrip_eq (c := '0') (by rw [getLast?_append_ne (natDigits_ne_nil _)]; exact natDigits_last hnd),
        rstrip_eq (digLast _ _)]
    · simp only [PyNum.val]
      have : ((n.natAbs : ℤ) : ℚ) = (n : ℚ) := by rw [Int.natAbs_of_nonneg hn.le]
      rw [← this, Int.cast_natCast]
  | float q =>
    obtain ⟨hq, i, fp, hs, hfp⟩ := h
    have hstr : (PyNum.float q).str fr = natDigits i ++ '.' :: fp := hs
    rcases hfp with ⟨rfl, rfl⟩ | ⟨hne, hall, hlast, rfl⟩
    · refine ⟨natDigits i, ?_, i, Or.inl ⟨rfl, rfl⟩⟩
      unfold expSuffix
      rw [hstr, show '*' :: '*' :: (natDigits i ++ ['.', '0']) =
          ((['*', '*'] ++ natDigits i) ++ ['.']) ++ ['0'] by simp,
        rstrip_snoc, rstrip_eq (c := '0') (by rw [List.getLast?_concat]; decide), rstrip_snoc, rstrip_eq (digLast _ _)]
      rfl
    · refine ⟨natDigits i ++ '.' :: fp, ?_, i, Or.inr ⟨fp, rfl, hall, rfl⟩⟩
      unfold expSuffix
      have e : '*' :: '*' :: (natDigits i ++ '.' :: fp) = (['*', '*'] ++ natDigits i ++ ['.']) ++ fp := by
        simp
      have hl : ((['*', '*'] ++ natDigits i ++ ['.']) ++ fp).getLast? = fp.getLast? :=
        getLast?_append_ne hne
      have hdot : fp.getLast? ≠ some '.' := by
        intro he
        exact isDig_ne (List.all_eq_true.1 hall _ (List.mem_of_getLast? he))
          (by decide : isDig '.' = false) rfl
      rw [hstr, e, rstrip_eq (c := '0') (by rw [hl]; exact hlast),
        rstrip_eq (c := '.') (by rw [hl]; exact hdot), ← e]

theorem writes_ne_nil {p : Prec} {e : UX} {s : List Char} (h : Writes p e s) : s ≠ [] := by
  induction h with
  | name h => exact h.1
  | num h =>
    obtain ⟨n, ⟨rfl, -⟩ | ⟨fp, rfl, -⟩⟩ := h
    · exact natDigits_ne_nil n
    · simp
  | paren => simp
  | atom _ ih => exact ih
  | pow _ _ _ _ _ _ _ => simp_all
  | neg => simp
  | factor _ ih => exact ih
  | mul => simp_all
  | div => simp

theorem not_looksLikeIn {s : List Char} {c : Char} (hc : c ∈ s) (h : c = '*' ∨ c = '/' ∨ c = '(') :
    ¬ LooksLikeIn s := by
  intro hl
  have : c.toLower ∈ s.map Char.toLower := List.mem_map_of_mem hc
  rw [hl] at this
  rcases h with rfl | rfl | rfl <;> revert this <;> decide +kernel

section
variable {K : Type _} [Field K] [LinearOrder K] [IsStrictOrderedRing K] [RPow K] [LawfulRPow K] {w : World K}

/-- `s` writes, at precedence `p`, a sensible expression of value `X` that mentions a unit, has a
positive factor and is not taken for the inch. -/
def Reading (w : World K) (p : Prec) (s : List Char) (X : Valuation w → K) : Prop :=
  ¬ LooksLikeIn s ∧ ∃ e : UX, Writes p e s ∧ e.Sensible w ∧ e.number = none ∧ 0 < (e.factor : K) ∧
    ∀ v : Valuation w, e.value v = X v

theorem reading_item {fr : ℚ → List Char} {u : UKey} {d : PyNum} {e : UX} (hu : SymbolReads w u e)
    (hd : FaithfulExp fr d) :
    Reading w .factor (fmtItem w fr false u d) (fun v => rpow (v.val u) d.val) := by
  unfold fmtItem
  simp only [Bool.false_eq_true, if_false]
  by_cases h1 : d.val ≠ 1
  · rw [if_pos h1]
    obtain ⟨l, hl, hdec⟩ := expSuffix_decimal hd
    rw [hl]
    refine ⟨not_looksLikeIn (c := '*') (by simp) (Or.inl rfl), .pow e (.num d.val), ?_, ?_, ?_, ?_, ?_⟩
    · have := Writes.pow (b₁ := []) (b₂ := []) (op := ['*', '*']) hu.written ex_blank0 (Or.inl rfl) ex_blank0
        (.atom (.num hdec))
      simpa using this
    · exact ⟨hu.sensible, trivial, d.val, rfl, Or.inl hu.positive, fun h => absurd hu.mentions h⟩
    · simp [UX.number, hu.mentions]
    · exact rpow_pos _ _ hu.positive
    · intro v; simp only [UX.value, hu.value v, UX.number, Option.getD_some]
  · rw [if_neg h1]
    refine ⟨hu.notInch, e, .atom hu.written, hu.sensible, hu.mentions, hu.positive, fun v => ?_⟩
    simp only [hu.value, not_not.1 h1, rpow_one]

theorem reading_mul {s t : List Char} {X Y : Valuation w → K} (hs : Reading w .term s X)
    (ht : Reading w .factor t Y) : Reading w .term (s ++ '*' :: t) (fun v => X v * Y v) := by
  obtain ⟨-, e, w1, s1, n1, p1, v1⟩ := hs
  obtain ⟨-, f, w2, s2, n2, p2, v2⟩ := ht
  refine ⟨not_looksLikeIn (c := '*') (by simp) (Or.inl rfl), .mul e f, ?_, ⟨s1, s2⟩, ?_, ?_, ?_⟩
  · have := Writes.mul (b₁ := []) (b₂ := []) (op := ['*']) w1 ex_blank0 (Or.inl rfl) ex_blank0 w2
    simpa using this
  · simp [UX.number, n1]
  · exact mul_pos p1 p2
  · intro v; simp only [UX.value, v1, v2]

theorem reading_div {s t : List Char} {X Y : Valuation w → K} (hs : Reading w .term s X)
    (ht : Reading w .factor t Y) : Reading w .term (s ++ '/' :: t) (fun v => X v / Y v) := by
  obtain ⟨-, e, w1, s1, n1, p1, v1⟩ := hs
  obtain ⟨-, f, w2, s2, n2, p2, v2⟩ := ht
  refine ⟨not_looksLikeIn (c := '/') (by simp) (Or.inr (Or.inl rfl)), .div e f, ?_, ⟨s1, s2, p2.ne'⟩, ?_, ?_, ?_⟩
  · have := Writes.div (b₁ := []) (b₂ := []) w1 ex_blank0 ex_blank0 w2
    simpa using this
  · simp [UX.number, n1]
  · exact div_pos p1 p2
  · intro v; simp only [UX.value, v1, v2]

theorem reading_inv {t : List Char} {Y : Valuation w → K}
    (ht : Reading w .factor t Y) : Reading w .term ('1' :: '/' :: t) (fun v => 1 / Y v) := by
  obtain ⟨-, f, w2, s2, n2, p2, v2⟩ := ht
  refine ⟨not_looksLikeIn (c := '/') (by simp) (Or.inr (Or.inl rfl)), .div (.num 1) f, ?_,
    ⟨trivial, s2, p2.ne'⟩, ?_, ?_, ?_⟩
  · have := Writes.div (b₁ := []) (b₂ := []) (s := ['1']) (.factor (.atom (.num ex_decimal.1))) ex_blank0
      ex_blank0 w2
    simpa using this
  · simp [UX.number, n2]
  · simp only [UX.factor]; exact div_pos (by simp) p2
  · intro v; simp only [UX.value, v2, Rat.cast_one]

theorem reading_paren {s : List Char} {X : Valuation w → K} (hs : Reading w .term s X) :
    Reading w .factor ('(' :: s ++ [')']) X := by
  obtain ⟨-, e, w1, s1, n1, p1, v1⟩ := hs
  refine ⟨not_looksLikeIn (c := '(') (by simp) (Or.inr (Or.inr rfl)), e, ?_, s1, n1, p1, v1⟩
  have := Writes.atom (Writes.paren (b₁ := []) (b₂ := []) ex_blank0 w1 ex_blank0)
  simpa using this

theorem reading_term {s : List Char} {X : Valuation w → K} (hs : Reading w .factor s X) :
    Reading w .term s X := by
  obtain ⟨hi, e, w1, r⟩ := hs
  exact ⟨hi, e, .factor w1, r⟩

theorem reading_joined {α : Type _} (f : α → List Char) (X : α → Valuation w → K) (l : List α) :
    ∀ (a : List Char) (Y : Valuation w → K), Reading w .term a Y →
      (∀ x ∈ l, Reading w .factor (f x) (X x)) → l ≠ [] →
      Reading w .term (a ++ '*' :: joinStar (l.map f)) (fun v => Y v * (l.map (X · v)).prod) := by
  induction l with
  | nil => intro _ _ _ _ h; exact absurd rfl h
  | cons x l ih =>
    intro a Y ha hl _
    have h1 := reading_mul ha (hl x (by simp))
    rcases l with _ | ⟨y, l⟩
    · simpa [joinStar] using h1
    · have := ih _ _ h1 (fun z hz => hl z (by simp [hz])) (by simp)
      have e : a ++ '*' :: joinStar ((x :: y :: l).map f) =
          (a ++ '*' :: f x) ++ '*' :: joinStar ((y :: l).map f) := by
        simp [joinStar]
      rw [e]
      have ef : (fun v => Y v * ((x :: y :: l).map (X · v)).prod) =
          fun v => (Y v * X x v) * ((y :: l).map (X · v)).prod := by
        funext v; rw [List.map_cons, List.prod_cons, mul_assoc]
      rw [ef]; exact this

theorem reading_list {α : Type _} (f : α → List Char) (X : α → Valuation w → K) (l : List α)
    (hl : ∀ x ∈ l, Reading w .factor (f x) (X x)) (hne : l ≠ []) :
    Reading w .term (joinStar (l.map f)) (fun v => (l.map (X · v)).prod) := by
  rcases l with _ | ⟨x, _ | ⟨y, l⟩⟩
  · exact absurd rfl hne
  · have := reading_term (hl x (by simp))
    simpa [joinStar] using this
  · have := reading_joined f X (y :: l) _ _ (reading_term (hl x (by simp)))
      (fun z hz => hl z (by simp [hz])) (by simp)
    have e : joinStar ((x :: y :: l).map f) = f x ++ '*' :: joinStar ((y :: l).map f) := rfl
    rw [e]; simpa using this

end
end PQ
