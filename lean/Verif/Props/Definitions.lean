import Verif.Spec.Definitions
import Verif.Props.History
import Verif.Props.UnitStrings
import Verif.Props.Standards

/-!
# C147: a new unit means what it was defined to mean
-/

namespace PQ

open Dict World

section
variable {K : Type _} [Field K] [LinearOrder K] [IsStrictOrderedRing K] [RPow K] [LawfulRPow K]
variable {h : Hasher} {w w' : World K}

omit [IsStrictOrderedRing K] [LawfulRPow K] in
/-- The information kept of a new unit. -/
theorem newUnit_record (w : World K) (a : NewUnit K) (hok : (w.newUnit a).1 = none)
    (hfresh : w.info ⟨a.cls, a.name⟩ = none) :
    ∃ i, (w.newUnit a).2.info ⟨a.cls, a.name⟩ = some i ∧ i.definition = a.definition.toDef ∧
      i.convRef = a.definition.toDef.map w.reference := by
  have hu : (w.newUnit a).2.units = (w.construct a).units := by
    obtain ⟨reg, e1, -, -⟩ := registryAll_spec (w.construct a) ⟨a.cls, a.name⟩
      (labelsOf a.cls a.name a.symbol a.aliases)
    unfold World.newUnit at hok ⊢
    rcases hr : (w.construct a).registryAll ⟨a.cls, a.name⟩
      (labelsOf a.cls a.name a.symbol a.aliases) with ⟨_ | e, w2⟩
    · rw [hr] at e1; simp only at e1; subst e1
      simp only [hr]
      by_cases hc : (a.cls.irreducible && ((w.construct a).defaults a.cls).isNone) = true <;> simp [hc]
    · exfalso
      simp only [hr] at hok
      split at hok <;> cases hok
  refine ⟨{ definition := a.definition.toDef, convRef := a.definition.toDef.map w.reference,
            symbol := a.symbol, uSymbol := a.uSymbol, aliases := a.aliases,
            order := (a.cls.primaryOrder, if decide (a.cls = .dimensionless) then
              w.counter a.cls + 1 else w.counter a.cls) }, ?_, rfl, rfl⟩
  unfold World.info
  rw [hu]
  simp only [World.info, World.construct] at hfresh ⊢
  simp only [hfresh, get?_set, if_true]

omit [IsStrictOrderedRing K] [LawfulRPow K] in
theorem dimensionless_undefined {w : World K} {a : NewUnit K} (hv : (Op.newUnit a).Valid w) {q : SQ K}
    (hq : a.definition.toDef = some q) : a.cls ≠ .dimensionless := by
  intro hc
  rw [hv.2 hc] at hq
  cases hq

omit [IsStrictOrderedRing K] [LawfulRPow K] in
theorem evolves_after {w w' : World K} {op : Op K} (hv : op.Valid w) (he : Evolves (op.run w).2 w') : Evolves w w' := by
  induction he with
  | refl => exact Evolves.step _ Evolves.refl hv
  | step op' _ hv' ih => exact Evolves.step op' ih hv'

/-- C147: a unit defined as `x` times `d` is, ever after, `x` times as big as `d`, and converting it to
`d` gives `x`. -/
theorem C147_definition (hw : Reachable h w) (a : NewUnit K) (hv : (Op.newUnit a).Valid w)
    (hfresh : w.info ⟨a.cls, a.name⟩ = none) (hok : ((Op.newUnit a).run w).1 = none) (x : K) (d : Dim)
    (hd : DefinedAs a.definition x d) (he : Evolves ((Op.newUnit a).run w).2 w') :
    (∀ v : Valuation w', v.size (unitDim ⟨a.cls, a.name⟩) = x * v.size d) ∧
    (HashSafe w' (unitDim ⟨a.cls, a.name⟩) d → ∃ r : Quantity K,
      (Quantity.ofUnit ⟨a.cls, a.name⟩ : Quantity K).rescale w' d = .ok r ∧ SameContent r.dim d ∧
        r.mag.shape = [] ∧ r.mag.elem [] = x) := by
  have hdef : a.definition.toDef = some ⟨x, d⟩ := by
    revert hd
    generalize a.definition = D
    intro hd
    cases hd <;> rfl
  obtain ⟨i, h1, h2, -⟩ := newUnit_record w a hok hfresh
  have hw' : Reachable h w' := (Reachable.step _ hw hv).evolves he
  have h3 := (evolves_keeps he).2.1 _ i h1
  have hsize : ∀ v : Valuation w', v.size (unitDim ⟨a.cls, a.name⟩) = x * v.size d := by
    intro v
    have := v.defined _ i ⟨x, d⟩ h3 (h2.trans hdef)
    unfold unitDim
    rw [if_neg (by simpa using dimensionless_undefined hv hdef)]
    simp only [Valuation.size, dsize_cons, dsize_nil, mul_one, LawfulRPow.rpow_one] at this ⊢
    exact this
  refine ⟨hsize, fun hs => ?_⟩
  have hdw : DimOK w d := (hv.1 _ hdef).2
  have hdw' : DimOK w' d := dimOK_evolves (evolves_after hv he) hdw
  obtain ⟨r, r1, r2, r3⟩ := rescale_by hw'.wf (unitDim_ok (known_of_info h3)) hdw' hs hsize (NDArr.scalar 1)
  refine ⟨r, r1, r2, ?_, ?_⟩
  · rw [r3]; rfl
  · rw [r3]; exact mul_one x

/-- C147: a unit created without a definition (other than a name for 1) is a new base unit: ever after it is compatible with no
combination of the units there were before. -/
theorem C147_base (hw : Reachable h w) (a : NewUnit K) (hv : (Op.newUnit a).Valid w)
    (hfresh : w.info ⟨a.cls, a.name⟩ = none) (hok : ((Op.newUnit a).run w).1 = none)
    (hd : NotDefined a.definition) (hc : a.cls ≠ .dimensionless)
    (he : Evolves ((Op.newUnit a).run w).2 w') (d : Dim) (hdw : DimOK w d) :
    ¬ Compatible w' (unitDim ⟨a.cls, a.name⟩) d ∧
    (HashSafe w' (unitDim ⟨a.cls, a.name⟩) d →
      (Quantity.ofUnit ⟨a.cls, a.name⟩ : Quantity K).rescale w' d = .error .valueError) := by
  have hdef : a.definition.toDef = none := by
    revert hd
    generalize a.definition = D
    intro hd
    cases hd; rfl
  obtain ⟨i, h1, h2, h2'⟩ := newUnit_record w a hok hfresh
  have hw' : Reachable h w' := (Reachable.step _ hw hv).evolves he
  have h3 := (evolves_keeps he).2.1 _ i h1
  have hev : Evolves w w' := evolves_after hv he
  have hdw' : DimOK w' d := dimOK_evolves hev hdw
  have hu := unitDim_ok (known_of_info h3)
  have hnc : ¬ Compatible w' (unitDim ⟨a.cls, a.name⟩) d := by
    rw [compatible_iff hw'.wf hu hdw', refUnits_evolves hev hdw]
    intro hsame
    have hcr : w'.convRef ⟨a.cls, a.name⟩ = none := by
      rw [convRef_of_info h3, h2', hdef]; rfl
    have e : (w'.unitRef ⟨a.cls, a.name⟩).dim = [(⟨a.cls, a.name⟩, 1)] := by
      unfold World.unitRef
      rw [hcr]
      simp only [unitDim]
      rw [if_neg (by simpa using hc)]
    have := ((refUnits_unitDim hw'.wf (known_of_info h3) hc).symm.trans hsame) ⟨a.cls, a.name⟩
    rw [e, Dict.get?_cons, if_pos rfl] at this
    have hk := (refUnits_spec hw.wf hdw).2.1.known _ (mem_of_get? this.symm)
    rw [World.info, get?_eq_none_iff] at hfresh
    exact hfresh hk
  refine ⟨hnc, fun hs => ?_⟩
  exact (rescale_eq_error_iff hw'.wf (q := Quantity.ofUnit ⟨a.cls, a.name⟩) hu hdw' hs).2 hnc

end

/-! ## Numbers are no units -/

/-- C147: a string of digits is not accepted as units. -/
theorem C147_number_is_no_unit {K : Type _} [One K] [Mul K] [Div K] [Neg K] [RPow K] [RatCast K] [DecidableEq K]
    (P : List Char → Py PyAST) (F : PyOps K) (w : World K) (n : Nat) :
    validateDimensionality P F w (.str (natDigits n)) = .error .attributeError := by
  have hdig := natDigits_isDig n
  have hno : ∀ c : Char, isDig c = false → c ∉ natDigits n := fun c hc hm => by
    rw [hdig c hm] at hc; cases hc
  have hp : preprocess (natDigits n) = natDigits n := by
    unfold preprocess
    rw [replaceChar_of_notMem _ (hno '^' rfl), replaceChar_of_notMem _ (hno '·' rfl),
      dotSub_of_noDot _ (hno '.' rfl)]
    simp only [natDigits_ne_nil, if_false]
    have h2 : (natDigits n).contains '%' = false := by
      rw [← Bool.not_eq_true, List.contains_iff_mem]
      exact hno '%' rfl
    rw [h2]
    simp only [Bool.false_eq_true, if_false]
    rw [if_neg]
    intro hin
    have : 'n' ∈ natDigits n ∨ 'N' ∈ natDigits n := by
      simp only [isIn, Bool.or_eq_true, beq_iff_eq] at hin
      rcases hin with ((hin | hin) | hin) | hin <;> rw [hin] <;> simp
    rcases this with h | h
    · exact hno 'n' rfl h
    · exact hno 'N' rfl h
  have hl : lex (natDigits n) = some [.num n] := by
    rcases hd : natDigits n with _ | ⟨c, cs⟩
    · exact absurd hd (natDigits_ne_nil n)
    · have hc : ∀ x ∈ c :: cs, isDig x = true := hd ▸ hdig
      refine Lexes.lex (lexes_number (hc c (by simp)) (fun x hx => .inl (hc x (by simp [hx]))) ?_) ?_
      · rw [← hd]; exact decimalLit_nat n
      · refine ⟨c, cs, rfl, ?_⟩
        have hcd := hc c (by simp)
        refine ⟨?_, ?_, ?_, ?_⟩ <;> (rintro rfl; exact absurd hcd (by decide))
  have ht : parseWith P (natDigits n) = .ok (.constant (.num n)) := by
    rw [parseWith, hl]; rfl
  unfold validateDimensionality
  simp only [World.lookup, lookup, registryGet, hp, ht]
  rfl

/-! ## Concrete cases -/

/-- Creating a foot of 0.3048 m. -/
noncomputable def exFoot : NewUnit ℝ :=
  { cls := .length, name := "foot", definition := .quantity ⟨0.3048, dM⟩, symbol := some "ft" }

theorem exFoot_valid : (Op.newUnit exFoot).Valid exWorld := by
  refine ⟨?_, by simp [exFoot]⟩
  intro q hq
  simp only [exFoot, DefArg.toDef, Option.some.injEq] at hq
  subst hq
  exact ⟨by norm_num, ex_dimOK _ (by simp)⟩

example : ∀ v : Valuation ((Op.newUnit exFoot).run exWorld).2,
    v.size (unitDim ⟨.length, "foot"⟩) = 0.3048 * v.size dM :=
  (C147_definition exWorld_reachable exFoot exFoot_valid rfl rfl 0.3048 dM (.quantity _ _) .refl).1

/-- A half, and a second kind of length nobody has defined. -/
noncomputable def exHalf : NewUnit ℝ := { cls := .unitQuantity, name := "half", definition := .number 0.5 }
noncomputable def exOdd : NewUnit ℝ := { cls := .length, name := "smoot", definition := .none }

example : ∀ v : Valuation ((Op.newUnit exHalf).run exWorld).2, v.size (unitDim ⟨.unitQuantity, "half"⟩) = 0.5 * v.size [] :=
  (C147_definition exWorld_reachable exHalf (by
    refine ⟨?_, by simp [exHalf]⟩
    intro q hq
    simp only [exHalf, DefArg.toDef, Option.some.injEq] at hq
    subst hq
    exact ⟨by norm_num, DimOK.nil _⟩) rfl rfl 0.5 [] (.number _) .refl).1

example : ¬ Compatible ((Op.newUnit exOdd).run exWorld).2 (unitDim ⟨.length, "smoot"⟩) dM :=
  (C147_base exWorld_reachable exOdd (by simp [exOdd, Op.Valid, DefArg.toDef]) rfl rfl .none (by simp [exOdd]) .refl dM
    (ex_dimOK dM (by simp))).1

end PQ
