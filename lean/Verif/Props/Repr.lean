import Verif.Lemmas.Repr
import Verif.Props.UnitStrings
import Verif.Props.UnitText

/-!
# C93: the `repr` of a quantity is an expression for it
-/

namespace PQ

open Dict LawfulRPow

variable {K : Type _}

section
variable [Field K] [LinearOrder K] [IsStrictOrderedRing K] [RPow K] [LawfulRPow K]

/-- C93: a number (or any expression) put in front of a unit string with `*` multiplies the whole
unit, whatever the unit string: there is no unit string in which it would bind otherwise. -/
theorem C93_number_in_front (P : List Char → Py PyAST) (F : PyOps K) (w : World K) (X e : UX)
    (xs s b₁ b₂ : List Char) (hX : Writes .term X xs) (hXs : X.Sensible w) (h₁ : Blank b₁)
    (h₂ : Blank b₂) (hs : Writes .term e s) (hes : e.Sensible w) (hn : e.number = none) :
    ∃ v q, w.lookup P F (xs ++ b₁ ++ ['*'] ++ b₂ ++ s) = .ok v ∧ v.asQty = some q ∧
      q.mag = X.factor * e.factor ∧ (∀ u, expo q.dim u = X.exponent w u + e.exponent w u) ∧
      ∀ val : Valuation w, val.scalar q = X.value val * e.value val := by
  obtain ⟨e', g1, g2, g3, g4, g5, g6⟩ := prefix_writes hX hXs h₁ h₂ hs rfl hes
  have hstar : ¬ LooksLikeIn (xs ++ b₁ ++ ['*'] ++ b₂ ++ s) := by
    unfold LooksLikeIn
    intro h
    have hm : '*' ∈ (xs ++ b₁ ++ ['*'] ++ b₂ ++ s).map Char.toLower :=
      List.mem_map.2 ⟨'*', by simp, by decide⟩
    rw [h] at hm
    revert hm; decide
  have hb : Blank [] := by simp [Blank]
  obtain ⟨v, hv, -, h2⟩ := C92_means P F w e' _ [] g1 hb (by rwa [List.append_nil]) g2
  obtain ⟨v', q', hv', hq', hval⟩ := C92_physical P F w e' _ [] g1 hb (by rwa [List.append_nil]) g2 (g5 hn)
  rw [hv] at hv'
  obtain rfl : v = v' := Except.ok.inj hv'
  rw [List.append_nil] at hv
  obtain ⟨q, k1, k2, k3, k4⟩ := h2 (g5 hn)
  rw [k1] at hq'
  obtain rfl : q = q' := Option.some.inj hq'
  exact ⟨v, q, hv, k1, k2.trans g3, fun u => (k4 u).trans (g4 u), fun val => (hval val).trans (g6 val)⟩

/-- C93, partial. Full claim: evaluating `repr(q)` gives `q` back. Proved when the magnitude's own
`repr` is an expression `X` denoting the number `x` (numpy's `array(...)` call is not modelled) and
the units are printable as in C26. Missing: the exponents and units of the `C26_false` theorems. -/
theorem C93_repr_partial (P : List Char → Py PyAST) (F : PyOps K) (w : World K)
    (fr : ℚ → List Char) (d : PDim) (hn : Dict.Nodup d) (hp : Printable w fr d) (X : UX) (x : ℚ)
    (xs : List Char) (hX : Writes .term X xs) (hXs : X.Sensible w) (hx : X.number = some x) :
    ∃ v q, w.lookup P F (reprQuantity w fr false xs d) = .ok v ∧ v.asQty = some q ∧ q.mag = (x : K) ∧
      ∀ u, expo q.dim u = expo d.toDim u := by
  obtain ⟨e, he, hu⟩ := formatUnits_writes hn hp
  obtain ⟨v, q, h1, h2, h3, h4, -⟩ := C93_number_in_front P F w X e xs _ [' '] [' '] hX hXs
    ex_blank1 ex_blank1 he hu.sensible hu.number
  refine ⟨v, q, ?_, h2, ?_, fun u => ?_⟩
  · rw [← h1, reprQuantity]
    congr 1
    rw [show " * ".toList = [' ', '*', ' '] from rfl]
    simp
  · rw [h3, hu.factor, mul_one, X.number_factor w hXs x hx]
  · rw [h4, X.number_exponent w u x hx, hu.exponent, zero_add]

/-- C93: strings of printable dimensionalities are written expressions, so everything C92 says applies
to them: in particular they denote the product of the units to their exponents. -/
theorem C93_string_is_expression (w : World K) (fr : ℚ → List Char) (d : PDim) (hn : Dict.Nodup d)
    (hp : Printable w fr d) :
    ∃ e, Writes .term e (formatUnits w fr false d) ∧ e.Sensible w ∧ e.number = none ∧
      ∀ val : Valuation w, e.value val = val.size d.toDim := by
  obtain ⟨e, he, hu⟩ := formatUnits_writes hn hp
  refine ⟨e, he, hu.sensible, hu.number, fun val => ?_⟩
  obtain ⟨d', h1, h2, h3⟩ := e.value_eq val hu.sensible
  have hc : Canon d.toDim := by
    refine ⟨?_, ?_⟩
    · simpa [PDim.toDim, Dict.Nodup, List.map_map, Function.comp_def] using hn
    · intro kv hk
      simp only [PDim.toDim, List.mem_map] at hk
      obtain ⟨x, hx, rfl⟩ := hk
      rcases hp.exp x hx with ⟨h, -⟩ | ⟨h, -⟩
      · exact h.ne'
      · exact h.ne
  rw [h3, hu.factor, one_mul, size_of_expo val h1 hc (fun u => (h2 u).trans (hu.exponent u))]

end

/-- Non-vacuity: `2.5 * m**0.5*km**2/(s**3*Hz)` read back. -/
example (P : List Char → Py PyAST) (F : PyOps ℝ) :
    ∃ v q, exWorld.lookup P F "2.5 * m**0.5*km**2/(s**3*Hz)".toList = .ok v ∧ v.asQty = some q ∧
      q.mag = (((25/10 : ℚ)) : ℝ) := by
  have hd : Dict.Nodup ([(uHz, .int (-1)), (uKm, .int 2), (uM, .float (1/2)), (uS, .int (-3))] : PDim) := by
    simp only [Dict.Nodup, List.map_cons, List.map_nil]; decide
  obtain ⟨v, q, h1, h2, h3, -⟩ := C93_repr_partial P F exWorld exFr _ hd exPrintable (.num (25/10))
    (25/10) "2.5".toList (.factor (.atom (.num ex_decimal.2.2))) trivial rfl
  refine ⟨v, q, ?_, h2, h3⟩
  rw [← h1]
  congr 1
  decide +kernel

/-- C93 fails for exponents that end in 0: the `repr` of 2 in units of `m**10` evaluates to 2 m. -/
theorem C93_false_exponent_ten (P : List Char → Py PyAST) (F : PyOps ℝ) (fr : ℚ → List Char) :
    reprQuantity exWorld fr false "2".toList [(uM, .int 10)] = "2 * m**1".toList ∧
    ∃ v q, exWorld.lookup P F (reprQuantity exWorld fr false "2".toList [(uM, .int 10)]) = .ok v ∧
      v.asQty = some q ∧ expo q.dim uM = 1 := by
  have hs : reprQuantity exWorld fr false "2".toList [(uM, .int 10)] = "2 * m**1".toList := by
    unfold reprQuantity
    rw [(C26_false_exponent_ten P F fr).1]
    decide
  refine ⟨hs, ?_⟩
  rw [hs]
  have hp : preprocess "2 * m**1".toList = "2 * m**1".toList := by decide
  have hl : lex "2 * m**1".toList = some [.num 2, .star, .name ['m'], .dstar, .num 1] := by decide +kernel
  have ht : parseWith P "2 * m**1".toList =
      .ok (.binOp .mul (.constant (.num 2)) (.binOp .pow (.name ['m']) (.constant (.num 1)))) := by
    rw [parseWith, hl]; rfl
  have c1 : exWorld.context ['m'] = .ok (.unit uM) := by
    have : Dict.get? exWorld.registry "m" = some uM := by decide +kernel
    simp only [World.context, show String.ofList ['m'] = "m" by decide, this]
  refine ⟨.qty ⟨(2 : ℚ) * rpow 1 1, Dim.pow (unitDim uM) 1⟩, _, ?_, rfl, ?_⟩
  · simp only [World.lookup, lookup, registryGet, hp, ht]
    rw [if_pos (valid_iff.2 (.binOp _ (.constant _) (.binOp _ (.name _) (.constant _))))]
    simp only [evalTree, c1, stdOps, stdBin, RVal.asQty, RVal.asNum]
  · decide +kernel

end PQ
