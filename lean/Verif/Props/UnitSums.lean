import Verif.Lemmas.UnitSums
import Verif.Props.UnitText
import Verif.Lemmas.Programs

/-!
# C154: sums in unit strings
-/

namespace PQ

open Dict LawfulRPow

variable {K : Type _} [Field K] [LinearOrder K] [IsStrictOrderedRing K] [RPow K] [LawfulRPow K] [PyFloor K]
variable {h : Hasher} {w : World K}

omit [IsStrictOrderedRing K] [LawfulRPow K] [PyFloor K] in
private theorem exponent_known (hw : WF w) (u : UKey) : ∀ e : UX, e.exponent w u ≠ 0 →
    u ∈ w.units.map Prod.fst ∧ u.cls ≠ .dimensionless
  | .name s, he => by
    unfold UX.exponent at he
    split at he
    · rename_i hn; exact ⟨hw.registered _ _ hn.1, hn.2⟩
    · exact absurd rfl he
  | .num _, he => absurd rfl he
  | .neg a, he => exponent_known hw u a he
  | .mul a b, he => by
    by_cases ha : a.exponent w u = 0
    · refine exponent_known hw u b fun hb => he ?_
      rw [UX.exponent, ha, hb, add_zero]
    · exact exponent_known hw u a ha
  | .div a b, he => by
    by_cases ha : a.exponent w u = 0
    · refine exponent_known hw u b fun hb => he ?_
      rw [UX.exponent, ha, hb, sub_zero]
    · exact exponent_known hw u a ha
  | .pow a b, he => by
    refine exponent_known hw u a fun ha => he ?_
    rw [UX.exponent, ha, zero_mul]

omit [IsStrictOrderedRing K] [LawfulRPow K] [PyFloor K] in
private theorem hasDim_of (hw : WF w) {e : UX} {d : Dim} (hc : Canon d) (hx : ∀ u, expo d u = e.exponent w u) :
    e.HasDim w d := by
  have key : ∀ kv ∈ d, e.exponent w kv.1 ≠ 0 := by
    intro kv hk
    rw [← hx, expo, get?_of_mem hc.nodup hk]
    exact hc.nonzero kv hk
  exact ⟨⟨hc, fun kv hk => (exponent_known hw _ e (key kv hk)).1,
    fun kv hk => (exponent_known hw _ e (key kv hk)).2⟩, hx⟩

omit [LinearOrder K] [IsStrictOrderedRing K] [LawfulRPow K] [PyFloor K] in
private theorem toVal_of {v : RVal K} {p : SQ K} (hv : v.asQty = some p) :
    v.asNum = none ∧ ∃ x, v.toVal = some x ∧ x.Exact ∧ x.oneOf = .quantity ⟨NDArr.scalar p.mag, p.dim⟩ := by
  cases v with
  | unit u => simp only [RVal.asQty, Option.some.injEq] at hv; subst hv; exact ⟨rfl, _, rfl, trivial, rfl⟩
  | qty q => simp only [RVal.asQty, Option.some.injEq] at hv; subst hv; exact ⟨rfl, _, rfl, trivial, rfl⟩
  | const c => simp [RVal.asQty] at hv
  | cls l => simp [RVal.asQty] at hv
  | obj t => simp [RVal.asQty] at hv

/-- A value as a quantity, a plain number as a dimensionless one. -/
private def content : RVal K → Option (SQ K)
  | .const (.num x) => some ⟨(x : K), []⟩
  | v => v.asQty

omit [LinearOrder K] [IsStrictOrderedRing K] [LawfulRPow K] [PyFloor K] in
private theorem content_of {v : RVal K} {p : SQ K} (h : v.asQty = some p) : content v = some p := by
  cases v <;> simp_all [content, RVal.asQty]

omit [IsStrictOrderedRing K] [LawfulRPow K] in
/-- The right operand of `+` or `-`. -/
private theorem right_of {v : RVal K} {p : SQ K} (hv : content v = some p) :
    ∃ x o, v.toVal = some x ∧ x.Exact ∧ x.dim = p.dim ∧ o.dim = p.dim ∧ o.arr.shape = [] ∧
      (∀ val : Valuation w, val.physOp o = NDArr.scalar (val.scalar p)) ∧
      ∀ b P, binop w b (.quantity P) x.oneOf = (P.method w b o).map .quantity := by
  have main : ∀ q, v.asQty = some q → q = p → ∃ x o, v.toVal = some x ∧ x.Exact ∧ x.dim = p.dim ∧ o.dim = p.dim ∧ o.arr.shape = [] ∧
      (∀ val : Valuation w, val.physOp o = NDArr.scalar (val.scalar p)) ∧
      ∀ b P, binop w b (.quantity P) x.oneOf = (P.method w b o).map .quantity := by
    rintro q hq rfl
    obtain ⟨-, x, h1, h2, h3⟩ := toVal_of hq
    exact ⟨x, .quantity ⟨NDArr.scalar q.mag, q.dim⟩, h1, h2, by rw [← oneOf_dim, h3]; rfl, rfl, rfl, fun _ => rfl, fun b P => by rw [h3]; rfl⟩
  cases v with
  | unit u => exact main _ (by simpa [content] using hv) rfl
  | qty q => exact main _ (by simpa [content] using hv) rfl
  | cls l => simp [content, RVal.asQty] at hv
  | obj t => simp [content, RVal.asQty] at hv
  | const c =>
    cases c with
    | num x =>
      simp only [content, Option.some.injEq] at hv
      subst hv
      refine ⟨_, .array (NDArr.scalar (x : K)), rfl, trivial, rfl, rfl, rfl, fun val => ?_, fun b P => rfl⟩
      show NDArr.scalar (x : K) = NDArr.scalar ((x : K) * val.size [])
      rw [show val.size [] = 1 from rfl, mul_one]
    | _ => simp [content, RVal.asQty] at hv

/-- One `+` or `-`. -/
private theorem step (hw : Reachable h w) (F : PyOps K) (neg : Bool) {x y : RVal K} {p q : SQ K}
    (hx : x.asQty = some p) (hy : content y = some q) (hp : DimOK w p.dim) (hq : DimOK w q.dim)
    (hs : HashSafe w q.dim p.dim) :
    (Compatible w q.dim p.dim → ∃ r : SQ K, (stdOps (sumOps F w)).bin (signOp neg) x y = .ok (.qty r) ∧
      DimOK w r.dim ∧ SameContent r.dim p.dim ∧
      ∀ val : Valuation w, val.scalar r = if neg then val.scalar p - val.scalar q else val.scalar p + val.scalar q) ∧
    (¬ Compatible w q.dim p.dim → (stdOps (sumOps F w)).bin (signOp neg) x y = .error .valueError) := by
  obtain ⟨nx, x', hx1, ex, ox⟩ := toVal_of hx
  obtain ⟨y', Q, hy1, ey, dy, dQ, sQ, vQ, oy⟩ := right_of (w := w) hy
  set P : Quantity K := ⟨NDArr.scalar p.mag, p.dim⟩ with hP
  have hb : ∀ b, binop w b x' y' = (P.method w b Q).map .quantity := by
    intro b
    rw [C56_unit_is_one w b x' y' ex ey, ox]; exact oy b P
  have hstd : (stdOps (sumOps F w)).bin (signOp neg) x y =
      match P.method w (if neg then .sub else .add) Q with
      | .error e => .error e
      | .ok r => .ok (.qty ⟨r.mag.elem [], r.dim⟩) := by
    cases neg with
    | false =>
      show sumVals F w .add .add x y = _
      unfold sumVals
      simp only [nx, hx1, hy1, hb, Bool.false_eq_true, if_false, if_true]
      cases P.method w .add Q <;> rfl
    | true =>
      show sumVals F w .sub .sub x y = _
      unfold sumVals
      simp only [nx, hx1, hy1, hb, Bool.false_eq_true, if_false, if_true]
      cases P.method w .sub Q <;> rfl
  rw [hstd]
  have hbs : (NDArr.bshape P.mag.shape Q.arr.shape).isSome := by rw [sQ]; rfl
  have hok : ∀ r, P.method w (if neg then .sub else .add) Q = .ok r → DimOK w r.dim := by
    intro r hr
    have := (binop_phys hw (op := if neg then .sub else .add) (by cases neg <;> simp) ex ey
      (r := .quantity r) (by rw [← oneOf_dim, ox]; exact hp) (by rw [dy]; exact hq)
      (fun _ => by rw [← oneOf_dim x', ox, dy]; exact hs.symm)
      (by rw [hb, hr]; rfl)).1
    exact this
  cases neg with
  | false =>
    obtain ⟨h1, h2, h3⟩ := C13_add hw P Q hp (dQ ▸ hq) (dQ ▸ hs)
    constructor
    · intro hc
      obtain ⟨r, hr⟩ := h1.2 ⟨dQ ▸ hc, hbs⟩
      obtain ⟨h4, h5⟩ := h3 r hr
      have hm : P.method w (if false = true then .sub else .add) Q = .ok r := hr
      refine ⟨⟨r.mag.elem [], r.dim⟩, by rw [hm], hok r hm, h4, fun val => ?_⟩
      have h6 := h5 val
      rw [vQ] at h6
      have := congrArg (fun z : Py (NDArr K) => match z with | .ok m => m.elem [] | .error _ => 0) h6
      exact this.symm
    · intro hc
      have hm : P.method w (if false = true then .sub else .add) Q = P.add w Q := rfl
      rw [hm]
      rcases hr : P.add w Q with e | r
      · rw [h2 e hr]
      · exact absurd (dQ ▸ (h1.1 ⟨r, hr⟩).1) hc
  | true =>
    obtain ⟨h1, h2, h3⟩ := C13_sub hw P Q hp (dQ ▸ hq) (dQ ▸ hs)
    constructor
    · intro hc
      obtain ⟨r, hr⟩ := h1.2 ⟨dQ ▸ hc, hbs⟩
      obtain ⟨h4, h5⟩ := h3 r hr
      have hm : P.method w (if true = true then .sub else .add) Q = .ok r := hr
      refine ⟨⟨r.mag.elem [], r.dim⟩, by rw [hm], hok r hm, h4, fun val => ?_⟩
      have h6 := h5 val
      rw [vQ] at h6
      have := congrArg (fun z : Py (NDArr K) => match z with | .ok m => m.elem [] | .error _ => 0) h6
      exact this.symm
    · intro hc
      have hm : P.method w (if true = true then .sub else .add) Q = P.sub w Q := rfl
      rw [hm]
      rcases hr : P.sub w Q with e | r
      · rw [h2 e hr]
      · exact absurd (dQ ▸ (h1.1 ⟨r, hr⟩).1) hc

omit [Field K] [LinearOrder K] [IsStrictOrderedRing K] [RPow K] [LawfulRPow K] [PyFloor K] in
private theorem tail_error {O : PyOps K} {e : PyErr} : ∀ (l : List (Bool × UX)) (a : PyAST),
    evalTree O w a = .error e → evalTree O w (tailAst l a) = .error e
  | [], _, ha => ha
  | (neg, f) :: l, a, ha => tail_error l _ (by rw [evalTree, ha])

/-- What the evaluation of one term yields. -/
private theorem term (hw : Reachable h w) (F : PyOps K) {e : UX} (he : e.IsUnits w) :
    ∃ v q, evalTree (stdOps (sumOps F w)) w e.ast = .ok v ∧ v.asQty = some q ∧ e.HasDim w q.dim ∧
      ∀ val : Valuation w, val.scalar q = e.value val := by
  obtain ⟨v, hv, -, h2⟩ := eval_denotes (sumOps F w) w e he.1
  obtain ⟨q, h3, h4, h5, h6⟩ := h2 he.2
  refine ⟨v, q, hv, h3, hasDim_of hw.wf h5 h6, fun val => ?_⟩
  obtain ⟨d, d1, d2, d3⟩ := e.value_eq val he.1
  rw [d3, Valuation.scalar, h4, size_of_expo val h5 d1 (fun u => (h6 u).trans (d2 u).symm)]

/-- What the evaluation of a further term, maybe a plain number, yields. -/
private theorem term' (hw : Reachable h w) (F : PyOps K) {e : UX} (he : e.Sensible w) :
    ∃ v q, evalTree (stdOps (sumOps F w)) w e.ast = .ok v ∧ content v = some q ∧ e.HasDim w q.dim ∧
      ∀ val : Valuation w, val.scalar q = e.value val := by
  rcases hn : e.number with _ | x
  · obtain ⟨v, q, h1, h2, h3, h4⟩ := term hw F ⟨he, hn⟩
    exact ⟨v, q, h1, content_of h2, h3, h4⟩
  · obtain ⟨v, hv, h1, -⟩ := eval_denotes (sumOps F w) w e he
    have hx := h1 x hn
    subst hx
    refine ⟨_, ⟨(x : K), []⟩, hv, rfl,
      hasDim_of hw.wf Canon.nil (fun u => (e.number_exponent w u x hn).symm), fun val => ?_⟩
    obtain ⟨d, d1, d2, d3⟩ := e.value_eq val he
    rw [d3, Valuation.scalar, e.number_factor w he x hn,
      size_of_expo val Canon.nil d1 (fun u => (e.number_exponent w u x hn).symm.trans (d2 u).symm)]

omit [IsStrictOrderedRing K] [LawfulRPow K] [PyFloor K] in
private theorem hasDim_same {e : UX} {d d' : Dim} (h : e.HasDim w d) (h' : e.HasDim w d') : SameContent d d' :=
  h.1.canon.sameContent h'.1.canon (fun u => (h.2 u).trans (h'.2 u).symm)

private theorem sameKind_iff (hw : Reachable h w) {e f : UX} {d d' : Dim} (hd : e.HasDim w d) (hd' : f.HasDim w d') :
    e.SameKind w f ↔ Compatible w d' d := by
  constructor
  · rintro ⟨c, c', hc, hc', hcc⟩
    exact (Client.compatible_congr hw (compatible_of_same hc'.1.canon.nodup hd'.1.canon.nodup (hasDim_same hc' hd'))
      (compatible_of_same hc.1.canon.nodup hd.1.canon.nodup (hasDim_same hc hd))).1 (compatible_symm hw.wf hcc)
  · exact fun hc => ⟨d, d', hd, hd', compatible_symm hw.wf hc⟩

private theorem fold (hw : Reachable h w) (F : PyOps K) {e : UX} : ∀ (l : List (Bool × UX)) (a : PyAST) (v : RVal K)
    (p : SQ K), (∀ nf ∈ l, nf.2.Sensible w) → SumSafe w e l →
    evalTree (stdOps (sumOps F w)) w a = .ok v → v.asQty = some p → e.HasDim w p.dim →
    ((∀ nf ∈ l, e.SameKind w nf.2) → ∃ v' q, evalTree (stdOps (sumOps F w)) w (tailAst l a) = .ok v' ∧
      v'.asQty = some q ∧ e.HasDim w q.dim ∧ ∀ val : Valuation w, val.scalar q = val.scalar p + tailValue val l) ∧
    ((∃ nf ∈ l, ¬ e.SameKind w nf.2) → evalTree (stdOps (sumOps F w)) w (tailAst l a) = .error .valueError)
  | [], a, v, p, _, _, ha, hv, hd =>
    ⟨fun _ => ⟨v, p, ha, hv, hd, fun val => by simp [tailValue]⟩, by rintro ⟨nf, hm, -⟩; cases hm⟩
  | (neg, f) :: l, a, v, p, hl, hs, ha, hv, hd => by
    obtain ⟨y, q, hy, hyq, hfd, hfv⟩ := term' hw F (hl (neg, f) (by simp))
    obtain ⟨s1, s2⟩ := step hw F neg hv hyq hd.1 hfd.1 (hs (neg, f) (by simp) _ _ hd hfd)
    have hev : evalTree (stdOps (sumOps F w)) w (.binOp (signOp neg) a f.ast) =
        (stdOps (sumOps F w)).bin (signOp neg) v y := by rw [evalTree, ha]; simp only [hy]
    have hl' : ∀ nf ∈ l, nf.2.Sensible w := fun nf hm => hl nf (by simp [hm])
    have hs' : SumSafe w e l := fun nf hm => hs nf (by simp [hm])
    by_cases hc : Compatible w q.dim p.dim
    · obtain ⟨r, hr, rok, rsame, rval⟩ := s1 hc
      have hrd : e.HasDim w r.dim := ⟨rok, fun u => by
        rw [← hd.2 u]; unfold expo; rw [rsame u]⟩
      obtain ⟨i1, i2⟩ := fold hw F l _ (.qty r) r hl' hs' (hev.trans hr) rfl hrd
      constructor
      · intro hk
        obtain ⟨v', q', g1, g2, g3, g4⟩ := i1 (fun nf hm => hk nf (by simp [hm]))
        refine ⟨v', q', g1, g2, g3, fun val => ?_⟩
        rw [g4, rval, tailValue, hfv]
        cases neg <;> simp <;> ring
      · rintro ⟨nf, hm, hn⟩
        rcases List.mem_cons.1 hm with rfl | hm
        · exact absurd ((sameKind_iff hw hd hfd).2 hc) hn
        · exact i2 ⟨nf, hm, hn⟩
    · have herr := tail_error (O := stdOps (sumOps F w)) l _ (hev.trans (s2 hc))
      refine ⟨fun hk => absurd ((sameKind_iff hw hd hfd).1 (hk (neg, f) (by simp))) hc, fun _ => herr⟩

/-- A string that writes a sum of terms over registered units, the further ones possibly plain numbers
(which count as dimensionless): if the units of all terms convert into each other
it yields a quantity in the units of the first term, with the physical value of the sum; otherwise it
is refused with `ValueError`. -/
theorem C154_sum (hw : Reachable h w) (P : List Char → Py PyAST) (F : PyOps K) (e : UX) (l : List (Bool × UX))
    (s b : List Char) (hs : WritesSum e l s) (hb : Blank b) (hi : ¬ LooksLikeIn (s ++ b)) (he : e.IsUnits w)
    (hl : ∀ nf ∈ l, nf.2.Sensible w) (hsafe : SumSafe w e l) :
    ((∀ nf ∈ l, e.SameKind w nf.2) → ∃ v q, w.lookupSum P F (s ++ b) = .ok v ∧ v.asQty = some q ∧
      e.HasDim w q.dim ∧ ∀ val : Valuation w, val.scalar q = e.value val + tailValue val l) ∧
    ((∃ nf ∈ l, ¬ e.SameKind w nf.2) → w.lookupSum P F (s ++ b) = .error .valueError) := by
  obtain ⟨v, p, h1, h2, h3, h4⟩ := term hw F he
  obtain ⟨i1, i2⟩ := fold hw F l e.ast v p hl hsafe h1 h2 h3
  unfold World.lookupSum
  rw [lookup_sum P (sumOps F w) w hs hb hi]
  refine ⟨fun hk => ?_, i2⟩
  obtain ⟨v', q, g1, g2, g3, g4⟩ := i1 hk
  exact ⟨v', q, g1, g2, g3, fun val => by rw [g4, h4]⟩

omit [LawfulRPow K] in
private theorem fold_numbers (F : PyOps K) : ∀ (l : List (Bool × UX)) (a : PyAST) (c : ℚ),
    (∀ nf ∈ l, ∃ v, evalTree (stdOps (sumOps F w)) w nf.2.ast = .ok v ∧ ∀ x, nf.2.number = some x → v = .const (.num x)) →
    evalTree (stdOps (sumOps F w)) w a = .ok (.const (.num c)) → ∀ n, tailNumber l = some n →
    evalTree (stdOps (sumOps F w)) w (tailAst l a) = .ok (.const (.num (c + n)))
  | [], a, c, _, ha, n, hn => by
    simp only [tailNumber, Option.some.injEq] at hn
    subst hn
    rw [add_zero]; exact ha
  | (neg, f) :: l, a, c, hl, ha, n, hn => by
    obtain ⟨v, hv, hx⟩ := hl (neg, f) (by simp)
    simp only [tailNumber, Option.bind_eq_some_iff, Option.map_eq_some_iff] at hn
    obtain ⟨x, hfx, m, hm, rfl⟩ := hn
    have hvx := hx x hfx
    subst hvx
    rw [tailAst, fold_numbers F l _ (c + if neg then -x else x) (fun nf h => hl nf (by simp [h])) ?_ m hm, add_assoc]
    rw [evalTree, ha]
    simp only [hv]
    cases neg with
    | false => simp [stdOps, stdBin, signOp, sumOps, sumVals, RVal.asNum]
    | true => simp [stdOps, stdBin, signOp, sumOps, sumVals, RVal.asNum, sub_eq_add_neg]

/-- A sum of plain numbers denotes a number, which is refused as units. -/
theorem C154_numbers (P : List Char → Py PyAST) (F : PyOps K) (e : UX)
    (l : List (Bool × UX)) (s b : List Char) (hs : WritesSum e l s) (hb : Blank b) (hi : ¬ LooksLikeIn (s ++ b))
    (he : e.Sensible w) (hl : ∀ nf ∈ l, nf.2.Sensible w) (x y : ℚ) (hx : e.number = some x) (hy : tailNumber l = some y) :
    w.lookupSum P F (s ++ b) = .ok (.const (.num (x + y))) ∧
    validateSum P F w (.str (s ++ b)) = .error .attributeError := by
  have key : w.lookupSum P F (s ++ b) = .ok (.const (.num (x + y))) := by
    unfold World.lookupSum
    rw [lookup_sum P (sumOps F w) w hs hb hi]
    refine fold_numbers F l _ x (fun nf hm => ?_) ?_ y hy
    · obtain ⟨v, hv, h1, -⟩ := eval_denotes (sumOps F w) w nf.2 (hl nf hm)
      exact ⟨v, hv, h1⟩
    · obtain ⟨v, hv, h1, -⟩ := eval_denotes (sumOps F w) w e he
      rw [hv, h1 x hx]
  refine ⟨key, ?_⟩
  unfold World.lookupSum at key
  simp only [validateSum, validateDimensionality, key, RVal.dimensionality]

/-- A plain number on the left of `+` or `-`. -/
private theorem step_number (hw : Reachable h w) (F : PyOps K) (neg : Bool) {y : RVal K} {q : SQ K} (c : ℚ)
    (hy : y.asQty = some q) (hq : DimOK w q.dim) (hs : HashSafe w [] q.dim) :
    (Compatible w [] q.dim → ∃ r : SQ K, (stdOps (sumOps F w)).bin (signOp neg) (.const (.num c)) y = .ok (.qty r) ∧
      DimOK w r.dim ∧ SameContent r.dim q.dim ∧
      ∀ val : Valuation w, val.scalar r = if neg then (c : K) - val.scalar q else (c : K) + val.scalar q) ∧
    (¬ Compatible w [] q.dim →
      (stdOps (sumOps F w)).bin (signOp neg) (.const (.num c)) y = .error .valueError) := by
  obtain ⟨ny, y', hy1, ey, oy⟩ := toVal_of hy
  set Q : Quantity K := ⟨NDArr.scalar q.mag, q.dim⟩ with hQ
  set C : Operand K := .array (NDArr.scalar (c : K)) with hC
  have hx1 : (RVal.const (.num c) : RVal K).toVal = some (.array (NDArr.scalar (c : K))) := rfl
  have nx : (RVal.const (.num c) : RVal K).asNum = some c := rfl
  have hb : ∀ b, binop w b (.array (NDArr.scalar (c : K))) y' = (Q.rmethod w b C).map .quantity := by
    intro b
    rw [C56_unit_is_one w b (.array _) y' trivial ey, oy]; rfl
  have hnq : (RVal.const (.num c) : RVal K).asQty = none := rfl
  have hstd : (stdOps (sumOps F w)).bin (signOp neg) (.const (.num c)) y =
      match Q.rmethod w (if neg then .sub else .add) C with
      | .error e => .error e
      | .ok r => .ok (.qty ⟨r.mag.elem [], r.dim⟩) := by
    cases neg with
    | false =>
      show sumVals F w .add .add _ y = _
      unfold sumVals
      simp only [nx, ny, hx1, hy1, hb, Bool.false_eq_true, if_false]
      cases Q.rmethod w .add C <;> rfl
    | true =>
      show sumVals F w .sub .sub _ y = _
      unfold sumVals
      simp only [nx, ny, hx1, hy1, hb, if_true]
      cases Q.rmethod w .sub C <;> rfl
  rw [hstd]
  have hbs : (NDArr.bshape Q.mag.shape C.arr.shape).isSome := rfl
  have hok : ∀ r, Q.rmethod w (if neg then .sub else .add) C = .ok r → DimOK w r.dim := by
    intro r hr
    exact (binop_phys hw (op := if neg then .sub else .add) (x := .array (NDArr.scalar (c : K))) (by cases neg <;> simp)
      trivial ey (r := .quantity r) (DimOK.nil _) (by rw [← oneOf_dim, oy]; exact hq)
      (fun _ => by rw [← oneOf_dim y', oy]; exact hs) (by rw [hb, hr]; rfl)).1
  cases neg with
  | false =>
    obtain ⟨h1, h2, h3⟩ := C13_radd hw Q C hq (DimOK.nil _) hs
    constructor
    · intro hc
      obtain ⟨r, hr⟩ := h1.2 ⟨hc, hbs⟩
      obtain ⟨h4, h5⟩ := h3 r hr
      have hm : Q.rmethod w (if false = true then .sub else .add) C = .ok r := hr
      refine ⟨⟨r.mag.elem [], r.dim⟩, by rw [hm], hok r hm, h4, fun val => ?_⟩
      have := congrArg (fun z : Py (NDArr K) => match z with | .ok m => m.elem [] | .error _ => 0) (h5 val)
      exact this.symm
    · intro hc
      have hm : Q.rmethod w (if false = true then .sub else .add) C = Q.radd w C := rfl
      rw [hm]
      rcases hr : Q.radd w C with e | r
      · rw [h2 e hr]
      · exact absurd (h1.1 ⟨r, hr⟩).1 hc
  | true =>
    obtain ⟨h1, h2, h3⟩ := C13_rsub hw Q C hq (DimOK.nil _) hs
    constructor
    · intro hc
      obtain ⟨r, hr⟩ := h1.2 ⟨hc, hbs⟩
      obtain ⟨h4, h5⟩ := h3 r hr
      have hm : Q.rmethod w (if true = true then .sub else .add) C = .ok r := hr
      refine ⟨⟨r.mag.elem [], r.dim⟩, by rw [hm], hok r hm, h4, fun val => ?_⟩
      have := congrArg (fun z : Py (NDArr K) => match z with | .ok m => m.elem [] | .error _ => 0) (h5 val)
      exact this.symm
    · intro hc
      have hm : Q.rmethod w (if true = true then .sub else .add) C = Q.rsub w C := rfl
      rw [hm]
      rcases hr : Q.rsub w C with e | r
      · rw [h2 e hr]
      · exact absurd (h1.1 ⟨r, hr⟩).1 hc

private theorem tailAst_append : ∀ (l l' : List (Bool × UX)) (a : PyAST), tailAst (l ++ l') a = tailAst l' (tailAst l a)
  | [], _, _ => rfl
  | (_, _) :: l, l', _ => tailAst_append l l' _

omit [IsStrictOrderedRing K] [LawfulRPow K] [PyFloor K] in
private theorem tailValue_append (val : Valuation w) : ∀ (l l' : List (Bool × UX)),
    tailValue val (l ++ l') = tailValue val l + tailValue val l'
  | [], _ => by simp [tailValue]
  | (_, _) :: l, l' => by simp only [List.cons_append, tailValue, tailValue_append val l l', add_assoc]

private theorem number_value (val : Valuation w) {e : UX} (he : e.Sensible w) {x : ℚ} (hn : e.number = some x) :
    e.value val = (x : K) := by
  obtain ⟨d, d1, d2, d3⟩ := e.value_eq val he
  rw [d3, e.number_factor w he x hn, ← size_of_expo val Canon.nil d1
    (fun u => (e.number_exponent w u x hn).symm.trans (d2 u).symm), show val.size [] = 1 from rfl, mul_one]

private theorem tailNumber_value (val : Valuation w) : ∀ (l : List (Bool × UX)), (∀ nf ∈ l, nf.2.Sensible w) →
    ∀ n, tailNumber l = some n → tailValue val l = (n : K)
  | [], _, n, hn => by
    simp only [tailNumber, Option.some.injEq] at hn
    subst hn; simp [tailValue]
  | (neg, f) :: l, hl, n, hn => by
    simp only [tailNumber, Option.bind_eq_some_iff, Option.map_eq_some_iff] at hn
    obtain ⟨x, hfx, m, hm, rfl⟩ := hn
    rw [tailValue, tailNumber_value val l (fun nf h => hl nf (by simp [h])) m hm, number_value val (hl (neg, f) (by simp)) hfx]
    cases neg <;> simp

/-- A sum that begins with plain numbers, which count as dimensionless: it is in the units of the first term
that has units. -/
theorem C154_number_first (hw : Reachable h w) (P : List Char → Py PyAST) (F : PyOps K) (e f : UX) (neg : Bool)
    (l₁ l₂ : List (Bool × UX)) (s b : List Char) (hs : WritesSum e (l₁ ++ (neg, f) :: l₂) s) (hb : Blank b)
    (hi : ¬ LooksLikeIn (s ++ b)) (he : e.Sensible w) (hl₁ : ∀ nf ∈ l₁, nf.2.Sensible w) (hf : f.IsUnits w)
    (hl₂ : ∀ nf ∈ l₂, nf.2.Sensible w) (x y : ℚ) (hx : e.number = some x) (hy : tailNumber l₁ = some y)
    (hsafe : SumSafe w f ((false, .num 1) :: l₂)) :
    (f.SameKind w (.num 1) → (∀ nf ∈ l₂, f.SameKind w nf.2) → ∃ v q, w.lookupSum P F (s ++ b) = .ok v ∧
      v.asQty = some q ∧ f.HasDim w q.dim ∧
      ∀ val : Valuation w, val.scalar q = e.value val + tailValue val (l₁ ++ (neg, f) :: l₂)) ∧
    ((¬ f.SameKind w (.num 1) ∨ ∃ nf ∈ l₂, ¬ f.SameKind w nf.2) → w.lookupSum P F (s ++ b) = .error .valueError) := by
  have hone : (UX.num 1).HasDim w [] := hasDim_of hw.wf Canon.nil (fun u => rfl)
  have hpre : evalTree (stdOps (sumOps F w)) w (tailAst l₁ e.ast) = .ok (.const (.num (x + y))) := by
    refine fold_numbers F l₁ _ x (fun nf hm => ?_) ?_ y hy
    · obtain ⟨v, hv, h1, -⟩ := eval_denotes (sumOps F w) w nf.2 (hl₁ nf hm)
      exact ⟨v, hv, h1⟩
    · obtain ⟨v, hv, h1, -⟩ := eval_denotes (sumOps F w) w e he
      rw [hv, h1 x hx]
  obtain ⟨v, q, hv, hvq, hfd, hfv⟩ := term hw F hf
  obtain ⟨s1, s2⟩ := step_number hw F neg (x + y) hvq hfd.1 (hsafe (false, .num 1) (by simp) _ _ hfd hone)
  have hev : evalTree (stdOps (sumOps F w)) w (.binOp (signOp neg) (tailAst l₁ e.ast) f.ast) =
      (stdOps (sumOps F w)).bin (signOp neg) (.const (.num (x + y))) v := by rw [evalTree, hpre]; simp only [hv]
  unfold World.lookupSum
  rw [lookup_sum P (sumOps F w) w hs hb hi, tailAst_append, tailAst]
  by_cases hc : Compatible w [] q.dim
  · obtain ⟨r, hr, rok, rsame, rval⟩ := s1 hc
    have hrd : f.HasDim w r.dim := ⟨rok, fun u => by rw [← hfd.2 u]; unfold expo; rw [rsame u]⟩
    obtain ⟨i1, i2⟩ := fold hw F l₂ _ (.qty r) r hl₂ (fun nf hm => hsafe nf (by simp [hm])) (hev.trans hr) rfl hrd
    constructor
    · intro _ hk
      obtain ⟨v', q', g1, g2, g3, g4⟩ := i1 hk
      refine ⟨v', q', g1, g2, g3, fun val => ?_⟩
      rw [g4, rval, tailValue_append, tailNumber_value val l₁ hl₁ y hy, number_value val he hx, tailValue, hfv]
      cases neg <;> simp <;> ring
    · rintro (hn | hn)
      · exact absurd ((sameKind_iff hw hfd hone).2 hc) hn
      · exact i2 hn
  · have herr := tail_error (O := stdOps (sumOps F w)) l₂ _ (hev.trans (s2 hc))
    exact ⟨fun hk _ => absurd ((sameKind_iff hw hfd hone).1 hk) hc, fun _ => herr⟩

/-- Given as the units of a quantity, the same string stands for the units of its first term alone: the other
terms, and all numbers, are dropped without a warning.  So `Quantity(1, "km + m")` is 1 km. -/
theorem C154_units_argument (hw : Reachable h w) (P : List Char → Py PyAST) (F : PyOps K) (e : UX)
    (l : List (Bool × UX)) (s b : List Char) (hs : WritesSum e l s) (hb : Blank b) (hi : ¬ LooksLikeIn (s ++ b))
    (he : e.IsUnits w) (hl : ∀ nf ∈ l, nf.2.Sensible w) (hsafe : SumSafe w e l) :
    ((∀ nf ∈ l, e.SameKind w nf.2) → ∃ d, validateSum P F w (.str (s ++ b)) = .ok d ∧ e.HasDim w d) ∧
    ((∃ nf ∈ l, ¬ e.SameKind w nf.2) → validateSum P F w (.str (s ++ b)) = .error .valueError) := by
  obtain ⟨i1, i2⟩ := C154_sum hw P F e l s b hs hb hi he hl hsafe
  constructor
  · intro hk
    obtain ⟨v, q, g1, g2, g3, -⟩ := i1 hk
    unfold World.lookupSum at g1
    simp only [validateSum, validateDimensionality, g1]
    cases v with
    | unit u =>
      simp only [RVal.asQty, Option.some.injEq] at g2
      subst g2
      exact ⟨_, rfl, g3⟩
    | qty q' =>
      simp only [RVal.asQty, Option.some.injEq] at g2
      subst g2
      exact ⟨_, rfl, g3⟩
    | const c => simp [RVal.asQty] at g2
    | cls c => simp [RVal.asQty] at g2
    | obj t => simp [RVal.asQty] at g2
  · intro hk
    have := i2 hk
    unfold World.lookupSum at this
    simp only [validateSum, validateDimensionality, this]

/-! ## Non-vacuity -/

private theorem exDim (s : List Char) (u : UKey) (d : Dim) (hd : d = [(u, 1)]) (hok : DimOK exWorld d)
    (hu : exWorld.named s = some u) (hc : u.cls ≠ .dimensionless) : (UX.name s).HasDim exWorld d := by
  refine ⟨hok, fun t => ?_⟩
  subst hd
  unfold UX.exponent
  rw [hu]
  unfold expo
  by_cases h : u = t
  · subst h
    rw [if_pos ⟨rfl, hc⟩]
    simp [Dict.get?]
  · rw [if_neg (fun h' => h (Option.some.inj h'.1))]
    simp [Dict.get?, h]

private theorem exKm : (UX.name ['k', 'm']).HasDim exWorld dKm :=
  exDim _ uKm _ rfl (ex_dimOK _ (by simp))
    (by change get? exWorld.registry (String.ofList ['k', 'm']) = some uKm; decide +kernel) (by decide)

private theorem exMe : (UX.name ['m']).HasDim exWorld dM :=
  exDim _ uM _ rfl (ex_dimOK _ (by simp))
    (by change get? exWorld.registry (String.ofList ['m']) = some uM; decide +kernel) (by decide)

private theorem exSe : (UX.name ['s']).HasDim exWorld dS :=
  exDim _ uS _ rfl (ex_dimOK _ (by simp))
    (by change get? exWorld.registry (String.ofList ['s']) = some uS; decide +kernel) (by decide)

private theorem exUnits : (UX.name ['k', 'm']).IsUnits exWorld ∧ (UX.name ['m']).IsUnits exWorld ∧
    (UX.name ['s']).IsUnits exWorld := by
  have h1 : exWorld.named ['k', 'm'] = some uKm := by
    change get? exWorld.registry (String.ofList ['k', 'm']) = some uKm; decide +kernel
  have h2 : exWorld.named ['s'] = some uS := by
    change get? exWorld.registry (String.ofList ['s']) = some uS; decide +kernel
  have h3 : exWorld.named ['m'] = some uM := by
    change get? exWorld.registry (String.ofList ['m']) = some uM; decide +kernel
  exact ⟨⟨by simp [UX.Sensible, h1], rfl⟩, ⟨by simp [UX.Sensible, h3], rfl⟩, ⟨by simp [UX.Sensible, h2], rfl⟩⟩

private theorem exSafe {e f : UX} {d d' : Dim} (hd : e.HasDim exWorld d) (hd' : f.HasDim exWorld d')
    (hs : HashSafe exWorld d' d) (d₁ d₁' : Dim) (h : e.HasDim exWorld d₁) (h' : f.HasDim exWorld d₁') :
    HashSafe exWorld d₁' d₁ :=
  hs.congr exWorld_wf hd'.1 h'.1 hd.1 h.1 (hasDim_same hd' h') (hasDim_same hd h)

/-- `km + m -m` is written as a sum, its terms can be added, and it is found to be 1 km. -/
example (P : List Char → Py PyAST) (F : PyOps ℝ) :
    (∃ v q, exWorld.lookupSum P F "km + m -m".toList = .ok v ∧ v.asQty = some q ∧
      ∀ val : Valuation exWorld, val.scalar q = val.val uKm) ∧
    exWorld.lookupSum P F "km + m -s".toList = .error .valueError := by
  have wt : ∀ c : Char, IsIdent [c] → WritesSum (.name ['k', 'm']) [(false, .name ['m']), (true, .name [c])]
      ("km + m -".toList ++ [c]) := fun c hc =>
    ⟨"km".toList, " + m -".toList ++ [c], .factor (.atom (.name ex_ident.1)),
      .cons (neg := false) (b₁ := [' ']) (b₂ := [' ']) (t := ['m']) ex_blank1 ex_blank1
        (.factor (.atom (.name ex_ident.2.2)))
        (.cons (neg := true) (b₁ := [' ']) (b₂ := []) (t := [c]) (s := []) ex_blank1 ex_blank0
          (.factor (.atom (.name hc))) .nil), rfl⟩
  have safe : ∀ c d, (UX.name [c]).HasDim exWorld d → HashSafe exWorld d dKm →
      SumSafe exWorld (.name ['k', 'm']) [(false, .name ['m']), (true, .name [c])] := by
    intro c d hc hs nf hm d₁ d₂ h1 h2
    simp only [List.mem_cons, List.not_mem_nil, or_false] at hm
    rcases hm with rfl | rfl
    · exact exSafe exKm exMe ex_safe_m_km _ _ h1 h2
    · exact exSafe exKm hc hs _ _ h1 h2
  have km : (UX.name ['k', 'm']).SameKind exWorld (.name ['m']) := ⟨_, _, exKm, exMe, ex_compat⟩
  have h1 := (C154_sum exWorld_reachable P F _ _ _ [] (wt 'm' ex_ident.2.2) ex_blank0
    (by unfold LooksLikeIn; decide +kernel) exUnits.1 (by
      intro nf hm; simp only [List.mem_cons, List.not_mem_nil, or_false] at hm
      rcases hm with rfl | rfl <;> exact exUnits.2.1.1) (safe 'm' _ exMe ex_safe_m_km)).1 (by
      intro nf hm; simp only [List.mem_cons, List.not_mem_nil, or_false] at hm
      rcases hm with rfl | rfl <;> exact km)
  have h2 := (C154_sum exWorld_reachable P F _ _ _ [] (wt 's' ex_ident.2.1) ex_blank0
    (by unfold LooksLikeIn; decide +kernel) exUnits.1 (by
      intro nf hm; simp only [List.mem_cons, List.not_mem_nil, or_false] at hm
      rcases hm with rfl | rfl
      · exact exUnits.2.1.1
      · exact exUnits.2.2.1) (safe 's' _ exSe ex_safe_km_s.symm)).2
      ⟨(true, .name ['s']), by simp, fun hk => ex_incompat (compatible_symm exWorld_wf
        ((sameKind_iff exWorld_reachable exKm exSe).1 hk))⟩
  refine ⟨?_, h2⟩
  obtain ⟨v, q, g1, g2, -, g3⟩ := h1
  refine ⟨v, q, g1, g2, fun val => ?_⟩
  rw [g3]
  have hk : exWorld.named ['k', 'm'] = some uKm := by
    change get? exWorld.registry (String.ofList ['k', 'm']) = some uKm; decide +kernel
  simp [tailValue, UX.value, hk]

/-- `1 - 2` is the number −1, and `km + 1` is refused. -/
example (P : List Char → Py PyAST) (F : PyOps ℝ) :
    exWorld.lookupSum P F "1 - 2".toList = .ok (.const (.num (-1))) ∧
    exWorld.lookupSum P F "km + 1".toList = .error .valueError := by
  have h1 := (C154_numbers (w := exWorld) P F (.num 1) [(true, .num 2)] "1 - 2".toList []
    ⟨['1'], " - 2".toList, .factor (.atom (.num ex_decimal.1)),
      .cons (neg := true) (b₁ := [' ']) (b₂ := [' ']) (t := ['2']) (s := []) ex_blank1 ex_blank1
        (.factor (.atom (.num ex_decimal.2.1))) .nil, rfl⟩ ex_blank0 (by unfold LooksLikeIn; decide +kernel)
    trivial (by simp [UX.Sensible]) 1 (-2) rfl (by simp [tailNumber, UX.number])).1
  have hz : (UX.num 1).HasDim exWorld [] := ⟨DimOK.nil _, fun u => rfl⟩
  have href : (exWorld.refUnits ([] : Dim)).dim = [] := by decide +kernel
  have hsafe : HashSafe exWorld [] dKm :=
    ⟨fun h => absurd h (by decide +kernel), fun h => by rw [exRef_km, href] at h; exact absurd h (by decide +kernel)⟩
  refine ⟨by rw [List.append_nil] at h1; rw [h1]; norm_num, ?_⟩
  have h2 := (C154_sum exWorld_reachable P F (.name ['k', 'm']) [(false, .num 1)] "km + 1".toList []
    ⟨"km".toList, " + 1".toList, .factor (.atom (.name ex_ident.1)),
      .cons (neg := false) (b₁ := [' ']) (b₂ := [' ']) (t := ['1']) (s := []) ex_blank1 ex_blank1
        (.factor (.atom (.num ex_decimal.1))) .nil, rfl⟩ ex_blank0 (by unfold LooksLikeIn; decide +kernel)
    exUnits.1 (by simp [UX.Sensible]) (by
      intro nf hm d d' h1 h2
      simp only [List.mem_cons, List.not_mem_nil, or_false] at hm
      subst hm
      exact exSafe exKm hz hsafe _ _ h1 h2)).2
      ⟨_, List.mem_cons_self .., fun hk => ?_⟩
  · rwa [List.append_nil] at h2
  · have := (sameKind_iff exWorld_reachable exKm hz).1 hk
    rw [compatible_iff exWorld_wf (DimOK.nil _) (ex_dimOK _ (by simp)), exRef_km, href] at this
    have := this uM
    simp [Dict.get?_cons, uM] at this

/-- `1 + m/m` is the number 2 with units `m/m`, that is, dimensionless. -/
example (P : List Char → Py PyAST) (F : PyOps ℝ) :
    ∃ v q, exWorld.lookupSum P F "1 + m/m".toList = .ok v ∧ v.asQty = some q ∧
      ∀ val : Valuation exWorld, val.scalar q = 2 := by
  have hm : exWorld.named ['m'] = some uM := by
    change get? exWorld.registry (String.ofList ['m']) = some uM; decide +kernel
  have sens : (UX.div (.name ['m']) (.name ['m'])).Sensible exWorld :=
    ⟨exUnits.2.1.1, exUnits.2.1.1, by simp [UX.factor]⟩
  have hz : ∀ e : UX, (∀ u, e.exponent exWorld u = 0) → e.HasDim exWorld [] := fun e he => ⟨DimOK.nil _, fun u => (he u).symm⟩
  have z1 := hz (.num 1) (fun u => rfl)
  have z2 := hz (.div (.name ['m']) (.name ['m'])) (fun u => sub_self _)
  have nil_safe : HashSafe exWorld [] [] := ⟨fun _ => SameContent.refl _, fun _ => SameContent.refl _⟩
  have h := (C154_number_first exWorld_reachable P F (.num 1) (.div (.name ['m']) (.name ['m'])) false [] []
    "1 + m/m".toList []
    ⟨"1".toList, " + m/m".toList, .factor (.atom (.num ex_decimal.1)),
      .cons (neg := false) (b₁ := [' ']) (b₂ := [' ']) (t := "m/m".toList) (s := []) ex_blank1 ex_blank1
        (.div (b₁ := []) (b₂ := []) (.factor (.atom (.name ex_ident.2.2))) ex_blank0 ex_blank0
          (.atom (.name ex_ident.2.2))) .nil, rfl⟩ ex_blank0
    (by unfold LooksLikeIn; decide +kernel) trivial (by simp) ⟨sens, rfl⟩ (by simp) 1 0 rfl rfl (by
      intro nf hm d d' h1 h2
      simp only [List.mem_cons, List.not_mem_nil, or_false] at hm
      subst hm
      exact exSafe z2 z1 nil_safe _ _ h1 h2)).1
      ⟨[], [], z2, z1, 1, fun v => (one_mul _).symm⟩ (by simp)
  rw [List.append_nil] at h
  obtain ⟨v, q, g1, g2, -, g3⟩ := h
  refine ⟨v, q, g1, g2, fun val => ?_⟩
  rw [g3]
  have := (val.pos uM).ne'
  simp [tailValue, UX.value, hm, this]
  norm_num

end PQ
