import Verif.Spec.Extended
import Verif.Lemmas.Complex

/-! # Lemmas about magnitudes with infinities and nan -/

namespace PQ

open Dict World

namespace XFloat
variable {K : Type _} [Field K] [LinearOrder K] [IsStrictOrderedRing K]

theorem inUnit_mul {c : K} (hc : 0 < c) (x : XFloat K) : (XFloat.fin c : XFloat K) * x = x.inUnit c := by
  cases x with
  | fin x => exact congrArg XFloat.fin (mul_comm c x)
  | inf n =>
    show (if c = 0 then _ else _) = _
    rw [if_neg hc.ne', decide_eq_false (not_lt.2 hc.le)]
    cases n <;> rfl
  | nan => rfl

omit [LinearOrder K] [IsStrictOrderedRing K] in
theorem inUnit_inUnit (s t : K) (x : XFloat K) : (x.inUnit s).inUnit t = x.inUnit (s * t) := by
  cases x with
  | fin x => exact congrArg XFloat.fin (mul_assoc x s t)
  | inf n => rfl
  | nan => rfl

omit [LinearOrder K] [IsStrictOrderedRing K] in
theorem inUnit_one (x : XFloat K) : x.inUnit 1 = x := by
  cases x with
  | fin x => exact congrArg XFloat.fin (mul_one x)
  | inf n => rfl
  | nan => rfl

omit [LinearOrder K] [IsStrictOrderedRing K] in
theorem inUnit_add (s : K) (x y : XFloat K) : x.inUnit s + y.inUnit s = (x + y).inUnit s := by
  cases x <;> cases y <;> try rfl
  · exact congrArg XFloat.fin (add_mul _ _ s).symm
  · rename_i n m
    show (if n = m then _ else _ : XFloat K) = XFloat.inUnit s (if n = m then _ else _)
    split <;> rfl

omit [LinearOrder K] [IsStrictOrderedRing K] in
theorem inUnit_sub (s : K) (x y : XFloat K) : x.inUnit s - y.inUnit s = (x - y).inUnit s := by
  cases x <;> cases y <;> try rfl
  · exact congrArg XFloat.fin (sub_mul _ _ s).symm
  · rename_i n m
    show (if n = m then _ else _ : XFloat K) = XFloat.inUnit s (if n = m then _ else _)
    split <;> rfl

omit [LinearOrder K] [IsStrictOrderedRing K] in
theorem inUnit_neg (s : K) (x : XFloat K) : -(x.inUnit s) = (-x).inUnit s := by
  cases x with
  | fin x => exact congrArg XFloat.fin (neg_mul _ s).symm
  | inf n => rfl
  | nan => rfl

theorem lt_zero_scale {s : K} (hs : 0 < s) (x : K) : decide (x * s < 0) = decide (x < 0) := by
  congr 1
  exact propext ⟨fun h => by by_contra hx; exact absurd h (not_lt.2 (mul_nonneg (not_lt.1 hx) hs.le)),
    fun h => mul_neg_of_neg_of_pos h hs⟩

theorem zero_scale {s : K} (hs : 0 < s) (x : K) : (x * s = 0) = (x = 0) := by
  simp [hs.ne']

theorem inUnit_times {s t : K} (hs : 0 < s) (ht : 0 < t) (x y : XFloat K) :
    x.inUnit s * y.inUnit t = (x * y).inUnit (s * t) := by
  cases x <;> cases y <;> try rfl
  · exact congrArg XFloat.fin (mul_mul_mul_comm _ s _ t)
  · rename_i x n
    show (if x * s = 0 then _ else _ : XFloat K) = XFloat.inUnit _ (if x = 0 then _ else _)
    simp only [lt_zero_scale hs, zero_scale hs]
    split <;> rfl
  · rename_i n y
    show (if y * t = 0 then _ else _ : XFloat K) = XFloat.inUnit _ (if y = 0 then _ else _)
    simp only [lt_zero_scale ht, zero_scale ht]
    split <;> rfl

theorem inUnit_over {s t : K} (hs : 0 < s) (ht : 0 < t) (x y : XFloat K) :
    x.inUnit s / y.inUnit t = (x / y).inUnit (s / t) := by
  cases x <;> cases y <;> try rfl
  · rename_i x y
    show (if y * t = 0 then (if x * s = 0 then _ else _) else _ : XFloat K) =
      XFloat.inUnit _ (if y = 0 then (if x = 0 then _ else _) else _)
    simp only [lt_zero_scale hs, zero_scale hs, zero_scale ht]
    split
    · split <;> rfl
    · exact congrArg XFloat.fin (mul_div_mul_comm x s y t)
  · exact congrArg XFloat.fin (zero_mul _).symm
  · rename_i n y
    show XFloat.inf (n != decide (y * t < 0)) = XFloat.inf (n != decide (y < 0))
    rw [lt_zero_scale ht]

theorem inUnit_lt {s : K} (hs : 0 < s) (x y : XFloat K) :
    decide (x.inUnit s < y.inUnit s) = decide (x < y) := by
  cases x <;> cases y <;> try rfl
  rename_i x y
  show decide (decide (x * s < y * s) = true) = decide (decide (x < y) = true)
  simp [mul_lt_mul_iff_left₀ hs]

theorem inUnit_le {s : K} (hs : 0 < s) (x y : XFloat K) :
    decide (x.inUnit s ≤ y.inUnit s) = decide (x ≤ y) := by
  cases x <;> cases y <;> try rfl
  rename_i x y
  show decide (decide (x * s ≤ y * s) = true) = decide (decide (x ≤ y) = true)
  simp [mul_le_mul_iff_left₀ hs]

theorem inUnit_beq {s : K} (hs : 0 < s) (x y : XFloat K) :
    XFloat.beq (x.inUnit s) (y.inUnit s) = XFloat.beq x y := by
  cases x <;> cases y <;> try rfl
  rename_i x y
  show decide (x * s = y * s) = decide (x = y)
  simp [hs.ne']

omit [LinearOrder K] [IsStrictOrderedRing K] in
/-- What a sum of floats is, by what occurs in it. -/
theorem sum_spec (l : List (XFloat K)) : (l.sum = .nan ↔ .nan ∈ l ∨ (.inf true ∈ l ∧ .inf false ∈ l)) ∧
    ∀ n, l.sum = .inf n ↔ .nan ∉ l ∧ .inf n ∈ l ∧ .inf (!n) ∉ l := by
  have a1 : ∀ x y : K, (XFloat.fin x : XFloat K) + .fin y = .fin (x + y) := fun _ _ => rfl
  have a2 : ∀ (x : K) n, (XFloat.fin x : XFloat K) + .inf n = .inf n := fun _ _ => rfl
  have a3 : ∀ (x : K) n, (XFloat.inf n : XFloat K) + .fin x = .inf n := fun _ _ => rfl
  have a4 : ∀ n m, (XFloat.inf n : XFloat K) + .inf m = if n = m then .inf n else .nan := fun _ _ => rfl
  have a5 : ∀ x : XFloat K, (XFloat.nan : XFloat K) + x = .nan := fun x => by cases x <;> rfl
  have a6 : ∀ x : XFloat K, x + (XFloat.nan : XFloat K) = .nan := fun x => by cases x <;> rfl
  have a0 : ([] : List (XFloat K)).sum = .fin 0 := rfl
  induction l with
  | nil => rw [a0]; simp
  | cons x l ih =>
    obtain ⟨h1, h2⟩ := ih
    have ht := h2 true
    have hf := h2 false
    clear h2
    simp only [List.sum_cons, List.mem_cons, Bool.forall_bool]
    simp only [Bool.not_true, Bool.not_false] at ht hf ⊢
    rcases hl : l.sum with y | m | _
    all_goals rw [hl] at h1 ht hf
    all_goals rcases x with z | k | _
    all_goals try cases k
    all_goals try cases m
    all_goals simp [a1, a2, a3, a4, a5, a6] at h1 ht hf ⊢
    all_goals tauto

end XFloat

section
variable {K : Type _} [Field K] [LinearOrder K] [IsStrictOrderedRing K] [RPow K] [LawfulRPow K] {w : World K}

omit [LawfulRPow K] [IsStrictOrderedRing K] [RPow K] in
theorem ext_deq (w : World K) (a b : Dim) : w.ext.deq a b = w.deq a b := deq_map _ w a b
omit [LawfulRPow K] [IsStrictOrderedRing K] [RPow K] in
theorem ext_dne (w : World K) (a b : Dim) : w.ext.dne a b = w.dne a b := dne_map _ w a b

omit [LawfulRPow K] [IsStrictOrderedRing K] in
theorem ext_refUnits (w : World K) (d : Dim) : w.ext.refUnits d = (w.refUnits d).map XFloat.fin := by
  unfold World.refUnits
  have hu : ∀ u, w.ext.unitRef u = (w.unitRef u).map XFloat.fin := by
    intro u
    unfold World.unitRef World.ext
    rw [convRef_map]
    cases w.convRef u <;> rfl
  have : ∀ s : SQ K, d.foldl (refStep w.ext) (s.map XFloat.fin) = (d.foldl (refStep w) s).map XFloat.fin := by
    induction d with
    | nil => intro s; rfl
    | cons kv d ih =>
      intro s
      rw [List.foldl_cons, List.foldl_cons, ← ih]
      congr 1
      unfold World.refStep
      rw [hu]
      rfl
  exact this ⟨1, []⟩

theorem ext_convFactor (hw : WF w) {a b : Dim} (hb : DimOK w b) :
    w.ext.convFactor a b = (w.convFactor a b).map XFloat.fin := by
  rw [convFactor_def, convFactor_def, ext_refUnits, ext_refUnits, ext_deq]
  have hp := (refUnits_spec hw hb).1
  show (if w.deq (w.refUnits a).dim (w.refUnits b).dim then _ else _) = _
  by_cases h : w.deq (w.refUnits a).dim (w.refUnits b).dim = true
  · rw [if_pos h, if_pos h]
    show Except.ok (if (w.refUnits b).mag * 1 = 0 then _ else _) = _
    rw [if_neg (by rw [mul_one]; exact hp.ne')]
    rfl
  · rw [if_neg h, if_neg h]; rfl

theorem extPhys_scale {c : K} (hc : 0 < c) (m : NDArr (XFloat K)) :
    m.map (fun x => (XFloat.fin c : XFloat K) * x) = m.map (XFloat.inUnit c) :=
  NDArr.map_congr (fun x => XFloat.inUnit_mul hc x) _

/-- Everything there is to say about `rescale` with infinities and nan. -/
theorem ext_rescale (hw : WF w) {q : Quantity (XFloat K)} {d : Dim} (hq : DimOK w q.dim) (hd : DimOK w d)
    (hs : HashSafe w q.dim d) :
    (Returns (q.rescale w.ext d) ↔ Compatible w q.dim d) ∧
    (∀ e, q.rescale w.ext d = .error e → e = .valueError) ∧
    ∀ r, q.rescale w.ext d = .ok r → SameContent r.dim d ∧ DimOK w r.dim ∧ r.mag.shape = q.mag.shape ∧
      (∃ c : K, 0 < c ∧ r.mag = q.mag.map (XFloat.inUnit c)) ∧ ∀ v : Valuation w, v.extPhys r = v.extPhys q := by
  refine ⟨?_, fun e he => rescale_error he, fun r hr => ?_⟩
  · rw [← rescale_returns (q := (⟨⟨q.mag.shape, fun _ => 1⟩, q.dim⟩ : Quantity K)) hw hq hd hs]
    unfold Quantity.rescale
    rw [ext_deq]
    by_cases h : w.deq q.dim d = true
    · rw [if_pos h, if_pos h]; exact ⟨fun _ => returns_ok _, fun _ => returns_ok _⟩
    · rw [if_neg h, if_neg h, ext_convFactor hw hd]
      show Returns _ ↔ Returns (match w.convFactor q.dim d with | .ok cf => _ | .error .assertionError => _ | .error e => _)
      rcases hc : w.convFactor q.dim d with e | c
      · rw [convFactor_error hc]
        exact ⟨fun h => absurd h (not_returns_error _), fun h => absurd h (not_returns_error _)⟩
      · exact ⟨fun _ => returns_ok _, fun _ => returns_ok _⟩
  · unfold Quantity.rescale at hr
    rw [ext_deq] at hr
    by_cases h : w.deq q.dim d = true
    · rw [if_pos h] at hr
      cases hr
      exact ⟨hs.direct h, hq, rfl, ⟨1, one_pos, (NDArr.map_id' XFloat.inUnit_one _).symm⟩, fun v => rfl⟩
    · rw [if_neg h, ext_convFactor hw hd] at hr
      rcases hc : w.convFactor q.dim d with e | c
      · rw [hc, convFactor_error hc] at hr; cases hr
      · rw [hc] at hr
        cases hr
        obtain ⟨hpos, hsz⟩ := convFactor_ok hw hq hd hs.refs hc
        refine ⟨SameContent.refl _, hd, rfl, ⟨c, hpos, extPhys_scale hpos _⟩, fun v => ?_⟩
        show NDArr.map _ (NDArr.map _ q.mag) = NDArr.map _ q.mag
        rw [extPhys_scale hpos, NDArr.map_map]
        exact NDArr.map_congr (fun x => by rw [XFloat.inUnit_inUnit, hsz v]) _

end
end PQ
