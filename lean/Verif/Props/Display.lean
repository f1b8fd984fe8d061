import Verif.Lemmas.Display2
import Verif.Lemmas.Example

/-!
# C105–C108: `str`, `repr` and `format`
-/

namespace PQ

open Dict

variable {K : Type _}

/-! ## C105: `format` of a quantity -/

/-- C105: with an empty specification, `format(q)` — what an f-string shows — is `str(q)`, for scalars
and arrays alike and in both modes; with a specification, a scalar shows its number in that format and
then its units, as in `str`; an array refuses it. -/
theorem C105_format {T : NumText K} (hT : T.Lawful) (w : World K) (uni : Bool) (q : PQty K) :
    formatQty T w uni q [] = .ok (strQty T w uni q) ∧
    (∀ spec s, q.mag.shape = [] → T.item spec (q.mag.elem []) = .ok s →
      ∃ units, formatQty T w uni q spec = .ok (s ++ [' '] ++ units) ∧
        strQty T w uni q = T.str q.mag ++ [' '] ++ units) ∧
    (∀ spec e, q.mag.shape = [] → T.item spec (q.mag.elem []) = .error e →
      formatQty T w uni q spec = .error e) ∧
    ∀ spec, q.mag.shape ≠ [] → spec ≠ [] → formatQty T w uni q spec = .error .typeError := by
  refine ⟨?_, ?_, ?_, ?_⟩
  · unfold formatQty formatWith ndarrayFormat
    by_cases hs : q.mag.shape = []
    · rw [if_pos hs, hT.item]
      have : q.mag.Same (NDArr.scalar (q.mag.elem [])) := by
        refine ⟨hs, fun i hi => ?_⟩
        rw [hs] at hi
        cases i with
        | nil => rfl
        | cons a l => simp [NDArr.InB] at hi
      simp only [bind, Except.bind, hs, List.length_nil, ne_eq, not_true_eq_false, if_false]
      rw [← hT.same _ _ this]
      rfl
    · rw [if_neg hs, if_pos rfl]
      have : q.mag.shape.length ≠ 0 := fun h => hs (List.length_eq_zero_iff.1 h)
      simp only [bind, Except.bind, if_pos this]
  · intro spec s hs hi
    refine ⟨shownDim T w uni q.dim, ?_, ?_⟩
    · unfold formatQty formatWith ndarrayFormat
      rw [if_pos hs, hi]
      simp [bind, Except.bind, hs]
    · unfold strQty; simp
  · intro spec e hs hi
    unfold formatQty formatWith ndarrayFormat
    rw [if_pos hs, hi]; rfl
  · intro spec hs hp
    unfold formatQty formatWith ndarrayFormat
    rw [if_neg hs, if_neg hp]; rfl

/-! ## C106: `format` of units and of uncertain quantities -/

/-- C106 as stated is false for uncertain quantities: a scalar one is formatted without its
uncertainty, whatever it is, although `str` shows it. -/
theorem C106_uncertain_false (T : NumText K) (w : World K) (uni : Bool) (q : PUQty K) (unc : PQty K)
    (spec : List Char) (hs : q.mag.shape = []) :
    formatUnc T w uni { q with unc := unc } spec = formatUnc T w uni q spec ∧
    formatUnc T w uni q spec = formatQty T w uni ⟨q.mag, q.dim⟩ spec ∧
    (strQty T w false unc ≠ strQty T w false q.unc →
      strUnc T w false { q with unc := unc } ≠ strUnc T w false q) := by
  refine ⟨?_, ?_, ?_⟩
  · unfold formatUnc formatWith ndarrayFormat
    simp only [if_pos hs]
  · unfold formatUnc formatQty formatWith ndarrayFormat
    simp only [if_pos hs]
  · intro hne h
    apply hne
    unfold strUnc at h
    simp only [Bool.false_eq_true, if_false, List.cons_append, List.append_assoc, List.append_cancel_left_eq,
      List.cons.injEq, true_and] at h
    exact List.append_cancel_right h

/-- C106 as stated is false for every unit: `format(unit)` is `1.0 m`, `str(unit)` is `1 m (meter)`. -/
theorem C106_unit_false [One K] (T : NumText K) (w : World K) (uni : Bool) (u : UKey)
    (h1 : T.item [] 1 = .ok "1.0".toList) :
    ∃ s, formatUnit T w uni u [] = .ok s ∧ s ≠ strUnit w uni u := by
  refine ⟨"1.0".toList ++ ' ' :: shownDim T w uni (unitPDim u), ?_, ?_⟩
  · unfold formatUnit formatWith ndarrayFormat
    have e : (NDArr.scalar (1 : K)).elem [] = 1 := rfl
    rw [if_pos (show (NDArr.scalar (1 : K)).shape = [] from rfl), e, h1]
    rfl
  · rw [show "1.0".toList = ['1', '.', '0'] from rfl]
    unfold strUnit
    intro h
    split at h
    · simp only [List.cons_append, List.cons.injEq] at h
      exact absurd h.2.1 (by decide)
    · simp only [List.cons_append, List.cons.injEq] at h
      exact absurd h.2.1 (by decide)

/-- The example: `f"{pq.m}"` and `str(pq.m)`. -/
example (T : NumText ℝ) (h1 : T.item [] 1 = .ok "1.0".toList) :
    formatUnit T exWorld false uM [] = .ok "1.0 m".toList ∧
    strUnit exWorld false uM = "1 m (meter)".toList := by
  have hs : formatUnits exWorld T.float false [(uM, .int 1)] = "m".toList := by
    have : PyNum.val (.int 1) = 1 := by simp [PyNum.val]
    have sM : exWorld.unitSymbol false uM = "m".toList := by decide +kernel
    simp only [formatUnits, PDim.sorted, List.insertionSort_cons, List.insertionSort_nil,
      List.orderedInsert_nil, fmtNum, fmtDen, fmtItem, List.filter_cons, List.filter_nil, this]
    norm_num [joinStar, sM, this]
    intro h; exact absurd h (by decide)
  constructor
  · unfold formatUnit formatWith ndarrayFormat
    have e : (NDArr.scalar (1 : ℝ)).elem [] = 1 := rfl
    rw [if_pos (show (NDArr.scalar (1 : ℝ)).shape = [] from rfl), e, h1]
    have : shownDim T exWorld false (unitPDim uM) = "m".toList := hs
    rw [this]
    rfl
  · decide +kernel

/-! ## C107: the text of a quantity determines it -/

section
variable {T : NumText K} {w : World K} {uni : Bool}

/-- C107, partial. Full claim: two quantities with the same `str` have the same units and the same
printed numbers, in both modes. Missing: units that are not legible (`C69_false_ten_hundred`). -/
theorem C107_str_partial (q r : PQty K) (hl : Legible w T.float uni q.dim r.dim)
    (hq : Dict.Nodup q.dim) (hr : Dict.Nodup r.dim) (h : strQty T w uni q = strQty T w uni r) :
    T.str q.mag = T.str r.mag ∧ SameContent q.dim.toDim r.dim.toDim := by
  unfold strQty at h
  obtain ⟨h1, h2⟩ := split_last (fun hc => hl.dim_chars _ hc (by decide))
    (fun hc => hl.symm.dim_chars _ hc (by decide)) h
  exact ⟨h1, hl.dim_inj hq hr h2⟩

/-- C107, partial: the same for `repr`, whose numbers contain no asterisk. -/
theorem C107_repr_partial (q r : PQty K) (hl : Legible w T.float uni q.dim r.dim)
    (hq : Dict.Nodup q.dim) (hr : Dict.Nodup r.dim) (mq : '*' ∉ T.repr q.mag) (mr : '*' ∉ T.repr r.mag)
    (h : reprQty T w uni q = reprQty T w uni r) :
    T.repr q.mag = T.repr r.mag ∧ SameContent q.dim.toDim r.dim.toDim := by
  unfold reprQty reprQuantity at h
  rw [show " * ".toList = [' ', '*', ' '] from rfl] at h
  have split : ∀ a b : List Char, a ++ [' ', '*', ' '] ++ b = (a ++ [' ']) ++ '*' :: (' ' :: b) := by
    intro a b; simp
  rw [split, split] at h
  have no : ∀ {a : List Char}, '*' ∉ a → '*' ∉ a ++ [' '] := by
    intro a ha hc
    rcases List.mem_append.1 hc with hc | hc
    · exact ha hc
    · revert hc; decide
  obtain ⟨h1, h2⟩ := split_first (no mq) (no mr) h
  exact ⟨List.append_cancel_right h1, hl.string_inj hq hr (List.cons.inj h2).2⟩

/-- The text of an uncertain quantity: the value and the uncertainty, both with their units. -/
theorem strUnc_text (q : PUQty K) {e e' : PDim} (hl : Legible w T.float uni q.dim e)
    (hl' : Legible w T.float uni q.unc.dim e') (hm : NumberText (T.str q.mag))
    (hu : NumberText (T.str q.unc.mag)) (h1 : ¬ "sigma".toList <+: shownDim T w uni q.dim)
    (h2 : ¬ "sigma".toList <+: shownDim T w uni q.unc.dim) :
    strUnc T w uni q = T.str q.mag ++ ' ' :: shownDim T w uni q.dim ++ '\n' ::
      ((if uni then ['±'] else ['+', '/', '-']) ++
        (T.str q.unc.mag ++ ' ' :: shownDim T w uni q.unc.dim ++
          (if uni then " (1σ)".toList else " (1 sigma)".toList))) := by
  unfold strUnc strQty
  cases uni with
  | false =>
    simp only [Bool.false_eq_true, if_false, List.cons_append, List.append_assoc, List.nil_append]
  | true =>
    simp only [if_true]
    set D := shownDim T w true q.dim with hD
    set E := shownDim T w true q.unc.dim with hE
    have dout : ∀ c ∈ D, ¬ Outside c := hl.dim_chars
    have eout : ∀ c ∈ E, ¬ Outside c := hl'.dim_chars
    have plusD : '+' ∉ D := fun hc => dout _ hc (by decide)
    have plusE : '+' ∉ E := fun hc => eout _ hc (by decide)
    have spD : ' ' ∉ D := fun hc => dout _ hc (by decide)
    have spE : ' ' ∉ E := fun hc => eout _ hc (by decide)
    have plusT : '+' ∉ " (1 sigma)".toList := by decide
    have r1 : replaceStr ['+', '/', '-'] ['±'] (T.str q.mag ++ ' ' :: D ++ '\n' :: '+' :: '/' :: '-' ::
        (T.str q.unc.mag ++ ' ' :: E) ++ " (1 sigma)".toList) =
        T.str q.mag ++ (' ' :: D ++ ('\n' :: '±' :: (T.str q.unc.mag ++ (' ' :: E ++ " (1 sigma)".toList)))) := by
      have e : T.str q.mag ++ ' ' :: D ++ '\n' :: '+' :: '/' :: '-' ::
          (T.str q.unc.mag ++ ' ' :: E) ++ " (1 sigma)".toList =
          T.str q.mag ++ ((' ' :: D ++ ['\n']) ++ (['+', '/', '-'] ++
            (T.str q.unc.mag ++ (' ' :: E ++ " (1 sigma)".toList)))) := by
        simp only [List.append_assoc, List.cons_append, List.nil_append]
      rw [e, replaceStr_skip2 hm.1 (by simp), replaceStr_skip1, replaceStr_hit (by simp),
        replaceStr_skip2 hu.1 (by simp)]
      · have : '+' ∉ ' ' :: E ++ " (1 sigma)".toList := by
          intro hc
          rcases List.mem_append.1 hc with hc | hc
          · rcases List.mem_cons.1 hc with hc | hc
            · revert hc; decide
            · exact plusE hc
          · exact plusT hc
        have := replaceStr_skip1 (p := ['/', '-']) (rep := ['±']) (b := []) this
        rw [List.append_nil, replaceStr_nil, List.append_nil] at this
        rw [this]
        simp only [List.append_assoc, List.cons_append, List.nil_append]
      · intro hc
        rcases List.mem_append.1 hc with hc | hc
        · rcases List.mem_cons.1 hc with hc | hc
          · revert hc; decide
          · exact plusD hc
        · revert hc; decide
    rw [r1]
    have sig : " sigma".toList = ' ' :: 's' :: "igma".toList := rfl
    have notp : ∀ {X y : List Char} {c : Char}, ¬ "sigma".toList <+: X → c ∉ "sigma".toList →
        ¬ " sigma".toList <+: ' ' :: (X ++ c :: y) := by
      intro X y c hX hc hp
      rw [show " sigma".toList = ' ' :: "sigma".toList from rfl, List.cons_prefix_cons] at hp
      exact hX (prefix_before hc hp.2)
    rw [sig, replaceStr_skip2 hm.2.2 (by simp), ← sig]
    rw [List.cons_append, replaceStr_step (notp h1 (by decide))]
    rw [sig, replaceStr_skip1 (a := D) spD]
    have cut : ('\n' :: '±' :: (T.str q.unc.mag ++ (' ' :: E ++ " (1 sigma)".toList))) =
        ['\n', '±'] ++ (T.str q.unc.mag ++ (' ' :: E ++ " (1 sigma)".toList)) := rfl
    rw [cut, replaceStr_skip1 (by decide), replaceStr_skip2 hu.2.2 (by simp), ← sig,
      show " (1 sigma)".toList = ' ' :: "(1 sigma)".toList from rfl,
      show ∀ y : List Char, ' ' :: E ++ y = ' ' :: (E ++ y) from fun y => rfl,
      replaceStr_step (notp h2 (by decide)), sig, replaceStr_skip1 (a := E) spE, ← sig]
    have last : replaceStr " sigma".toList ['σ'] (' ' :: "(1 sigma)".toList) = " (1σ)".toList := by
      rw [replaceStr_step (by decide), show "(1 sigma)".toList = ['(', '1'] ++ (" sigma".toList ++ [')']) from rfl,
        sig, replaceStr_skip1 (by decide), ← sig, replaceStr_hit (by decide), replaceStr_step (by decide),
        replaceStr_nil]
      decide
    rw [last]
    simp only [List.append_assoc, List.cons_append, List.nil_append]

/-- C107, partial: two uncertain quantities with the same `str` have the same units, the same printed
values and the same printed uncertainties. The uncertainty has the units of the value. -/
theorem C107_uncertain_partial (q r : PUQty K) (hl : Legible w T.float uni q.dim r.dim)
    (hq : Dict.Nodup q.dim) (hr : Dict.Nodup r.dim) (uq : q.unc.dim = q.dim) (ur : r.unc.dim = r.dim)
    (mq : NumberText (T.str q.mag)) (mr : NumberText (T.str r.mag)) (nq : NumberText (T.str q.unc.mag))
    (nr : NumberText (T.str r.unc.mag)) (sq : ¬ "sigma".toList <+: shownDim T w uni q.dim)
    (sr : ¬ "sigma".toList <+: shownDim T w uni r.dim)
    (h : strUnc T w uni q = strUnc T w uni r) :
    T.str q.mag = T.str r.mag ∧ T.str q.unc.mag = T.str r.unc.mag ∧
      SameContent q.dim.toDim r.dim.toDim := by
  rw [strUnc_text q hl (by rw [uq]; exact hl) mq nq sq (by rwa [uq]),
    strUnc_text r hl.symm (by rw [ur]; exact hl.symm) mr nr sr (by rwa [ur]), uq, ur] at h
  have hD : shownDim T w uni q.dim = shownDim T w uni r.dim ∧
      T.str q.mag ++ ' ' :: shownDim T w uni q.dim ++ '\n' ::
        ((if uni then ['±'] else ['+', '/', '-']) ++ T.str q.unc.mag) =
      T.str r.mag ++ ' ' :: shownDim T w uni r.dim ++ '\n' ::
        ((if uni then ['±'] else ['+', '/', '-']) ++ T.str r.unc.mag) := by
    have assoc : ∀ a b c e f : List Char, a ++ '\n' :: (b ++ (c ++ ' ' :: e ++ f)) =
        ((a ++ '\n' :: (b ++ c)) ++ ' ' :: e) ++ f := by
      intro a b c e f; simp
    rw [assoc, assoc] at h
    have h := List.append_cancel_right h
    obtain ⟨h1, h2⟩ := split_last (fun hc => hl.dim_chars _ hc (by decide))
      (fun hc => hl.symm.dim_chars _ hc (by decide)) h
    exact ⟨h2, h1⟩
  obtain ⟨hD, h⟩ := hD
  rw [← hD] at h
  have arr : ∀ a b c e : List Char, a ++ ' ' :: b ++ '\n' :: (c ++ e) = a ++ ((' ' :: b ++ '\n' :: c) ++ e) := by
    intro a b c e; simp
  rw [arr, arr] at h
  have fin : T.str q.mag = T.str r.mag ∧ T.str q.unc.mag = T.str r.unc.mag := by
    cases uni with
    | true => exact split_around (m := '±') mq.2.1 mr.2.1 (by simp) h
    | false => exact split_around (m := '/') mq.1 mr.1 (by simp) h
  exact ⟨fin.1, fin.2, hl.dim_inj hq hr hD⟩

/-- C107, partial: the same for `repr` of an uncertain quantity. -/
theorem C107_uncertain_repr_partial (q r : PUQty K) (hT : T.PrefixFree)
    (hl : Legible w T.float uni q.dim r.dim) (hq : Dict.Nodup q.dim) (hr : Dict.Nodup r.dim)
    (h : reprUnc T w uni q = reprUnc T w uni r) :
    T.repr q.mag = T.repr r.mag ∧ T.repr q.unc.mag = T.repr r.unc.mag ∧
      SameContent q.dim.toDim r.dim.toDim := by
  unfold reprUnc at h
  simp only [List.append_assoc, List.append_cancel_left_eq] at h
  have hm : T.repr q.mag = T.repr r.mag := by
    rcases List.prefix_or_prefix_of_prefix (List.prefix_append (T.repr q.mag) _)
      (h ▸ List.prefix_append (T.repr r.mag) _) with hp | hp
    · exact hT _ _ hp
    · exact (hT _ _ hp).symm
  rw [hm] at h
  simp only [List.append_cancel_left_eq] at h
  rw [show ", ".toList = [',', ' '] from rfl] at h
  simp only [List.cons_append] at h
  obtain ⟨h1, h2⟩ := split_first (fun hc => hl.string_chars _ hc (by decide))
    (fun hc => hl.symm.string_chars _ hc (by decide)) h
  simp only [List.nil_append, List.cons.injEq, true_and] at h2
  exact ⟨hm, List.append_cancel_right h2, hl.string_inj hq hr h1⟩

theorem joinComma_inj : ∀ {l l' : List (List Char)}, (∀ s ∈ l, s ≠ [] ∧ ',' ∉ s) →
    (∀ s ∈ l', s ≠ [] ∧ ',' ∉ s) → joinComma l = joinComma l' → l = l'
  | [], [], _, _, _ => rfl
  | [], [s], _, h', h => absurd h.symm (h' s (by simp)).1
  | [s], [], h', _, h => absurd h (h' s (by simp)).1
  | [], s :: t :: l, _, h', h => by
    have h : [] = s ++ ", ".toList ++ joinComma (t :: l) := h
    exact absurd (List.append_eq_nil_iff.1 (List.append_eq_nil_iff.1 h.symm).1).1 (h' s (by simp)).1
  | s :: t :: l, [], h', _, h => by
    have h : s ++ ", ".toList ++ joinComma (t :: l) = [] := h
    exact absurd (List.append_eq_nil_iff.1 (List.append_eq_nil_iff.1 h).1).1 (h' s (by simp)).1
  | [s], [t], _, _, h => by rw [show s = t from h]
  | [s], t :: u :: l, h1, _, h => by
    exfalso
    apply (h1 s (by simp)).2
    have : s = t ++ ", ".toList ++ joinComma (u :: l) := h
    rw [this, show ", ".toList = [',', ' '] from rfl]; simp
  | t :: u :: l, [s], _, h1, h => by
    exfalso
    apply (h1 s (by simp)).2
    have : t ++ ", ".toList ++ joinComma (u :: l) = s := h
    rw [← this, show ", ".toList = [',', ' '] from rfl]; simp
  | s :: s' :: l, t :: t' :: l', h1, h2, h => by
    have h : s ++ ", ".toList ++ joinComma (s' :: l) = t ++ ", ".toList ++ joinComma (t' :: l') := h
    rw [show ", ".toList = [',', ' '] from rfl] at h
    simp only [List.append_assoc, List.cons_append, List.nil_append] at h
    obtain ⟨e1, e2⟩ := split_first (h1 s (by simp)).2 (h2 t (by simp)).2 h
    have := joinComma_inj (fun x hx => h1 x (List.mem_cons_of_mem _ hx))
      (fun x hx => h2 x (List.mem_cons_of_mem _ hx)) (List.cons.inj e2).2
    rw [e1, this]

/-- C107, partial: two dimensionalities with the same `repr` have the same units with the same
exponents in the same order, if the units' names are distinct and contain no commas or colons and the
exponents print differently when they are different. -/
theorem C107_dimensionality_partial (d e : PDim)
    (hn : ∀ kv ∈ d ++ e, ∀ c ∈ World.unitName uni kv.1, c ≠ ',' ∧ c ≠ ':')
    (hd : ∀ a ∈ d ++ e, ∀ b ∈ d ++ e, World.unitName uni a.1 = World.unitName uni b.1 → a.1 = b.1)
    (hx : ∀ kv ∈ d ++ e, ',' ∉ kv.2.str T.float)
    (hv : ∀ a ∈ d ++ e, ∀ b ∈ d ++ e, a.2.str T.float = b.2.str T.float → a.2.val = b.2.val)
    (h : reprDim T uni d = reprDim T uni e) : d.toDim = e.toDim := by
  unfold reprDim at h
  have h := List.append_cancel_left (List.append_cancel_right h)
  have good : ∀ kv ∈ d ++ e, ∀ s, s = World.unitName uni kv.1 ++ ": ".toList ++ kv.2.str T.float →
      s ≠ [] ∧ ',' ∉ s := by
    intro kv hk s hs
    rw [show ": ".toList = [':', ' '] from rfl] at hs
    subst hs
    refine ⟨by simp, fun hc => ?_⟩
    rcases List.mem_append.1 hc with hc | hc
    · rcases List.mem_append.1 hc with hc | hc
      · exact (hn kv hk _ hc).1 rfl
      · revert hc; decide
    · exact hx kv hk hc
  have hl := joinComma_inj
    (fun s hs => by obtain ⟨kv, hk, e⟩ := List.mem_map.1 hs; exact good kv (List.mem_append_left _ hk) s e.symm)
    (fun s hs => by obtain ⟨kv, hk, e⟩ := List.mem_map.1 hs; exact good kv (List.mem_append_right _ hk) s e.symm) h
  have key : ∀ {a b : PDim}, (∀ x ∈ a, x ∈ d ++ e) → (∀ x ∈ b, x ∈ d ++ e) →
      (a.map fun kv => World.unitName uni kv.1 ++ ": ".toList ++ kv.2.str T.float) =
      (b.map fun kv => World.unitName uni kv.1 ++ ": ".toList ++ kv.2.str T.float) → a.toDim = b.toDim := by
    intro a
    induction a with
    | nil => intro b _ _ he; cases b with
      | nil => rfl
      | cons y b => simp at he
    | cons x a ih =>
      intro b ha hb he
      cases b with
      | nil => simp at he
      | cons y b =>
        simp only [List.map_cons, List.cons.injEq] at he
        have mx := ha x (by simp)
        have my := hb y (by simp)
        obtain ⟨h1, h2⟩ := he
        rw [show ": ".toList = [':', ' '] from rfl] at h1
        simp only [List.append_assoc, List.cons_append, List.nil_append] at h1
        obtain ⟨e1, e2⟩ := split_first (fun hc => (hn x mx _ hc).2 rfl) (fun hc => (hn y my _ hc).2 rfl) h1
        have r := ih (fun z hz => ha z (by simp [hz])) (fun z hz => hb z (by simp [hz])) h2
        have u := hd x mx y my e1
        have v := hv x mx y my (List.cons.inj e2).2
        unfold PDim.toDim at r ⊢
        rw [List.map_cons, List.map_cons, r, u, v]
  exact key (fun x hx => List.mem_append_left _ hx) (fun x hx => List.mem_append_right _ hx) hl

/-- C107 as stated is false when a unit's symbol begins with `sigma`: in Unicode mode `str` of an
uncertain quantity replaces that too, so `5.0 sigma` with uncertainty 0.1 prints as `5.0σ` and the unit
no longer shows. -/
theorem C107_sigma_false (q : PUQty K) (hm : NumberText (T.str q.mag)) (hu : NumberText (T.str q.unc.mag))
    (hq : shownDim T w true q.dim = "sigma".toList) (hq' : shownDim T w true q.unc.dim = "sigma".toList) :
    strUnc T w true q = T.str q.mag ++ "σ\n±".toList ++ T.str q.unc.mag ++ "σ (1σ)".toList ∧
    strQty T w true ⟨q.mag, q.dim⟩ = T.str q.mag ++ " sigma".toList := by
  refine ⟨?_, by unfold strQty; rw [hq]; rfl⟩
  unfold strUnc strQty
  simp only [if_true]
  rw [hq, hq']
  have sig : " sigma".toList = ' ' :: 's' :: "igma".toList := rfl
  have e : T.str q.mag ++ ' ' :: "sigma".toList ++ '\n' :: '+' :: '/' :: '-' ::
      (T.str q.unc.mag ++ ' ' :: "sigma".toList) ++ " (1 sigma)".toList =
      T.str q.mag ++ (" sigma\n".toList ++ (['+', '/', '-'] ++
        (T.str q.unc.mag ++ " sigma (1 sigma)".toList))) := by
    rw [show " sigma\n".toList = ' ' :: "sigma".toList ++ ['\n'] from rfl,
      show " sigma (1 sigma)".toList = ' ' :: "sigma".toList ++ " (1 sigma)".toList from rfl]
    simp only [List.append_assoc, List.cons_append, List.nil_append]
  have tail1 : replaceStr ['+', '/', '-'] ['±'] " sigma (1 sigma)".toList = " sigma (1 sigma)".toList := by
    have := replaceStr_skip1 (c := '+') (p := ['/', '-']) (rep := ['±']) (a := " sigma (1 sigma)".toList)
      (b := []) (by decide)
    rwa [List.append_nil, replaceStr_nil, List.append_nil] at this
  have last : replaceStr " sigma".toList ['σ'] " (1 sigma)".toList = " (1σ)".toList := by
    rw [show " (1 sigma)".toList = ' ' :: "(1 sigma)".toList from rfl,
      replaceStr_step (by decide), show "(1 sigma)".toList = ['(', '1'] ++ (" sigma".toList ++ [')']) from rfl,
      sig, replaceStr_skip1 (by decide), ← sig, replaceStr_hit (by decide), replaceStr_step (by decide),
      replaceStr_nil]
    decide
  have hd : ∀ (c : Char) (y : List Char), c ≠ ' ' → (" sigma\n".toList ++ y).head? ≠ some c := by
    intro c y hc h
    rw [show " sigma\n".toList = ' ' :: "sigma\n".toList from rfl] at h
    exact hc (by simpa using h.symm)
  rw [e, replaceStr_skip2 hm.1 (hd _ _ (by decide)), replaceStr_skip1 (by decide), replaceStr_hit (by simp),
    replaceStr_skip2 hu.1 (by decide), tail1]
  rw [sig, replaceStr_skip2 hm.2.2 (hd _ _ (by decide)), ← sig,
    show " sigma\n".toList = " sigma".toList ++ ['\n'] from rfl, List.append_assoc,
    replaceStr_hit (by decide), sig, ← List.append_assoc ['\n'],
    replaceStr_skip1 (a := ['\n'] ++ ['±']) (by decide), replaceStr_skip2 hu.2.2 (by decide), ← sig,
    show " sigma (1 sigma)".toList = " sigma".toList ++ " (1 sigma)".toList from rfl,
    replaceStr_hit (by decide), last,
    show "σ\n±".toList = ['σ'] ++ (['\n'] ++ ['±']) from rfl,
    show "σ (1σ)".toList = ['σ'] ++ " (1σ)".toList from rfl]
  simp only [List.append_assoc]

end

/-! ## C108: the text of a unit determines it -/

section
variable {T : NumText K} {w : World K}

theorem pyName_inj {a b : UClass} (h : a.pyName = b.pyName) : a = b := by
  cases a <;> cases b <;> first | rfl | (revert h; decide)

theorem pyName_chars (a : UClass) : '(' ∉ a.pyName ∧ a.pyName.head? ≠ some '1' := by
  cases a <;> exact ⟨by decide, by decide⟩

theorem unitName_ordinary {u : UKey} (hu : u.cls ≠ .compound) (uni : Bool) :
    World.unitName uni u = u.name.toList := by
  unfold World.unitName; rw [if_neg hu]

/-- C108: two registered units with ordinary names and the same `str` are the same unit, in both
modes. -/
theorem C108_str (uni : Bool) (u v : UKey) (hu : u.cls ≠ .compound) (hv : v.cls ≠ .compound)
    (nu : OrdinaryName u.name.toList) (nv : OrdinaryName v.name.toList)
    (su : '(' ∉ printedSymbol w uni u) (sv : '(' ∉ printedSymbol w uni v)
    (ru : get? w.registry u.name = some u) (rv : get? w.registry v.name = some v)
    (h : strUnit w uni u = strUnit w uni v) : u = v := by
  have names : u.name = v.name → u = v := by
    intro e
    rw [e, rv] at ru
    exact (Option.some.inj ru).symm
  have pu : '(' ∉ u.name.toList := fun hc => (nu.2 _ hc).1 rfl
  have pv : '(' ∉ v.name.toList := fun hc => (nv.2 _ hc).1 rfl
  have su' : '(' ∉ (if uni then w.unitUSymbol uni u else w.unitSymbol uni u) := su
  have sv' : '(' ∉ (if uni then w.unitUSymbol uni v else w.unitSymbol uni v) := sv
  unfold strUnit at h
  rw [unitName_ordinary hu, unitName_ordinary hv] at h
  apply names
  apply String.toList_inj.1
  have two : ∀ a b c e : List Char, '(' ∉ a → '(' ∉ c →
      '1' :: ' ' :: a ++ ' ' :: '(' :: b ++ [')'] = '1' :: ' ' :: c ++ ' ' :: '(' :: e ++ [')'] → b = e := by
    intro a b c e ha hc he
    simp only [List.cons_append, List.cons.injEq, true_and, List.append_assoc] at he
    have re : ∀ x y : List Char, x ++ ' ' :: '(' :: y = (x ++ [' ']) ++ '(' :: y := by intro x y; simp
    rw [re, re] at he
    have no : ∀ {x : List Char}, '(' ∉ x → '(' ∉ x ++ [' '] := by
      intro x hx hh
      rcases List.mem_append.1 hh with hh | hh
      · exact hx hh
      · revert hh; decide
    exact List.append_cancel_right (split_first (no ha) (no hc) he).2
  have one : ∀ a b c : List Char, '(' ∉ c → '1' :: ' ' :: a ++ ' ' :: '(' :: b ++ [')'] ≠ '1' :: ' ' :: c := by
    intro a b c hc he
    simp only [List.cons_append, List.cons.injEq, true_and, List.append_assoc] at he
    apply hc
    rw [← he]; simp
  by_cases c1 : w.unitUSymbol uni u ≠ u.name.toList <;> by_cases c2 : w.unitUSymbol uni v ≠ v.name.toList
  · rw [if_pos c1, if_pos c2] at h; exact two _ _ _ _ su' sv' h
  · rw [if_pos c1, if_neg c2] at h; exact absurd h (one _ _ _ pv)
  · rw [if_neg c1, if_pos c2] at h; exact absurd h.symm (one _ _ _ pu)
  · rw [if_neg c1, if_neg c2] at h; exact (List.cons.inj (List.cons.inj h).2).2

/-- C108: two units with ordinary names and the same `repr` have the same class and name: they are the
same unit, registered or not. Compound units have any name; their `repr` is compared in plain mode. -/
theorem C108_repr [Zero K] [DecidableEq K] (uni : Bool) (u v : UKey) (ru rv : Option (K × PDim))
    (hT : ∀ s, OrdinaryName s → T.quoted s = '\'' :: s ++ ['\''])
    (hu : (u.cls ≠ .compound ∧ OrdinaryName u.name.toList) ∨ (u.cls = .compound ∧ uni = false))
    (hv : (v.cls ≠ .compound ∧ OrdinaryName v.name.toList) ∨ (v.cls = .compound ∧ uni = false))
    (h : reprUnit T w uni ru u = reprUnit T w uni rv v) : u = v := by
  have ord : ∀ (x : UKey) (r : Option (K × PDim)), OrdinaryName x.name.toList → x.cls ≠ .compound →
      ∃ t, reprUnit T w uni r x = x.cls.pyName ++ '(' :: '\'' :: (x.name.toList ++ '\'' :: t) := by
    intro x r hn hc
    refine ⟨reprDefinition T w uni r ++ (reprSymbol T ((w.info x).bind UnitInfo.symbol) ++
      ((if uni then reprSymbol T ((w.info x).bind UnitInfo.uSymbol) else []) ++ [')'])), ?_⟩
    unfold reprUnit
    rw [if_neg hc, unitName_ordinary hc, hT _ hn]
    simp only [List.append_assoc, List.cons_append, List.nil_append]
  have cmp : ∀ (x : UKey) (r : Option (K × PDim)), x.cls = .compound →
      reprUnit T w uni r x = '1' :: ' ' :: World.unitName uni x := by
    intro x r hc; unfold reprUnit; rw [if_pos hc]
  have ext : ∀ {x y : UKey}, x.cls = y.cls → x.name.toList = y.name.toList → x = y := by
    rintro ⟨a, s⟩ ⟨b, t⟩ h1 h2
    simp only at h1 h2
    rw [h1, String.toList_inj.1 h2]
  have diff : ∀ {x : UKey} {t t' : List Char}, x.cls.pyName ++ t ≠ '1' :: t' := by
    intro x t t' e
    apply (pyName_chars x.cls).2
    have hne : x.cls.pyName ≠ [] := by cases x.cls <;> decide
    obtain ⟨c, l, hl⟩ := List.exists_cons_of_ne_nil hne
    rw [hl] at e ⊢
    simp only [List.cons_append, List.cons.injEq] at e
    simp [e.1]
  rcases hu with ⟨cu, nu⟩ | ⟨cu, hu⟩ <;> rcases hv with ⟨cv, nv⟩ | ⟨cv, hv⟩
  · obtain ⟨t, e1⟩ := ord u ru nu cu
    obtain ⟨t', e2⟩ := ord v rv nv cv
    rw [e1, e2] at h
    obtain ⟨h1, h2⟩ := split_first (pyName_chars _).1 (pyName_chars _).1 h
    obtain ⟨h3, -⟩ := split_first (fun hc => (nu.2 _ hc).2.2.1 rfl) (fun hc => (nv.2 _ hc).2.2.1 rfl)
      (List.cons.inj h2).2
    exact ext (pyName_inj h1) h3
  · obtain ⟨t, e1⟩ := ord u ru nu cu
    rw [e1, cmp v rv cv] at h
    exact absurd h diff
  · obtain ⟨t, e1⟩ := ord v rv nv cv
    rw [e1, cmp u ru cu] at h
    exact absurd h.symm diff
  · rw [cmp u ru cu, cmp v rv cv, hu] at h
    have h := (List.cons.inj (List.cons.inj h).2).2
    unfold World.unitName at h
    rw [if_pos cu, if_pos cv] at h
    simp only [Bool.false_eq_true, if_false, List.cons_append, List.cons.injEq, true_and] at h
    exact ext (cu.trans cv.symm) (List.append_cancel_right h)

/-- Texts for the examples: every array is printed as `1000.0`. -/
def exNumText : NumText ℝ :=
  ⟨fun _ => "array(1000.)".toList, fun _ => "1000.0".toList, fun _ _ => .ok "1000.0".toList,
    fun s => '\'' :: s ++ ['\''], exFr⟩

example : exNumText.Lawful ∧ exNumText.PrefixFree ∧ NumberText (exNumText.str (NDArr.scalar 1000)) ∧
    '*' ∉ exNumText.repr (NDArr.scalar 1000) :=
  ⟨⟨fun _ _ _ => rfl, fun _ => rfl⟩, fun _ _ _ => rfl, ⟨by decide, by decide, by decide⟩, by decide⟩

/-- The hypotheses are met: the metre and the kilometre of the example world. -/
example : strUnit exWorld false uM = "1 m (meter)".toList ∧
    strUnit exWorld true uKm = "1 km (kilometer)".toList ∧
    OrdinaryName uM.name.toList ∧ '(' ∉ printedSymbol exWorld true uKm ∧
    get? exWorld.registry uKm.name = some uKm ∧
    reprUnit exNumText exWorld false (some (1000, [])) uKm =
      "UnitLength('kilometer', 1000.0 * dimensionless, 'km')".toList := by
  refine ⟨by decide +kernel, by decide +kernel, ⟨by decide, by decide⟩, by decide +kernel,
    by decide +kernel, ?_⟩
  have e : reprDefinition exNumText exWorld false (some ((1000 : ℝ), [])) =
      ", 1000.0 * dimensionless".toList := by
    unfold reprDefinition
    simp only
    rw [if_neg (by norm_num)]
    rfl
  unfold reprUnit
  rw [e]
  decide +kernel

/-- A legible pair with texts in both modes. -/
theorem exLegible (uni : Bool) : Legible exWorld exFr uni
    [(uHz, .int (-1)), (uKm, .int 2), (uM, .int 1), (uS, .int (-3))] [(uM, .int 2)] := by
  have sKm : ∀ b, printedSymbol exWorld b uKm = "km".toList := by decide +kernel
  have sM : ∀ b, printedSymbol exWorld b uM = "m".toList := by decide +kernel
  have sS : ∀ b, printedSymbol exWorld b uS = "s".toList := by decide +kernel
  have sHz : ∀ b, printedSymbol exWorld b uHz = "Hz".toList := by decide +kernel
  refine ⟨?_, ?_, ?_⟩
  · intro kv hk
    simp only [List.cons_append, List.nil_append, List.mem_cons, List.not_mem_nil, or_false] at hk
    rcases hk with rfl | rfl | rfl | rfl | rfl
    · rw [sHz]; exact ⟨by decide, by decide, by decide, by decide⟩
    · rw [sKm]; exact ⟨by decide, by decide, by decide, by decide⟩
    · rw [sM]; exact ⟨by decide, by decide, by decide, by decide⟩
    · rw [sS]; exact ⟨by decide, by decide, by decide, by decide⟩
    · rw [sM]; exact ⟨by decide, by decide, by decide, by decide⟩
  · intro kv hk
    rcases List.mem_append.1 hk with hk | hk
    · exact exTypesettable.exp kv hk
    · rw [List.mem_singleton.1 hk]
      exact ⟨.inl ⟨by simp [PyNum.val], by simp [FaithfulExp]⟩, by simp [PyNum.val]⟩
  · intro a ha b hb h
    simp only [List.cons_append, List.nil_append, List.mem_cons, List.not_mem_nil, or_false] at ha hb
    rcases ha with rfl | rfl | rfl | rfl | rfl <;> rcases hb with rfl | rfl | rfl | rfl | rfl <;>
      first
      | rfl
      | (simp only [sKm, sM, sS, sHz] at h; exact absurd h (by decide))

/-- What they look like. -/
example : strUnc exNumText exWorld true ⟨NDArr.scalar 1000, [(uM, .int 2), (uS, .int (-1))],
      ⟨NDArr.scalar 1000, [(uM, .int 2), (uS, .int (-1))]⟩⟩ = "1000.0 m²/s\n±1000.0 m²/s (1σ)".toList ∧
    strUnc exNumText exWorld false ⟨NDArr.scalar 1000, [(uM, .int 2), (uS, .int (-1))],
      ⟨NDArr.scalar 1000, [(uM, .int 2), (uS, .int (-1))]⟩⟩ =
      "1000.0 m**2/s\n+/-1000.0 m**2/s (1 sigma)".toList ∧
    reprQty exNumText exWorld false ⟨NDArr.scalar 1000, [(uM, .int 2)]⟩ = "array(1000.) * m**2".toList :=
  ⟨by decide +kernel, by decide +kernel, by decide +kernel⟩

/-- `repr` of a dimensionality; the hypotheses of `C107_dimensionality_partial` hold. -/
example : reprDim exNumText false [(uM, .int 2), (uS, .int (-1))] =
      "Dimensionality({meter: 2, second: -1})".toList ∧
    (∀ kv ∈ ([(uM, .int 2), (uS, .int (-1))] : PDim) ++ [(uM, .int 12)],
      (∀ c ∈ World.unitName false kv.1, c ≠ ',' ∧ c ≠ ':') ∧ ',' ∉ kv.2.str exNumText.float) :=
  ⟨by decide +kernel, by decide +kernel⟩

/-- A world with a unit called `sigma`. -/
example : (((Op.newUnit { cls := .unitQuantity, name := "sigma", definition := .none } : Op ℝ).run
    exWorld).2).unitUSymbol true ⟨.unitQuantity, "sigma"⟩ = "sigma".toList := by decide +kernel

end

end PQ
