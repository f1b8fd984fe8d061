import Verif.Lemmas.Display

/-!
# Printed quantities: what the text determines
-/

namespace PQ

open Dict

variable {K : Type _}

/-! ## From the text of the units to the units -/

theorem ordinary_plain {s : List Char} (h : OrdinarySymbol s) : PlainSymbol s :=
  ⟨h.1, fun hc => h.2.1 _ hc (by decide), fun hc => h.2.1 _ hc (by decide), fun hc =>
    h.2.1 _ (List.mem_of_mem_head? hc) (by decide)⟩

section
variable {w : World K} {fr : ℚ → List Char} {uni : Bool} {d e : PDim}

theorem Legible.left (h : Legible w fr uni d e) : Typesettable (symbolOf w uni) fr d :=
  ⟨fun kv hk => ordinary_plain (h.symbol kv (List.mem_append_left _ hk)),
    fun kv hk => h.exp kv (List.mem_append_left _ hk)⟩

theorem Legible.symm (h : Legible w fr uni d e) : Legible w fr uni e d := by
  have m : ∀ {x : UKey × PyNum}, x ∈ e ++ d → x ∈ d ++ e := by
    intro x hx; rw [List.mem_append] at hx ⊢; exact hx.symm
  exact ⟨fun kv hk => h.symbol kv (m hk), fun kv hk => h.exp kv (m hk),
    fun a ha b hb => h.distinct a (m ha) b (m hb)⟩

theorem real_item {kv : UKey × PyNum} (hs : OrdinarySymbol (symbolOf w uni kv.1)) (hv : kv.2.val ≠ 0) :
    RealItem (symbolOf w uni kv.1, kv.2.val.num.natAbs) := by
  refine ⟨⟨hs.1, fun c hc => ?_, ?_⟩, hs.2.2.1, hs.2.2.2⟩
  · simpa [symChar] using hs.2.1 c hc
  · have : kv.2.val.num ≠ 0 := fun h => hv (Rat.num_eq_zero.1 h)
    simpa using Int.natAbs_pos.2 this

theorem Legible.above (h : Legible w fr uni d e) : ∀ x ∈ aboveOf w uni d, RealItem x := by
  intro x hx
  obtain ⟨kv, hm, hk⟩ := List.mem_filterMap.1 hx
  split at hk
  · rename_i hp
    rw [← Option.some.inj hk]
    exact real_item (h.symbol kv (List.mem_append_left _ (sorted_mem hm))) hp.ne'
  · simp at hk

theorem Legible.below (h : Legible w fr uni d e) : ∀ x ∈ belowOf w uni d, RealItem x := by
  intro x hx
  obtain ⟨kv, hm, hk⟩ := List.mem_filterMap.1 hx
  split at hk
  · rename_i hp
    rw [← Option.some.inj hk]
    exact real_item (h.symbol kv (List.mem_append_left _ (sorted_mem hm))) hp.ne
  · simp at hk

theorem mem_sorted {kv : UKey × PyNum} (h : kv ∈ d) : kv ∈ PDim.sorted w d :=
  (List.perm_insertionSort _ d).mem_iff.2 h

/-- The value of a nonzero integer exponent from its sign and absolute value. -/
theorem val_of_natAbs {a b : PyNum} (ha : a.val.den = 1) (hb : b.val.den = 1)
    (h : a.val.num.natAbs = b.val.num.natAbs) (hs : (0 < a.val ∧ 0 < b.val) ∨ (a.val < 0 ∧ b.val < 0)) :
    a.val = b.val := by
  have e1 := (Rat.den_eq_one_iff a.val).1 ha
  have e2 := (Rat.den_eq_one_iff b.val).1 hb
  have : a.val.num = b.val.num := by
    rcases hs with ⟨p, q⟩ | ⟨p, q⟩
    · have := Rat.num_pos.2 p; have := Rat.num_pos.2 q; omega
    · have := Rat.num_neg.2 p; have := Rat.num_neg.2 q; omega
  rw [← e1, ← e2, this]

theorem Legible.sub (h : Legible w fr uni d e)
    (hf : formatUnitsUnicode w fr uni d = formatUnitsUnicode w fr uni e) :
    ∀ kv ∈ d, ∃ kv' ∈ e, kv'.1 = kv.1 ∧ kv'.2.val = kv.2.val := by
  rw [format_unicode h.left, format_unicode h.symm.left] at hf
  obtain ⟨hA, hB⟩ := typeset_inj h.above h.symm.above h.below h.symm.below hf
  intro kv hk
  have hden := (h.exp kv (List.mem_append_left _ hk)).2
  have hne : kv.2.val ≠ 0 := by
    rcases (h.exp kv (List.mem_append_left _ hk)).1 with ⟨p, -⟩ | ⟨p, -⟩
    · exact p.ne'
    · exact p.ne
  rcases lt_or_gt_of_ne hne with hn | hp
  · have hm : (symbolOf w uni kv.1, kv.2.val.num.natAbs) ∈ belowOf w uni e := by
      rw [← hB]; exact List.mem_filterMap.2 ⟨kv, mem_sorted hk, by rw [if_pos hn]⟩
    obtain ⟨kv', hm', hk'⟩ := List.mem_filterMap.1 hm
    split at hk'
    · rename_i hn'
      obtain ⟨h1, h2⟩ := Prod.mk.inj (Option.some.inj hk')
      have me := List.mem_append_right d (sorted_mem hm')
      exact ⟨kv', sorted_mem hm', h.distinct kv' me kv (List.mem_append_left _ hk) h1,
        val_of_natAbs (h.exp kv' me).2 hden h2 (.inr ⟨hn', hn⟩)⟩
    · simp at hk'
  · have hm : (symbolOf w uni kv.1, kv.2.val.num.natAbs) ∈ aboveOf w uni e := by
      rw [← hA]; exact List.mem_filterMap.2 ⟨kv, mem_sorted hk, by rw [if_pos hp]⟩
    obtain ⟨kv', hm', hk'⟩ := List.mem_filterMap.1 hm
    split at hk'
    · rename_i hn'
      obtain ⟨h1, h2⟩ := Prod.mk.inj (Option.some.inj hk')
      have me := List.mem_append_right d (sorted_mem hm')
      exact ⟨kv', sorted_mem hm', h.distinct kv' me kv (List.mem_append_left _ hk) h1,
        val_of_natAbs (h.exp kv' me).2 hden h2 (.inl ⟨hn', hp⟩)⟩
    · simp at hk'

theorem nodup_toDim (hd : Dict.Nodup d) : Dict.Nodup d.toDim := by
  simpa [PDim.toDim, Dict.Nodup, List.map_map, Function.comp_def] using hd

/-- The same Unicode text: the same units with the same exponents. -/
theorem Legible.unicode_inj (h : Legible w fr uni d e) (hd : Dict.Nodup d) (he : Dict.Nodup e)
    (hf : formatUnitsUnicode w fr uni d = formatUnitsUnicode w fr uni e) :
    SameContent d.toDim e.toDim := by
  have one : ∀ {a b : PDim}, Dict.Nodup a → Dict.Nodup b →
      (∀ kv ∈ a, ∃ kv' ∈ b, kv'.1 = kv.1 ∧ kv'.2.val = kv.2.val) →
      ∀ u x, get? a.toDim u = some x → get? b.toDim u = some x := by
    intro a b ha hb hs u x hx
    have hm := Dict.mem_of_get? hx
    obtain ⟨kv, hk, e1⟩ := List.mem_map.1 hm
    obtain ⟨kv', hk', e2, e3⟩ := hs kv hk
    apply Dict.get?_of_mem (nodup_toDim hb)
    refine List.mem_map.2 ⟨kv', hk', ?_⟩
    rw [e2, e3]; exact e1
  intro u
  have h1 := one hd he (h.sub hf) u
  have h2 := one he hd (h.symm.sub hf.symm) u
  rcases hx : get? d.toDim u with _ | x
  · rcases hy : get? e.toDim u with _ | y
    · rfl
    · rw [h2 y hy] at hx; simp at hx
  · exact (h1 x hx).symm

/-- The same holds for the plain string, from which the Unicode text is made. -/
theorem Legible.string_inj (h : Legible w fr uni d e) (hd : Dict.Nodup d) (he : Dict.Nodup e)
    (hf : formatUnits w fr uni d = formatUnits w fr uni e) : SameContent d.toDim e.toDim :=
  h.unicode_inj hd he (by unfold formatUnitsUnicode; rw [hf])

end

/-! ## Characters of a unit string -/

theorem mem_product {st : Style} {P : Char → Prop} (ht : ∀ c ∈ st.times, P c)
    (hp : ∀ n, ∀ c ∈ st.pow n, P c) : ∀ {l : List (List Char × ℕ)}, (∀ x ∈ l, ∀ c ∈ x.1, P c) →
    ∀ c ∈ st.product l, P c
  | [], _, c, hc => by simp [Style.product] at hc
  | [x], h, c, hc => by
    simp only [Style.product, Style.item, List.mem_append] at hc
    rcases hc with hc | hc
    · exact h x (by simp) c hc
    · split at hc
      · simp at hc
      · exact hp _ c hc
  | x :: y :: l, h, c, hc => by
    simp only [Style.product, Style.item, List.mem_append] at hc
    rcases hc with ((hc | hc) | hc) | hc
    · exact h x (by simp) c hc
    · split at hc
      · simp at hc
      · exact hp _ c hc
    · exact ht c hc
    · exact mem_product ht hp (fun z hz => h z (by simp only [List.mem_cons] at hz ⊢; tauto)) c hc

theorem mem_typeset {st : Style} {P : Char → Prop} (hfr : st.fraction = fun a b => a ++ '/' :: b)
    (ht : ∀ c ∈ st.times, P c) (hp : ∀ n, ∀ c ∈ st.pow n, P c)
    (hf : ∀ c ∈ ['/', '(', ')', '1'], P c) (hd : ∀ c ∈ "dimensionless".toList, P c)
    {A B : List (List Char × ℕ)} (hA : ∀ x ∈ A, ∀ c ∈ x.1, P c) (hB : ∀ x ∈ B, ∀ c ∈ x.1, P c) :
    ∀ c ∈ st.typeset A B, P c := by
  intro c hc
  unfold Style.typeset at hc
  rw [hfr] at hc
  have pA := mem_product ht hp hA
  have pB := mem_product ht hp hB
  by_cases h1 : B = []
  · rw [if_pos h1] at hc
    by_cases h2 : A = []
    · rw [if_pos h2] at hc; exact hd c hc
    · rw [if_neg h2] at hc; exact pA c hc
  · rw [if_neg h1] at hc
    rcases List.mem_append.1 hc with hc | hc
    · by_cases h2 : A = []
      · rw [if_pos h2] at hc
        exact hf c (by rw [List.mem_singleton.1 hc]; simp)
      · rw [if_neg h2] at hc; exact pA c hc
    · rcases List.mem_cons.1 hc with hc | hc
      · exact hf c (by rw [hc]; simp)
      · by_cases h3 : 1 < B.length
        · rw [if_pos h3] at hc
          rcases List.mem_append.1 hc with hc | hc
          · rcases List.mem_cons.1 hc with hc | hc
            · exact hf c (by rw [hc]; simp)
            · exact pB c hc
          · exact hf c (by rw [List.mem_singleton.1 hc]; simp)
        · rw [if_neg h3] at hc; exact pB c hc

/-- Characters that never occur in the text of legible units. -/
def Outside (c : Char) : Prop := c ∈ [' ', ',', '\n', '+']

instance : DecidablePred Outside := fun c => inferInstanceAs (Decidable (c ∈ _))

theorem digit_inside {c : Char} (h : isDig c = true) : ¬ Outside c := by
  intro ho
  simp only [Outside, List.mem_cons, List.not_mem_nil, or_false] at ho
  rcases ho with rfl | rfl | rfl | rfl <;> revert h <;> decide

theorem sup_inside {c : Char} (h : isSup c = true) : ¬ Outside c := by
  intro ho
  simp only [Outside, List.mem_cons, List.not_mem_nil, or_false] at ho
  rcases ho with rfl | rfl | rfl | rfl <;> revert h <;> decide

theorem outside_reserved {c : Char} (h : Outside c) : Reserved c := by
  simp only [Outside, List.mem_cons, List.not_mem_nil, or_false] at h
  rcases h with rfl | rfl | rfl | rfl <;> decide

section
variable {w : World K} {fr : ℚ → List Char} {uni : Bool} {d e : PDim}

theorem real_inside {x : List Char × ℕ} (h : RealItem x) : ∀ c ∈ x.1, ¬ Outside c := by
  intro c hc ho
  have := h.1.2.1 c hc
  simp [symChar, outside_reserved ho] at this

theorem Legible.string_chars (h : Legible w fr uni d e) : ∀ c ∈ formatUnits w fr uni d, ¬ Outside c := by
  rw [format_ascii h.left]
  refine mem_typeset rfl (by decide) ?_ (by decide) (by decide) (fun x hx => real_inside (h.above x hx))
    (fun x hx => real_inside (h.below x hx))
  intro n c hc
  simp only [asciiStyle, List.mem_append] at hc
  rcases hc with hc | hc
  · revert c; decide
  · exact digit_inside (natDigits_isDig n c hc)

theorem Legible.unicode_chars (h : Legible w fr uni d e) :
    ∀ c ∈ formatUnitsUnicode w fr uni d, ¬ Outside c := by
  rw [format_unicode h.left]
  exact mem_typeset rfl (by decide) (fun n c hc => sup_inside (pow_isSup n c hc)) (by decide) (by decide)
    (fun x hx => real_inside (h.above x hx)) (fun x hx => real_inside (h.below x hx))

theorem Legible.dim_chars {T : NumText K} (h : Legible w T.float uni d e) :
    ∀ c ∈ shownDim T w uni d, ¬ Outside c := by
  intro c hc
  unfold shownDim at hc
  split at hc
  · exact h.unicode_chars c hc
  · exact h.string_chars c hc

theorem Legible.dim_inj {T : NumText K} (h : Legible w T.float uni d e) (hd : Dict.Nodup d)
    (he : Dict.Nodup e) (hf : shownDim T w uni d = shownDim T w uni e) : SameContent d.toDim e.toDim := by
  unfold shownDim at hf
  by_cases hu : uni = true
  · rw [if_pos hu, if_pos hu] at hf; exact h.unicode_inj hd he hf
  · rw [if_neg hu, if_neg hu] at hf; exact h.string_inj hd he hf

end

/-- Split around a known middle part that contains a character which does not occur before it. -/
theorem split_around {m : Char} {a a' X b b' : List Char} (ha : m ∉ a) (ha' : m ∉ a') (hX : m ∈ X)
    (h : a ++ (X ++ b) = a' ++ (X ++ b')) : a = a' ∧ b = b' := by
  obtain ⟨x1, x2, rfl, hn⟩ := List.eq_append_cons_of_mem hX
  have re : ∀ y z : List Char, y ++ (x1 ++ m :: x2 ++ z) = (y ++ x1) ++ m :: (x2 ++ z) := by
    intro y z; simp
  rw [re, re] at h
  have no : ∀ {y : List Char}, m ∉ y → m ∉ y ++ x1 := by
    intro y hy hc
    exact (List.mem_append.1 hc).elim hy hn
  obtain ⟨h1, h2⟩ := split_first (no ha) (no ha') h
  exact ⟨List.append_cancel_right h1, List.append_cancel_left h2⟩

/-! ## `str.replace` -/

theorem replaceStr_nil (pat rep : List Char) : replaceStr pat rep [] = [] := by
  rw [replaceStr]

theorem replaceStr_step {pat rep : List Char} {c : Char} {cs : List Char} (h : ¬ pat <+: c :: cs) :
    replaceStr pat rep (c :: cs) = c :: replaceStr pat rep cs := by
  rw [replaceStr, if_neg]
  simp only [Bool.and_eq_true, List.isPrefixOf_iff_prefix, not_and]
  exact fun hp => absurd hp h

theorem replaceStr_hit {pat rep b : List Char} (h : pat ≠ []) :
    replaceStr pat rep (pat ++ b) = rep ++ replaceStr pat rep b := by
  obtain ⟨c, p, rfl⟩ := List.exists_cons_of_ne_nil h
  rw [List.cons_append, replaceStr, if_pos]
  · congr 2
    simp
  · simp only [Bool.and_eq_true, List.isPrefixOf_iff_prefix]
    exact ⟨⟨b, by simp⟩, by simp⟩

/-- The first character of the pattern does not occur. -/
theorem replaceStr_skip1 {c : Char} {p rep : List Char} : ∀ {a b : List Char}, c ∉ a →
    replaceStr (c :: p) rep (a ++ b) = a ++ replaceStr (c :: p) rep b
  | [], b, _ => rfl
  | x :: a, b, h => by
    rw [List.cons_append, replaceStr_step, replaceStr_skip1 (fun hc => h (by simp [hc])), List.cons_append]
    rintro ⟨t, ht⟩
    exact h (by simp only [List.cons_append, List.cons.injEq] at ht; simp [ht.1])

/-- The second character of the pattern does not occur. -/
theorem replaceStr_skip2 {c c2 : Char} {p rep : List Char} : ∀ {a b : List Char}, c2 ∉ a →
    b.head? ≠ some c2 → replaceStr (c :: c2 :: p) rep (a ++ b) = a ++ replaceStr (c :: c2 :: p) rep b
  | [], b, _, _ => rfl
  | x :: a, b, h, hb => by
    rw [List.cons_append, replaceStr_step, replaceStr_skip2 (fun hc => h (by simp [hc])) hb, List.cons_append]
    rintro ⟨t, ht⟩
    simp only [List.cons_append, List.cons.injEq] at ht
    cases a with
    | nil => rw [List.nil_append] at ht; exact hb (by rw [← ht.2]; rfl)
    | cons y a =>
      simp only [List.cons_append, List.cons.injEq] at ht
      exact h (by simp [ht.2.1])

theorem prefix_before {c : Char} {pat D x : List Char} (hc : c ∉ pat) (h : pat <+: D ++ c :: x) :
    pat <+: D := by
  induction pat generalizing D with
  | nil => exact List.nil_prefix
  | cons a pat ih =>
    cases D with
    | nil =>
      obtain ⟨t, ht⟩ := h
      simp only [List.cons_append, List.nil_append, List.cons.injEq] at ht
      exact absurd (by simp [ht.1]) hc
    | cons b D =>
      rw [List.cons_append, List.cons_prefix_cons] at h
      rw [List.cons_prefix_cons]
      exact ⟨h.1, ih (fun hm => hc (by simp [hm])) h.2⟩

end PQ
