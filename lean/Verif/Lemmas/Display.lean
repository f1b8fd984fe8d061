import Verif.Spec.Display
import Verif.Props.Typeset

/-!
# Unicode unit strings can be told apart
-/

namespace PQ

variable {K : Type _}

/-! ## Splitting lists -/

theorem append_split {α : Type _} {p : α → Bool} {a a' b b' : List α} (ha : ∀ c ∈ a, p c = true)
    (ha' : ∀ c ∈ a', p c = true) (hb : ∀ c, b.head? = some c → p c = false)
    (hb' : ∀ c, b'.head? = some c → p c = false) (h : a ++ b = a' ++ b') : a = a' ∧ b = b' := by
  have key : ∀ {x y : List α}, (∀ c ∈ x, p c = true) → (∀ c, y.head? = some c → p c = false) →
      (x ++ y).takeWhile p = x := by
    intro x y hx hy
    rw [List.takeWhile_append_of_pos hx]
    cases y with
    | nil => simp
    | cons c y => simp [List.takeWhile, hy c rfl]
  have e : a = a' := by rw [← key ha hb, ← key ha' hb', h]
  exact ⟨e, by rw [e] at h; exact List.append_cancel_left h⟩

/-- Split at the first occurrence of `c`. -/
theorem split_first {c : Char} {a a' b b' : List Char} (ha : c ∉ a) (ha' : c ∉ a')
    (h : a ++ c :: b = a' ++ c :: b') : a = a' ∧ b = b' := by
  obtain ⟨h1, h2⟩ := append_split (p := fun x => decide (x ≠ c)) (b := c :: b) (b' := c :: b')
    (fun x hx => decide_eq_true (fun e : x = c => ha (e ▸ hx)))
    (fun x hx => decide_eq_true (fun e : x = c => ha' (e ▸ hx)))
    (by simp) (by simp) h
  exact ⟨h1, by simpa using h2⟩

/-- Split at the last occurrence of `c`. -/
theorem split_last {c : Char} {a a' b b' : List Char} (hb : c ∉ b) (hb' : c ∉ b')
    (h : a ++ c :: b = a' ++ c :: b') : a = a' ∧ b = b' := by
  have := congrArg List.reverse h
  simp only [List.reverse_append, List.reverse_cons, List.append_assoc, List.singleton_append] at this
  obtain ⟨h1, h2⟩ := split_first (by simpa using hb) (by simpa using hb') this
  exact ⟨List.reverse_injective h2, List.reverse_injective h1⟩

/-! ## Superscripts -/

def isSup (c : Char) : Bool := decide (c ∈ ['⁰', '¹', '²', '³', '⁴', '⁵', '⁶', '⁷', '⁸', '⁹'])

theorem isSup_superDigit (n : ℕ) : isSup (superDigit n) = true := by
  unfold superDigit; split <;> decide

theorem superDigit_inj {m n : ℕ} (hm : m < 10) (hn : n < 10) (h : superDigit m = superDigit n) : m = n := by
  interval_cases m <;> interval_cases n <;> first | rfl | (revert h; decide)

/-- The superscript of an exponent; nothing for 1. -/
def supOf (n : ℕ) : List Char := if n = 1 then [] else unicodeStyle.pow n

theorem pow_isSup (n : ℕ) : ∀ c ∈ unicodeStyle.pow n, isSup c = true := by
  intro c hc
  simp only [unicodeStyle] at hc
  split at hc
  · simp only [List.mem_singleton] at hc; subst hc; decide
  · obtain ⟨m, -, rfl⟩ := List.mem_map.1 hc
    exact isSup_superDigit m

theorem supOf_isSup (n : ℕ) : ∀ c ∈ supOf n, isSup c = true := by
  intro c hc
  unfold supOf at hc
  split at hc
  · simp at hc
  · exact pow_isSup n c hc

theorem map_superDigit_inj : ∀ {l l' : List ℕ}, (∀ x ∈ l, x < 10) → (∀ x ∈ l', x < 10) →
    l.map superDigit = l'.map superDigit → l = l'
  | [], [], _, _, _ => rfl
  | [], _ :: _, _, _, h => by simp at h
  | _ :: _, [], _, _, h => by simp at h
  | x :: l, y :: l', h1, h2, h => by
    simp only [List.map_cons, List.cons.injEq] at h
    rw [superDigit_inj (h1 x (by simp)) (h2 y (by simp)) h.1,
      map_superDigit_inj (fun z hz => h1 z (by simp [hz])) (fun z hz => h2 z (by simp [hz])) h.2]

theorem supOf_inj {m n : ℕ} (hm : 0 < m) (hn : 0 < n) (h : supOf m = supOf n) : m = n := by
  have ne : ∀ k, 0 < k → unicodeStyle.pow k = (Nat.digits 10 k).reverse.map superDigit := by
    intro k hk; simp [unicodeStyle, hk.ne']
  have ne' : ∀ k, 0 < k → unicodeStyle.pow k ≠ [] := by
    intro k hk; rw [ne k hk]
    simp [Nat.digits_ne_nil_iff_ne_zero, hk.ne']
  unfold supOf at h
  split at h <;> split at h
  · omega
  · exact absurd h.symm (ne' n hn)
  · exact absurd h (ne' m hm)
  · rw [ne m hm, ne n hn] at h
    have := map_superDigit_inj (by simpa using fun x hx => Nat.digits_lt_base (by norm_num) hx)
      (by simpa using fun x hx => Nat.digits_lt_base (by norm_num) hx) h
    exact Nat.digits_inj_iff.1 (List.reverse_injective this)

/-! ## Products and fractions -/

/-- Characters of an ordinary symbol. -/
def symChar (c : Char) : Bool := !decide (Reserved c)

theorem symChar_sup {c : Char} (h : isSup c = true) : symChar c = false := by
  simp only [isSup, decide_eq_true_eq] at h
  have h2 : Reserved c := by
    unfold Reserved
    simp only [List.mem_cons, List.not_mem_nil, or_false] at h ⊢
    tauto
  simp [symChar, h2]

/-- What may follow an item. -/
def Ends (l : List Char) : Prop := ∀ c, l.head? = some c → c = '·' ∨ c = '/' ∨ c = ')'

theorem ends_spec {c : Char} (h : c = '·' ∨ c = '/' ∨ c = ')') : symChar c = false ∧ isSup c = false := by
  rcases h with rfl | rfl | rfl <;> decide

theorem item_eq (x : List Char × ℕ) : unicodeStyle.item x = x.1 ++ supOf x.2 := rfl

/-- A symbol made of ordinary characters with a positive exponent. -/
def GoodItem (x : List Char × ℕ) : Prop := x.1 ≠ [] ∧ (∀ c ∈ x.1, symChar c = true) ∧ 0 < x.2

theorem item_split {x y : List Char × ℕ} {r s : List Char} (hx : GoodItem x) (hy : GoodItem y)
    (hr : Ends r) (hs : Ends s) (h : unicodeStyle.item x ++ r = unicodeStyle.item y ++ s) :
    x = y ∧ r = s := by
  simp only [item_eq, List.append_assoc] at h
  have hd : ∀ (n : ℕ) {t : List Char}, Ends t → ∀ c, (supOf n ++ t).head? = some c → symChar c = false := by
    intro n t ht c hc
    cases hn : supOf n with
    | nil => rw [hn] at hc; exact (ends_spec (ht c hc)).1
    | cons a l =>
      rw [hn] at hc
      obtain rfl : a = c := by simpa using hc
      exact symChar_sup (supOf_isSup n _ (by rw [hn]; simp))
  obtain ⟨h1, h2⟩ := append_split (p := symChar) hx.2.1 hy.2.1 (hd _ hr) (hd _ hs) h
  obtain ⟨h3, h4⟩ := append_split (p := isSup) (supOf_isSup _) (supOf_isSup _)
    (fun c hc => (ends_spec (hr c hc)).2) (fun c hc => (ends_spec (hs c hc)).2) h2
  exact ⟨Prod.ext h1 (supOf_inj hx.2.2 hy.2.2 h3), h4⟩

/-- What may follow a product. -/
def EndsP (l : List Char) : Prop := ∀ c, l.head? = some c → c = '/' ∨ c = ')'

theorem EndsP.ends {l : List Char} (h : EndsP l) : Ends l := fun c hc => .inr (h c hc)

theorem product_cons_split (x : List Char × ℕ) (l : List (List Char × ℕ)) (r : List Char) :
    ∃ t, unicodeStyle.product (x :: l) ++ r = unicodeStyle.item x ++ t ∧ (EndsP r → Ends t) ∧
      (l = [] → t = r) ∧ (l ≠ [] → t = '·' :: (unicodeStyle.product l ++ r)) := by
  cases l with
  | nil => exact ⟨r, rfl, EndsP.ends, fun _ => rfl, fun h => absurd rfl h⟩
  | cons y l =>
    refine ⟨'·' :: (unicodeStyle.product (y :: l) ++ r), ?_, ?_, fun h => by simp at h, fun _ => rfl⟩
    · simp only [Style.product, List.append_assoc]; rfl
    · intro _ c hc; simp only [List.head?_cons, Option.some.injEq] at hc; exact .inl hc.symm

theorem product_split : ∀ {l l' : List (List Char × ℕ)} {r s : List Char}, l ≠ [] → l' ≠ [] →
    (∀ x ∈ l, GoodItem x) → (∀ x ∈ l', GoodItem x) → EndsP r → EndsP s →
    unicodeStyle.product l ++ r = unicodeStyle.product l' ++ s → l = l' ∧ r = s
  | [], _, _, _, h, _, _, _, _, _, _ => absurd rfl h
  | _ :: _, [], _, _, _, h, _, _, _, _, _ => absurd rfl h
  | x :: l, y :: l', r, s, _, _, hl, hl', hr, hs, h => by
    obtain ⟨t, e1, e2, e3, e4⟩ := product_cons_split x l r
    obtain ⟨t', f1, f2, f3, f4⟩ := product_cons_split y l' s
    rw [e1, f1] at h
    obtain ⟨h1, h2⟩ := item_split (hl x (by simp)) (hl' y (by simp)) (e2 hr) (f2 hs) h
    by_cases hn : l = [] <;> by_cases hn' : l' = []
    · rw [e3 hn, f3 hn'] at h2
      exact ⟨by rw [h1, hn, hn'], h2⟩
    · rw [e3 hn, f4 hn'] at h2
      have := hr '·' (by rw [h2]; rfl)
      exact absurd this (by decide)
    · rw [e4 hn, f3 hn'] at h2
      have := hs '·' (by rw [← h2]; rfl)
      exact absurd this (by decide)
    · rw [e4 hn, f4 hn'] at h2
      obtain ⟨g1, g2⟩ := product_split hn hn' (fun z hz => hl z (by simp [hz]))
        (fun z hz => hl' z (by simp [hz])) hr hs (List.cons.inj h2).2
      exact ⟨by rw [h1, g1], g2⟩

/-- A symbol with exponent as it is written, not one of the words for "no units". -/
def RealItem (x : List Char × ℕ) : Prop :=
  GoodItem x ∧ x.1 ≠ ['1'] ∧ x.1 ≠ "dimensionless".toList

/-- The list written above the line, with the word for an empty one. -/
def aboveText (A B : List (List Char × ℕ)) : List (List Char × ℕ) :=
  if A = [] then [(if B = [] then "dimensionless".toList else ['1'], 1)] else A

/-- What follows it. -/
def belowText (B : List (List Char × ℕ)) : List Char :=
  if B = [] then [] else '/' ::
    (if 1 < B.length then '(' :: unicodeStyle.product B ++ [')'] else unicodeStyle.product B)

theorem typeset_parts (A B : List (List Char × ℕ)) :
    unicodeStyle.typeset A B = unicodeStyle.product (aboveText A B) ++ belowText B := by
  unfold Style.typeset aboveText belowText
  by_cases hB : B = [] <;> by_cases hA : A = []
  · simp only [if_pos hA, if_pos hB, Style.product, Style.item, if_true, List.append_nil]
  · simp only [if_neg hA, if_pos hB, List.append_nil]
  · simp only [if_pos hA, if_neg hB, Style.product, Style.item, if_true, List.append_nil]
    rfl
  · simp only [if_neg hA, if_neg hB]
    rfl

theorem good_dimensionless : GoodItem ("dimensionless".toList, 1) := ⟨by decide, by decide, by decide⟩
theorem good_one : GoodItem (['1'], 1) := ⟨by decide, by decide, by decide⟩

theorem aboveText_good {A B : List (List Char × ℕ)} (h : ∀ x ∈ A, RealItem x) :
    ∀ x ∈ aboveText A B, GoodItem x := by
  intro x hx
  unfold aboveText at hx
  split at hx
  · have hx := List.mem_singleton.1 hx
    rw [hx]
    by_cases hB : B = []
    · rw [if_pos hB]; exact good_dimensionless
    · rw [if_neg hB]; exact good_one
  · exact (h x hx).1

theorem aboveText_ne (A B : List (List Char × ℕ)) : aboveText A B ≠ [] := by
  unfold aboveText
  by_cases h : A = []
  · rw [if_pos h]; exact List.cons_ne_nil _ _
  · rw [if_neg h]; exact h

theorem belowText_ends (B : List (List Char × ℕ)) : EndsP (belowText B) := by
  intro c hc
  unfold belowText at hc
  split at hc
  · simp at hc
  · exact .inl (by simpa using hc.symm)

theorem product_head {x : List Char × ℕ} {l : List (List Char × ℕ)} (hx : GoodItem x) (r : List Char) :
    ∃ c t, unicodeStyle.product (x :: l) ++ r = c :: t ∧ symChar c = true := by
  obtain ⟨t, e, -⟩ := product_cons_split x l r
  obtain ⟨a, s, hs⟩ := List.exists_cons_of_ne_nil hx.1
  refine ⟨a, s ++ supOf x.2 ++ t, ?_, hx.2.1 a (by rw [hs]; simp)⟩
  rw [e, item_eq, hs]; simp

theorem belowText_inj {B B' : List (List Char × ℕ)} (h : ∀ x ∈ B, GoodItem x)
    (h' : ∀ x ∈ B', GoodItem x) (e : belowText B = belowText B') : B = B' := by
  unfold belowText at e
  by_cases hB : B = [] <;> by_cases hB' : B' = []
  · rw [hB, hB']
  · rw [if_pos hB, if_neg hB'] at e; simp at e
  · rw [if_neg hB, if_pos hB'] at e; simp at e
  · rw [if_neg hB, if_neg hB'] at e
    have e := (List.cons.inj e).2
    have nil : EndsP [] := fun c hc => by simp at hc
    have one : EndsP [')'] := fun c hc => .inr (by simpa using hc.symm)
    have hp : ∀ {C : List (List Char × ℕ)}, (∀ x ∈ C, GoodItem x) → C ≠ [] → ∀ t,
        unicodeStyle.product C ≠ '(' :: t := by
      intro C hC hne t ht
      obtain ⟨x, C', rfl⟩ := List.exists_cons_of_ne_nil hne
      obtain ⟨c, t', g1, g2⟩ := product_head (l := C') (hC x (by simp)) []
      rw [List.append_nil, ht] at g1
      rw [← (List.cons.inj g1).1] at g2
      revert g2; decide
    by_cases hl : 1 < B.length <;> by_cases hl' : 1 < B'.length
    · rw [if_pos hl, if_pos hl'] at e
      simp only [List.cons_append, List.cons.injEq, true_and] at e
      exact (product_split hB hB' h h' one one e).1
    · rw [if_pos hl, if_neg hl'] at e
      exact absurd e.symm (by rw [List.cons_append]; exact hp h' hB' _)
    · rw [if_neg hl, if_pos hl'] at e
      exact absurd e (by rw [List.cons_append]; exact hp h hB _)
    · rw [if_neg hl, if_neg hl'] at e
      exact (product_split hB hB' h h' nil nil (by simpa using e)).1

/-- Two typeset expressions that look the same are the same. -/
theorem typeset_inj {A A' B B' : List (List Char × ℕ)} (hA : ∀ x ∈ A, RealItem x)
    (hA' : ∀ x ∈ A', RealItem x) (hB : ∀ x ∈ B, RealItem x) (hB' : ∀ x ∈ B', RealItem x)
    (h : unicodeStyle.typeset A B = unicodeStyle.typeset A' B') : A = A' ∧ B = B' := by
  rw [typeset_parts, typeset_parts] at h
  obtain ⟨h1, h2⟩ := product_split (aboveText_ne A B) (aboveText_ne A' B') (aboveText_good hA)
    (aboveText_good hA') (belowText_ends B) (belowText_ends B') h
  have hb := belowText_inj (fun x hx => (hB x hx).1) (fun x hx => (hB' x hx).1) h2
  refine ⟨?_, hb⟩
  subst hb
  unfold aboveText at h1
  have no : ∀ {C : List (List Char × ℕ)}, (∀ x ∈ C, RealItem x) →
      [(if B = [] then "dimensionless".toList else ['1'], 1)] ≠ C := by
    rintro C hC rfl
    obtain ⟨-, g1, g2⟩ := hC _ (List.mem_singleton.2 rfl)
    by_cases hBn : B = []
    · rw [if_pos hBn] at g2; exact g2 rfl
    · rw [if_neg hBn] at g1; exact g1 rfl
  by_cases a : A = [] <;> by_cases b : A' = []
  · rw [a, b]
  · rw [if_pos a, if_neg b] at h1; exact absurd h1 (no hA')
  · rw [if_neg a, if_pos b] at h1; exact absurd h1.symm (no hA)
  · rwa [if_neg a, if_neg b] at h1

end PQ
