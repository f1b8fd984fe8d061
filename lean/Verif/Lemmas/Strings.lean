import Verif.Spec.Strings
import Verif.Lemmas.Quantity

/-! # Lemmas about unit strings: whitelist, rewriting, lexer, parser -/

namespace PQ

open Dict

variable {K : Type _}

/-! ## whitelist -/

theorem valid_iff_walk (t : PyAST) : t.valid = true ↔ ∀ c ∈ t.walk, c.whitelisted = true := by
  simp [PyAST.valid, NodeClass.whitelisted]

theorem arithmetic_of_walk : ∀ t : PyAST, (∀ c ∈ t.walk, c.whitelisted = true) → Arithmetic t
  | .constant c, _ => .constant c
  | .name id, _ => .name id
  | .binOp op l r, h => by
    simp only [PyAST.walk, List.mem_cons, List.mem_append] at h
    exact .binOp op (arithmetic_of_walk l fun c hc => h c (by simp [hc]))
      (arithmetic_of_walk r fun c hc => h c (by simp [hc]))
  | .unaryOp op e, h => by
    simp only [PyAST.walk, List.mem_cons] at h
    exact .unaryOp op (arithmetic_of_walk e fun c hc => h c (by simp [hc]))
  | .node k cs, h => by
    have := h (.kind k) (by simp [PyAST.walk])
    simp [NodeClass.whitelisted] at this

theorem walk_of_arithmetic {t : PyAST} (h : Arithmetic t) : ∀ c ∈ t.walk, c.whitelisted = true := by
  induction h with
  | constant c => simp [PyAST.walk, NodeClass.whitelisted]
  | name id => simp [PyAST.walk, NodeClass.whitelisted]
  | binOp op _ _ h1 h2 =>
    simp only [PyAST.walk, List.mem_cons, List.mem_append]
    rintro c (rfl | rfl | h | h)
    · rfl
    · rfl
    · exact h1 c h
    · exact h2 c h
  | unaryOp op _ h1 =>
    simp only [PyAST.walk, List.mem_cons]
    rintro c (rfl | rfl | h)
    · rfl
    · rfl
    · exact h1 c h

theorem valid_iff {t : PyAST} : t.valid = true ↔ Arithmetic t :=
  (valid_iff_walk t).trans ⟨arithmetic_of_walk t, walk_of_arithmetic⟩

theorem evalTree_built (O : PyOps K) (w : World K) {t : PyAST} (h : Arithmetic t) :
    ∀ v, evalTree O w t = .ok v → Built O w v := by
  induction h with
  | constant c => intro v hv; simp only [evalTree, Except.ok.injEq] at hv; subst hv; exact .literal c
  | name id =>
    intro v hv
    simp only [evalTree, World.context] at hv
    rcases hg : get? w.registry (String.ofList id) with _ | u
    · rw [hg] at hv
      simp only at hv
      split at hv
      · simp only [Except.ok.injEq] at hv; subst hv; exact .unitClass id
      · simp at hv
    · rw [hg] at hv
      simp only [Except.ok.injEq] at hv; subst hv; exact .registered hg
  | @binOp op l r _ _ h1 h2 =>
    intro v hv
    simp only [evalTree] at hv
    rcases ha : evalTree O w l with e | a
    · rw [ha] at hv; simp at hv
    · rcases hb : evalTree O w r with e | b
      · rw [ha, hb] at hv; simp at hv
      · rw [ha, hb] at hv; exact .bin op (h1 a ha) (h2 b hb) hv
  | @unaryOp op e _ h1 =>
    intro v hv
    simp only [evalTree] at hv
    rcases ha : evalTree O w e with er | a
    · rw [ha] at hv; simp at hv
    · rw [ha] at hv; exact .un op (h1 a ha) hv

theorem evalTree_frame (O : PyOps K) (w w' : World K) {t : PyAST} (h : Arithmetic t)
    (hag : ∀ id, Mentions id t →
      get? w.registry (String.ofList id) = get? w'.registry (String.ofList id)) :
    evalTree O w t = evalTree O w' t := by
  induction h with
  | constant c => rfl
  | name id => simp only [evalTree, World.context, hag id .name]
  | binOp op _ _ h1 h2 =>
    simp only [evalTree, h1 fun id hm => hag id (.left op hm), h2 fun id hm => hag id (.right op hm)]
  | unaryOp op _ h1 => simp only [evalTree, h1 fun id hm => hag id (.unaryOp op hm)]

/-- An unknown name makes evaluation fail. -/
theorem evalTree_unknown (O : PyOps K) (w : World K) {t : PyAST} {id : List Char}
    (hm : Mentions id t) (h : w.context id = .error .lookupError) :
    ∃ e, evalTree O w t = .error e := by
  induction hm with
  | name => exact ⟨_, h⟩
  | left op _ ih => obtain ⟨e, he⟩ := ih; exact ⟨e, by simp [evalTree, he]⟩
  | @right op l r _ ih =>
    obtain ⟨e, he⟩ := ih
    rcases ha : evalTree O w l with e' | a
    · exact ⟨e', by simp [evalTree, ha]⟩
    · exact ⟨e, by simp [evalTree, ha, he]⟩
  | unaryOp op _ ih => obtain ⟨e, he⟩ := ih; exact ⟨e, by simp [evalTree, he]⟩

/-! ## rewriting -/

theorem replaceChar_append (c : Char) (r a b : List Char) :
    replaceChar c r (a ++ b) = replaceChar c r a ++ replaceChar c r b := by
  simp [replaceChar, List.flatMap_append]

theorem replaceChar_cons (c : Char) (r : List Char) (x : Char) (s : List Char) :
    replaceChar c r (x :: s) = (if x = c then r else [x]) ++ replaceChar c r s := by
  simp [replaceChar]

theorem replaceChar_of_notMem {c : Char} (r : List Char) {s : List Char} (h : c ∉ s) :
    replaceChar c r s = s := by
  induction s with
  | nil => rfl
  | cons x s ih =>
    rw [replaceChar_cons, if_neg (fun h' => h (by simp [h'])), ih (fun h' => h (by simp [h']))]
    rfl

theorem notMem_replaceChar {c : Char} {r : List Char} (h : c ∉ r) (s : List Char) :
    c ∉ replaceChar c r s := by
  intro hm
  simp only [replaceChar, List.mem_flatMap] at hm
  obtain ⟨x, -, hx⟩ := hm
  split at hx
  · exact h hx
  · rename_i hne; simp only [List.mem_singleton] at hx; exact hne hx.symm

/-- Replacing twice is replacing once when the replacement does not contain the pattern. -/
theorem replaceChar_idem {c : Char} {r : List Char} (h : c ∉ r) (s : List Char) :
    replaceChar c r (replaceChar c r s) = replaceChar c r s :=
  replaceChar_of_notMem r (notMem_replaceChar h s)

theorem replaceChar_comm {c d : Char} {r t : List Char} (h : c ≠ d) (h1 : c ∉ t) (h2 : d ∉ r)
    (s : List Char) : replaceChar c r (replaceChar d t s) = replaceChar d t (replaceChar c r s) := by
  induction s with
  | nil => rfl
  | cons x s ih =>
    rw [replaceChar_cons, replaceChar_append, ih, replaceChar_cons, replaceChar_append]
    congr 1
    by_cases hc : x = c
    · subst hc
      rw [if_neg h, if_pos rfl, replaceChar_of_notMem t h2]
      simp [replaceChar]
    · by_cases hd : x = d
      · subst hd
        rw [if_pos rfl, if_neg hc, replaceChar_of_notMem r h1]
        simp [replaceChar]
      · rw [if_neg hc, if_neg hd]
        simp [replaceChar, hc, hd]

/-! ### dots between letters -/

/-- Without a point nothing is rewritten. -/
theorem dotSub_of_noDot (s : List Char) (h : '.' ∉ s) : dotSub s = s := by
  fun_induction dotSub s with
  | case1 a b c rest hc ih =>
    simp only [Bool.and_eq_true, beq_iff_eq] at hc
    exact absurd (by simp [hc.1.2]) h
  | case2 a b c rest hc ih => rw [ih (fun h' => h (by simp only [List.mem_cons] at h' ⊢; tauto))]
  | case3 s hs => rfl

theorem dotSub_cons_of_ne {a b : Char} (rest : List Char) (h : b ≠ '.') :
    dotSub (a :: b :: rest) = a :: dotSub (b :: rest) := by
  cases rest with
  | nil => simp [dotSub]
  | cons c rest => rw [dotSub, if_neg (by simp [h])]

theorem dotSub_match {a c : Char} (rest : List Char) (ha : isAsciiLetter a = true)
    (hc : isAsciiLetter c = true) : dotSub (a :: '.' :: c :: rest) = a :: '*' :: c :: dotSub rest := by
  rw [dotSub, if_pos (by simp [ha, hc])]

theorem dotSub_word (s : List Char) (a : Char) (rest : List Char) (hs : '.' ∉ s) (ha : a ≠ '.') :
    dotSub (s ++ a :: rest) = s ++ dotSub (a :: rest) := by
  induction s with
  | nil => rfl
  | cons x s ih =>
    have hs' : '.' ∉ s := fun h => hs (by simp [h])
    cases s with
    | nil => rw [List.singleton_append, dotSub_cons_of_ne _ ha]; rfl
    | cons y s =>
      have hy : y ≠ '.' := fun h => hs (by simp [h])
      rw [List.cons_append, List.cons_append, dotSub_cons_of_ne _ hy]
      rw [← List.cons_append, ih hs']; rfl

theorem letter_ne_dot {a : Char} (h : isAsciiLetter a = true) : a ≠ '.' := by
  rintro rfl; revert h; decide

/-- No point, last character a letter. -/
def EndsLetter (s : List Char) : Prop :=
  '.' ∉ s ∧ ∃ b, s.getLast? = some b ∧ isAsciiLetter b = true

theorem EndsLetter.split {s : List Char} (h : EndsLetter s) :
    ∃ t b, s = t ++ [b] ∧ '.' ∉ t ∧ isAsciiLetter b = true := by
  obtain ⟨h1, b, hb, hl⟩ := h
  have hne : s ≠ [] := by rintro rfl; simp at hb
  refine ⟨s.dropLast, b, ?_, ?_, hl⟩
  · rw [List.getLast?_eq_some_getLast hne] at hb
    simp only [Option.some.injEq] at hb
    rw [← hb, List.dropLast_append_getLast hne]
  · exact fun hm => h1 (List.dropLast_subset s hm)

/-- Rewriting a dotted product whose inner names have at least two characters. -/
theorem dotSub_joinDot : ∀ (ss : List (List Char)) (s : List Char), EndsLetter s →
    (∀ x ∈ ss, Dottable x) → (∀ x ∈ ss.dropLast, Long x) →
      dotSub (joinWith '.' (s :: ss)) = joinWith '*' (s :: ss) := by
  intro ss
  induction ss with
  | nil =>
    intro s hs _ _
    simp only [joinWith]
    exact dotSub_of_noDot _ hs.1
  | cons x ss ih =>
    intro s hs hx hl
    obtain ⟨t, b, rfl, ht, hb⟩ := hs.split
    have hxd := hx x (by simp)
    obtain ⟨a, ha, hal⟩ := hxd.2.1
    obtain ⟨x', rfl⟩ : ∃ x', x = a :: x' := by
      cases x with
      | nil => simp at ha
      | cons y x' => simp only [List.head?_cons, Option.some.injEq] at ha; exact ⟨x', by rw [ha]⟩
    have e1 : ∀ c : Char, joinWith c ((t ++ [b]) :: (a :: x') :: ss) =
        t ++ b :: c :: joinWith c ((a :: x') :: ss) := by
      intro c; simp [joinWith]
    rw [e1, e1, dotSub_word _ _ _ ht (letter_ne_dot hb)]
    congr 1
    cases ss with
    | nil =>
      simp only [joinWith]
      rw [dotSub_match _ hb hal, dotSub_of_noDot _ (fun h => hxd.1 (by simp [h]))]
    | cons y ss =>
      have f : ∀ c : Char, joinWith c ((a :: x') :: y :: ss) = a :: joinWith c (x' :: y :: ss) := by
        intro c; simp [joinWith]
      rw [f, f, dotSub_match _ hb hal]
      congr 3
      refine ih x' ⟨fun h => hxd.1 (by simp [h]), ?_⟩ (fun z hz => hx z (by simp [hz])) ?_
      · obtain ⟨b', h1, h2⟩ := hxd.2.2
        have hlong := hl (a :: x') (by simp)
        have hx'ne : x' ≠ [] := by rintro rfl; simp [Long] at hlong
        refine ⟨b', ?_, h2⟩
        rw [List.getLast?_eq_some_getLast (by simp), List.getLast_cons hx'ne] at h1
        rw [List.getLast?_eq_some_getLast hx'ne]; exact h1
      · intro z hz
        exact hl z (by rw [List.dropLast_cons_of_ne_nil (by simp)]; simp [hz])

end PQ
