import Verif.Props.Dispatch
import Verif.Spec.Builtins

/-!
# C146: `sum`, `max`, `min`, `sorted`, `in`, `index`, `count` of quantities
-/

namespace PQ

open NDArr World

variable {K : Type _} [Field K] [LinearOrder K] [IsStrictOrderedRing K] [RPow K] [LawfulRPow K] [PyFloor K]
variable {h : Hasher} {w : World K}

/-! ## Comparisons of single values -/

omit [IsStrictOrderedRing K] [LawfulRPow K] [PyFloor K] in
theorem quantity_of (x : PyVal K) (hx : match x with | .array _ => False | _ => True) (sx : x.mag.shape = []) :
    ∃ q : Quantity K, x.op = .quantity q ∧ q.dim = x.dim ∧ q.mag.shape = [] ∧
      ∀ v : Valuation w, (v.phys q).elem [] = x.value v := by
  cases x with
  | array a => exact hx.elim
  | unit u => exact ⟨_, rfl, rfl, rfl, fun v => rfl⟩
  | quantity q => exact ⟨_, rfl, rfl, sx, fun v => rfl⟩
  | uncertain a => exact ⟨_, rfl, rfl, sx, fun v => rfl⟩

omit [Field K] [LinearOrder K] [IsStrictOrderedRing K] [RPow K] [LawfulRPow K] [PyFloor K] in
theorem truthOf_single (m : NDArr Bool) (hm : m.shape = []) : truthOf m = .ok (m.elem []) := by
  unfold truthOf NDArr.toList
  rw [hm]
  rfl

/-- The outcome of `bool(a op b)` for two quantities of single values. -/
theorem cmp_single (hw : Reachable h w) (op : CmpOp) (a b : Quantity K) (ha : DimOK w a.dim)
    (hb : DimOK w b.dim) (hs : HashSafe w a.dim b.dim) (sa : a.mag.shape = []) (sb : b.mag.shape = []) :
    (Compatible w a.dim b.dim → ∀ v : Valuation w, (a.cmp w op (.quantity b) >>= truthOf) =
      .ok (op.fn ((v.phys a).elem []) ((v.phys b).elem []))) ∧
    (¬ Compatible w a.dim b.dim → (a.cmp w op (.quantity b) >>= truthOf) =
      match op with
      | .eq => .ok false
      | .ne => .ok true
      | _ => .error .valueError) := by
  obtain ⟨h1, h2⟩ := cmp_quantity hw op a b ha hb hs.symm
  refine ⟨fun hc v => ?_, fun hc => ?_⟩
  · rw [h1 (compatible_symm hw.wf hc) v]
    have e : NDArr.bin op.fn (v.phys a) (v.phys b) =
        .ok ⟨[], fun i => op.fn ((v.phys a).elem (bidx [] i)) ((v.phys b).elem (bidx [] i))⟩ := by
      have e1 : (v.phys a).shape = [] := sa
      have e2 : (v.phys b).shape = [] := sb
      unfold NDArr.bin
      rw [e1, e2]
      rfl
    rw [e]
    exact truthOf_single ⟨[], fun i => op.fn ((v.phys a).elem (bidx [] i)) ((v.phys b).elem (bidx [] i))⟩ rfl
  · have h3 := h2 (fun h => hc (compatible_symm hw.wf h))
    cases op with
    | eq =>
      obtain ⟨m, hm, hsh, hall⟩ := h3
      rw [hm]
      show truthOf m = _
      rw [truthOf_single m (hsh.trans sa), hall [] (by rw [hsh, sa]; exact List.Forall₂.nil)]
    | ne =>
      obtain ⟨m, hm, hsh, hall⟩ := h3
      rw [hm]
      show truthOf m = _
      rw [truthOf_single m (hsh.trans sa), hall [] (by rw [hsh, sa]; exact List.Forall₂.nil)]
    | lt => simp only at h3; rw [h3]; rfl
    | le => simp only at h3; rw [h3]; rfl
    | gt => simp only at h3; rw [h3]; rfl
    | ge => simp only at h3; rw [h3]; rfl

/-- The outcome of `bool(x op y)` for two operands of single values. -/
theorem holds_single (hw : Reachable h w) (op : CmpOp) {xs : List (PyVal K)} (hx : Scalars w xs)
    {x y : PyVal K} (mx : x ∈ xs) (my : y ∈ xs) :
    (Compatible w x.dim y.dim → ∀ v : Valuation w, holds w op x y = .ok (op.fn (x.value v) (y.value v))) ∧
    (¬ Compatible w x.dim y.dim → holds w op x y =
      match op with
      | .eq => .ok false
      | .ne => .ok true
      | _ => .error .valueError) := by
  obtain ⟨a, a1, a2, a3, a4⟩ := quantity_of (w := w) x (hx.units x mx) (hx.single x mx)
  obtain ⟨b, b1, b2, b3, b4⟩ := quantity_of (w := w) y (hx.units y my) (hx.single y my)
  have da : DimOK w a.dim := a2 ▸ hx.known x mx
  have db : DimOK w b.dim := b2 ▸ hx.known y my
  have hs : HashSafe w a.dim b.dim := by rw [a2, b2]; exact hx.safe x mx y my
  rw [← a2, ← b2]
  by_cases hc : subclassRight x y = true
  · have e : holds w op x y = (b.cmp w op.swap (.quantity a) >>= truthOf) := by
      unfold holds compareOp
      rw [if_pos hc, a1, b1]
    obtain ⟨h1, h2⟩ := cmp_single hw op.swap b a db da hs.symm b3 a3
    rw [e]
    refine ⟨fun hc v => ?_, fun hc => ?_⟩
    · rw [h1 (compatible_symm hw.wf hc) v, swap_fn, a4, b4]
    · rw [h2 (fun h => hc (compatible_symm hw.wf h))]
      cases op <;> rfl
  · have e : holds w op x y = (a.cmp w op (.quantity b) >>= truthOf) := by
      unfold holds compareOp
      rw [if_neg hc, a1, b1]
    obtain ⟨h1, h2⟩ := cmp_single hw op a b da db hs a3 b3
    rw [e]
    refine ⟨fun hc v => ?_, h2⟩
    rw [h1 hc v, a4, b4]

/-! ## `max` and `min` -/

theorem best_loop (hw : Reachable h w) (op : CmpOp) (R : K → K → Prop) (hop : op = .lt ∨ op = .gt)
    (hR : ∀ x y, op.fn x y = true ↔ R x y) (trans : ∀ a b c, R a b → ¬ R c b → R a c)
    (asymm : ∀ a b, R a b → ¬ R b a)
    {xs : List (PyVal K)} (hx : Scalars w xs) : ∀ (ys done : List (PyVal K)) (i : Nat) (b : PyVal K),
    xs = done ++ ys → done[i]? = some b →
    (∀ x ∈ done, Compatible w b.dim x.dim) →
    (∀ v : Valuation w, ∀ (j : Nat) (y : PyVal K), done[j]? = some y → ¬ R (y.value v) (b.value v) ∧ (j < i → R (b.value v) (y.value v))) →
    (∀ x ∈ ys, Compatible w b.dim x.dim) ∧
      (∃ r k, ys.foldlM (fun best y => do if ← holds w op y best then return y else return best) b = .ok r ∧
        xs[k]? = some r ∧ ∀ v : Valuation w, ∀ (j : Nat) (y : PyVal K), xs[j]? = some y →
          ¬ R (y.value v) (r.value v) ∧ (j < k → R (r.value v) (y.value v))) ∨
    (∃ x ∈ ys, ¬ Compatible w b.dim x.dim) ∧
      ys.foldlM (fun best y => do if ← holds w op y best then return y else return best) b =
        (.error .valueError : Py (PyVal K)) := by
  intro ys
  induction ys with
  | nil =>
    intro done i b hd hi hcomp hbest
    rw [List.append_nil] at hd
    subst hd
    exact .inl ⟨by simp, b, i, rfl, hi, hbest⟩
  | cons y ys ih =>
    intro done i b hd hi hcomp hbest
    have mb : b ∈ xs := by rw [hd]; exact List.mem_append_left _ (List.mem_of_getElem? hi)
    have my : y ∈ xs := by rw [hd]; simp
    obtain ⟨h1, h2⟩ := holds_single hw op hx my mb
    have hd' : xs = (done ++ [y]) ++ ys := by rw [hd]; simp
    by_cases hc : Compatible w b.dim y.dim
    · obtain ⟨v0⟩ := exists_valuation hw.wf
      have hcomp' : ∀ x ∈ done ++ [y], Compatible w b.dim x.dim := by
        intro x hx
        rcases List.mem_append.1 hx with h | h
        · exact hcomp x h
        · rw [List.mem_singleton.1 h]; exact hc
      have hv : ∀ v : Valuation w, op.fn (y.value v) (b.value v) = op.fn (y.value v0) (b.value v0) := by
        intro v
        have e1 := h1 (compatible_symm hw.wf hc) v
        have e2 := h1 (compatible_symm hw.wf hc) v0
        rw [e1] at e2
        exact Except.ok.inj e2
      have hf := h1 (compatible_symm hw.wf hc) v0
      rw [List.foldlM_cons]
      by_cases hb : op.fn (y.value v0) (b.value v0) = true
      · rw [hf, hb]
        show _ ∨ _ ∧ List.foldlM _ y ys = _
        have key := ih (done ++ [y]) done.length y hd' (by simp)
          (fun x hx => compatible_trans (compatible_symm hw.wf hc) (hcomp' x hx)) (by
            intro v j z hz
            have hyb : R (y.value v) (b.value v) := (hR _ _).1 ((hv v).trans hb)
            rcases Nat.lt_or_ge j done.length with hj | hj
            · rw [List.getElem?_append_left hj] at hz
              have := (hbest v j z hz).1
              have r1 := trans _ _ _ hyb this
              exact ⟨asymm _ _ r1, fun _ => r1⟩
            · have : z = y := by
                rw [List.getElem?_append_right hj] at hz
                rcases hjj : j - done.length with _ | n
                · rw [hjj] at hz; simpa using hz.symm
                · rw [hjj] at hz; simp at hz
              subst this
              exact ⟨fun hr => asymm _ _ hr hr, fun hlt => absurd hlt (by omega)⟩)
        rcases key with ⟨k1, k2⟩ | ⟨⟨x, mx, hx⟩, k2⟩
        · refine .inl ⟨?_, k2⟩
          intro x mx
          rcases List.mem_cons.1 mx with rfl | mx
          · exact hc
          · exact compatible_trans hc (k1 x mx)
        · exact .inr ⟨⟨x, List.mem_cons_of_mem _ mx, fun h => hx (compatible_trans (compatible_symm hw.wf hc) h)⟩, k2⟩
      · have hb' : op.fn (y.value v0) (b.value v0) = false := by simpa using hb
        rw [hf, hb']
        show _ ∨ _ ∧ List.foldlM _ b ys = _
        have hi' : (done ++ [y])[i]? = some b := by
          have : i < done.length := by
            by_contra hge
            rw [List.getElem?_eq_none (by omega)] at hi
            cases hi
          rw [List.getElem?_append_left this]; exact hi
        have hil : i < done.length := by
          by_contra hge
          rw [List.getElem?_eq_none (by omega)] at hi
          cases hi
        have key := ih (done ++ [y]) i b hd' hi' hcomp' (by
            intro v j z hz
            have hyb : ¬ R (y.value v) (b.value v) := fun hr => by
              have := (hR _ _).2 hr
              rw [hv v, hb'] at this
              cases this
            rcases Nat.lt_or_ge j done.length with hj | hj
            · rw [List.getElem?_append_left hj] at hz
              exact hbest v j z hz
            · have : z = y := by
                rw [List.getElem?_append_right hj] at hz
                rcases hjj : j - done.length with _ | n
                · rw [hjj] at hz; simpa using hz.symm
                · rw [hjj] at hz; simp at hz
              subst this
              exact ⟨hyb, fun hlt => absurd hlt (by omega)⟩)
        rcases key with ⟨k1, k2⟩ | ⟨⟨x, mx, hx⟩, k2⟩
        · refine .inl ⟨?_, k2⟩
          intro x mx
          rcases List.mem_cons.1 mx with rfl | mx
          · exact hc
          · exact k1 x mx
        · exact .inr ⟨⟨x, List.mem_cons_of_mem _ mx, hx⟩, k2⟩
    · refine .inr ⟨⟨y, by simp, hc⟩, ?_⟩
      have := h2 (fun h => hc (compatible_symm hw.wf h))
      have e : holds w op y b = .error .valueError := by
        rw [this]; rcases hop with rfl | rfl <;> rfl
      rw [List.foldlM_cons, e]
      rfl

theorem best_spec (hw : Reachable h w) (op : CmpOp) (R : K → K → Prop) (hop : op = .lt ∨ op = .gt)
    (hR : ∀ x y, op.fn x y = true ↔ R x y) (trans : ∀ a b c, R a b → ¬ R c b → R a c)
    (asymm : ∀ a b, R a b → ¬ R b a) (xs : List (PyVal K)) (hx : Scalars w xs) :
    (Returns (pyBest w op xs) ↔ xs ≠ [] ∧ AllCompatible w xs) ∧
    (∀ e, pyBest w op xs = .error e → e = .valueError) ∧
    (∀ r, pyBest w op xs = .ok r → ∃ i, xs[i]? = some r ∧ ∀ v : Valuation w, ∀ (j : Nat) (y : PyVal K), xs[j]? = some y →
      ¬ R (y.value v) (r.value v) ∧ (j < i → R (r.value v) (y.value v))) := by
  cases xs with
  | nil =>
    refine ⟨⟨fun hr => absurd hr (not_returns_error _), fun hr => absurd rfl hr.1⟩, ?_, ?_⟩
    · intro e he; cases he; rfl
    · intro r hr; cases hr
  | cons x xs =>
    have key := best_loop hw op R hop hR trans asymm hx xs [x] 0 x rfl rfl
      (by intro z hz; rw [List.mem_singleton.1 hz]; exact compatible_refl _ _)
      (by
        intro v j y hj
        rcases j with _ | j
        · have : y = x := by simpa using hj.symm
          subst this
          exact ⟨fun hr => asymm _ _ hr hr, fun hlt => absurd hlt (by omega)⟩
        · simp at hj)
    have hall : AllCompatible w (x :: xs) ↔ ∀ y ∈ xs, Compatible w x.dim y.dim := by
      refine ⟨fun ha y my => ha x (by simp) y (by simp [my]), fun ha a ma b mb => ?_⟩
      have k : ∀ z ∈ x :: xs, Compatible w x.dim z.dim := by
        intro z mz
        rcases List.mem_cons.1 mz with rfl | mz
        · exact compatible_refl _ _
        · exact ha z mz
      exact compatible_trans (compatible_symm hw.wf (k a ma)) (k b mb)
    rcases key with ⟨k1, r, k, k2, k3, k4⟩ | ⟨⟨z, mz, k1⟩, k2⟩
    · have k2' : pyBest w op (x :: xs) = .ok r := k2
      rw [k2']
      refine ⟨⟨fun _ => ⟨by simp, hall.2 k1⟩, fun _ => returns_ok _⟩, fun e he => (by cases he), ?_⟩
      intro r' hr'
      cases hr'
      exact ⟨k, k3, k4⟩
    · have k2' : pyBest w op (x :: xs) = .error .valueError := k2
      rw [k2']
      refine ⟨⟨fun hr => absurd hr (not_returns_error _), fun hr => absurd (hall.1 hr.2 z mz) k1⟩, ?_, ?_⟩
      · intro e he; cases he; rfl
      · intro r hr; cases hr

/-- C146 (`max`): of a non-empty sequence of units and quantities `max` returns exactly when any two have
compatible units, and raises `ValueError` otherwise; it returns the element with the greatest physical value,
the first one if there are several. -/
theorem C146_max (hw : Reachable h w) (xs : List (PyVal K)) (hx : Scalars w xs) :
    (Returns (pyMax w xs) ↔ xs ≠ [] ∧ AllCompatible w xs) ∧
    (∀ e, pyMax w xs = .error e → e = .valueError) ∧
    (∀ r, pyMax w xs = .ok r → ∃ i, xs[i]? = some r ∧ ∀ v : Valuation w, ∀ (j : Nat) (y : PyVal K), xs[j]? = some y →
      y.value v ≤ r.value v ∧ (j < i → y.value v < r.value v)) := by
  have := best_spec hw .gt (fun x y => y < x) (.inr rfl) (by simp [CmpOp.fn])
    (fun a b c h1 h2 => lt_of_le_of_lt (not_lt.1 h2) h1) (fun a b h1 h2 => lt_asymm h1 h2) xs hx
  simp only [not_lt] at this
  exact this

/-- C146 (`min`): likewise the first element with the least physical value. -/
theorem C146_min (hw : Reachable h w) (xs : List (PyVal K)) (hx : Scalars w xs) :
    (Returns (pyMin w xs) ↔ xs ≠ [] ∧ AllCompatible w xs) ∧
    (∀ e, pyMin w xs = .error e → e = .valueError) ∧
    (∀ r, pyMin w xs = .ok r → ∃ i, xs[i]? = some r ∧ ∀ v : Valuation w, ∀ (j : Nat) (y : PyVal K), xs[j]? = some y →
      r.value v ≤ y.value v ∧ (j < i → r.value v < y.value v)) := by
  have := best_spec hw .lt (fun x y => x < y) (.inl rfl) (by simp [CmpOp.fn])
    (fun a b c h1 h2 => lt_of_lt_of_le h1 (not_lt.1 h2)) (fun a b h1 h2 => lt_asymm h1 h2) xs hx
  simp only [not_lt] at this
  exact this

/-! ## Searching -/

/-- The outcome of an equality test in the loops of `in`, `index`, `count`. -/
theorem holds_eq (hw : Reachable h w) {xs : List (PyVal K)} (hx : Scalars w xs)
    {x y : PyVal K} (mx : x ∈ xs) (my : y ∈ xs) :
    ∃ b, holds w .eq x y = .ok b ∧
      (b = true ↔ Compatible w x.dim y.dim ∧ ∀ v : Valuation w, x.value v = y.value v) := by
  obtain ⟨h1, h2⟩ := holds_single hw .eq hx mx my
  by_cases hc : Compatible w x.dim y.dim
  · obtain ⟨v0⟩ := exists_valuation hw.wf
    refine ⟨_, h1 hc v0, ?_⟩
    simp only [CmpOp.fn, decide_eq_true_eq]
    refine ⟨fun he => ⟨hc, fun v => ?_⟩, fun he => he.2 v0⟩
    have e := (h1 hc v).symm.trans (h1 hc v0)
    simpa [CmpOp.fn, he] using e
  · exact ⟨false, h2 hc, by simp [hc]⟩

/-- C146 (`in`, `index`, `count`): searching a sequence of units and quantities never raises because of units;
an element is found exactly when its units are compatible with those of `x` and the physical values are
equal: the first such element is `index` (`ValueError` if there is none), the number of them is `count`. -/
theorem C146_search (hw : Reachable h w) (x : PyVal K) (xs : List (PyVal K)) (hx : Scalars w (x :: xs)) :
    let same : PyVal K → Prop := fun y => Compatible w y.dim x.dim ∧ ∀ v : Valuation w, y.value v = x.value v
    (∃ b, pyContains w x xs = .ok b ∧ (b = true ↔ ∃ y ∈ xs, same y)) ∧
    ((∃ i, pyIndex w x xs = .ok i ∧ (∃ y, xs[i]? = some y ∧ same y) ∧
        ∀ j < i, ∀ y : PyVal K, xs[j]? = some y → ¬ same y) ∨
      pyIndex w x xs = .error .valueError ∧ ¬ ∃ y ∈ xs, same y) ∧
    (∃ n, pyCount w x xs = .ok n ∧ ∀ (dec : ∀ y, Decidable (same y)), n = (xs.filter (fun y => decide (same y))).length) := by
  intro same
  have hfind : ∀ ys : List (PyVal K), (∀ y ∈ ys, y ∈ xs) →
      (∃ i, pyFind w x ys = .ok (some i) ∧ (∃ y, ys[i]? = some y ∧ same y) ∧
        ∀ j < i, ∀ y : PyVal K, ys[j]? = some y → ¬ same y) ∨
      pyFind w x ys = .ok none ∧ ¬ ∃ y ∈ ys, same y := by
    intro ys
    induction ys with
    | nil => exact fun _ => .inr ⟨rfl, by simp⟩
    | cons y ys ih =>
      intro hsub
      obtain ⟨b, hb, hb'⟩ := holds_eq hw hx (List.mem_cons_of_mem x (hsub y (by simp))) (List.mem_cons_self (a := x))
      have hb'' : b = true ↔ same y := hb'
      cases b with
      | true =>
        refine .inl ⟨0, ?_, ⟨y, rfl, hb''.1 rfl⟩, fun j hj => absurd hj (by omega)⟩
        unfold pyFind
        rw [hb]
        rfl
      | false =>
        have hn : ¬ same y := fun hs => by cases hb''.2 hs
        rcases ih (fun z hz => hsub z (List.mem_cons_of_mem _ hz)) with ⟨i, h1, ⟨z, h2, h3⟩, h4⟩ | ⟨h1, h2⟩
        · refine .inl ⟨i + 1, ?_, ⟨z, by simpa using h2, h3⟩, ?_⟩
          · unfold pyFind
            rw [hb, h1]
            rfl
          · intro j hj t ht
            rcases j with _ | j
            · have : t = y := by simpa using ht.symm
              rw [this]; exact hn
            · exact h4 j (by omega) t (by simpa using ht)
        · refine .inr ⟨?_, ?_⟩
          · unfold pyFind
            rw [hb, h1]
            rfl
          · rintro ⟨z, mz, hz⟩
            rcases List.mem_cons.1 mz with rfl | mz
            · exact hn hz
            · exact h2 ⟨z, mz, hz⟩
  refine ⟨?_, ?_, ?_⟩
  · rcases hfind xs (fun _ h => h) with ⟨i, h1, ⟨z, h2, h3⟩, -⟩ | ⟨h1, h2⟩
    · exact ⟨true, by unfold pyContains; rw [h1]; rfl, by simpa using ⟨z, List.mem_of_getElem? h2, h3⟩⟩
    · exact ⟨false, by unfold pyContains; rw [h1]; rfl, by simpa using h2⟩
  · rcases hfind xs (fun _ h => h) with ⟨i, h1, h2, h3⟩ | ⟨h1, h2⟩
    · exact .inl ⟨i, by unfold pyIndex; rw [h1]; rfl, h2, h3⟩
    · exact .inr ⟨by unfold pyIndex; rw [h1]; rfl, h2⟩
  · have : ∀ ys : List (PyVal K), (∀ y ∈ ys, y ∈ xs) → ∃ n, pyCount w x ys = .ok n ∧
        ∀ (dec : ∀ y, Decidable (same y)), n = (ys.filter (fun y => decide (same y))).length := by
      intro ys
      induction ys with
      | nil => exact fun _ => ⟨0, rfl, by simp⟩
      | cons y ys ih =>
        intro hsub
        obtain ⟨b, hb, hb'⟩ := holds_eq hw hx (List.mem_cons_of_mem x (hsub y (by simp))) (List.mem_cons_self (a := x))
        have hb'' : b = true ↔ same y := hb'
        obtain ⟨n, h1, h2⟩ := ih (fun z hz => hsub z (List.mem_cons_of_mem _ hz))
        refine ⟨if b then n + 1 else n, by unfold pyCount; rw [hb, h1]; rfl, fun dec => ?_⟩
        rw [List.filter_cons]
        cases b with
        | true => rw [if_pos (decide_eq_true (hb''.1 rfl)), h2 dec]; rfl
        | false =>
          have hn : ¬ same y := fun hs => by cases hb''.2 hs
          rw [if_neg (c := decide (same y) = true) (by simp [hn]), h2 dec]; rfl
    exact this xs (fun _ h => h)

/-! ## `sorted` -/

omit [Field K] [IsStrictOrderedRing K] [RPow K] [LawfulRPow K] [PyFloor K] in
/-- The run depends only on the answers; if it meets no exception, it is the same with any numbers that give
the same answers wherever there was one. -/
theorem run_agree {n : Nat} (lt : Fin n → Fin n → Py Bool) (f : Fin n → K)
    (hf : ∀ i j b, lt i j = .ok b → decide (f i < f j) = b) : ∀ (alg : CmpSort n) (o : List (Fin n)),
    alg.run lt = .ok o → alg.run (fun i j => .ok (decide (f i < f j))) = .ok o := by
  intro alg
  induction alg with
  | done order => exact fun o ho => ho
  | ask i j yes no ihy ihn =>
    intro o ho
    unfold CmpSort.run at ho ⊢
    rcases hl : lt i j with e | b
    · rw [hl] at ho; cases ho
    · rw [hl] at ho
      rw [hf i j b hl]
      cases b with
      | true => exact ihy o ho
      | false => exact ihn o ho

omit [Field K] [LinearOrder K] [IsStrictOrderedRing K] [RPow K] [LawfulRPow K] [PyFloor K] in
theorem run_error {n : Nat} (lt : Fin n → Fin n → Py Bool) (hl : ∀ i j e, lt i j = .error e → e = .valueError) :
    ∀ (alg : CmpSort n) (e : PyErr), alg.run lt = .error e → e = .valueError := by
  intro alg
  induction alg with
  | done order => intro e he; cases he
  | ask i j yes no ihy ihn =>
    intro e he
    unfold CmpSort.run at he
    rcases hlt : lt i j with e' | b
    · rw [hlt] at he
      cases he
      exact hl i j _ hlt
    · rw [hlt] at he
      cases b with
      | true => exact ihy e he
      | false => exact ihn e he

omit [RPow K] [LawfulRPow K] [PyFloor K] in
/-- A correct comparison sort that meets no exception has compared enough to connect all elements: it cannot
have stayed within the classes of a partition. -/
theorem sort_connects {n : Nat} (alg : CmpSort n) (hc : alg.Correct K) (lt : Fin n → Fin n → Py Bool)
    (f : Fin n → K) (C : Fin n → Prop) (hlt : ∀ i j b, lt i j = .ok b → (C i ↔ C j) ∧ decide (f i < f j) = b)
    (hr : Returns (alg.run lt)) (a b : Fin n) (ha : C a) (hb : ¬ C b) : False := by
  classical
  obtain ⟨o, ho⟩ := hr
  -- numbers with the same order within the classes
  obtain ⟨M, hM⟩ : ∃ M : K, ∀ i, |f i| < M :=
    ⟨(Finset.univ.sup' ⟨a, Finset.mem_univ a⟩ (fun i => |f i|)) + 1, fun i =>
      lt_of_le_of_lt (Finset.le_sup' (fun i => |f i|) (Finset.mem_univ i)) (lt_add_one _)⟩
  have agree : ∀ s : K, alg.run (fun i j => .ok (decide ((if C i then f i + s else f i) < (if C j then f j + s else f j)))) = .ok o := by
    intro s
    refine run_agree lt (fun i => if C i then f i + s else f i) ?_ alg o ho
    intro i j b hb
    obtain ⟨h1, h2⟩ := hlt i j b hb
    rw [← h2]
    by_cases hi : C i
    · simp [hi, h1.1 hi]
    · have hj : ¬ C j := fun h => hi (h1.2 h)
      simp [hi, hj]
  have hM0 : ∀ i, -M < f i ∧ f i < M := fun i => abs_lt.1 (hM i)
  obtain ⟨o1, e1, p1, q1⟩ := hc (fun i => if C i then f i + (M + M) else f i)
  obtain ⟨o2, e2, p2, q2⟩ := hc (fun i => if C i then f i + -(M + M) else f i)
  rw [agree] at e1 e2
  cases e1; cases e2
  have key : ∀ p q : Fin n, List.Sublist [p, q] o ∨ List.Sublist [q, p] o ∨ p = q := by
    intro p q
    have mp : p ∈ o := p1.mem_iff.2 (List.mem_finRange p)
    have mq : q ∈ o := p1.mem_iff.2 (List.mem_finRange q)
    obtain ⟨s, t, rfl⟩ := List.append_of_mem mp
    rcases List.mem_append.1 mq with hq | hq
    · refine .inr (.inl ?_)
      have := List.Sublist.append (List.singleton_sublist.2 hq) (List.singleton_sublist.2 (List.mem_cons_self (a := p) (l := t)))
      simpa using this
    · rcases List.mem_cons.1 hq with rfl | hq
      · exact .inr (.inr rfl)
      · refine .inl ?_
        have h0 : List.Sublist [p, q] (p :: t) := (List.singleton_sublist.2 hq).cons_cons p
        exact h0.trans (List.sublist_append_right s _)
  rcases key a b with hs | hs | rfl
  · have := q1.sublist hs
    simp only [List.pairwise_cons, List.mem_singleton, forall_eq, ha, hb, if_true, if_false] at this
    have h1 := hM0 a
    have h2 := hM0 b
    rcases this.1 with h | h
    · linarith
    · linarith [h.1]
  · have := q2.sublist hs
    simp only [List.pairwise_cons, List.mem_singleton, forall_eq, ha, hb, if_true, if_false] at this
    have h1 := hM0 a
    have h2 := hM0 b
    rcases this.1 with h | h
    · linarith
    · linarith [h.1]
  · exact hb ha

/-- C146 (`sorted`): with any correct comparison sort, `sorted` returns exactly when any two elements have
compatible units and raises `ValueError` otherwise, even if it does not compare all pairs; the result has the
same elements, in ascending order of physical value, equal ones in the order they came. -/
theorem C146_sorted (hw : Reachable h w) (xs : List (PyVal K)) (hx : Scalars w xs) (alg : CmpSort xs.length)
    (halg : alg.Correct K) :
    (Returns (pySorted w xs alg) ↔ AllCompatible w xs) ∧
    (∀ e, pySorted w xs alg = .error e → e = .valueError) ∧
    (∀ r, pySorted w xs alg = .ok r → ∃ order : List (Fin xs.length), r = order.map xs.get ∧
      order.Perm (List.finRange xs.length) ∧
      ∀ v : Valuation w, order.Pairwise (fun i j => (xs.get i).value v < (xs.get j).value v ∨
        (xs.get i).value v = (xs.get j).value v ∧ i < j)) := by
  set lt : Fin xs.length → Fin xs.length → Py Bool := fun i j => holds w .lt (xs.get i) (xs.get j) with hlt
  have hrun : pySorted w xs alg = (alg.run lt).map (fun o => o.map xs.get) := by
    unfold pySorted
    rw [← hlt]
    cases alg.run lt <;> rfl
  have ans : ∀ i j, (Compatible w (xs.get i).dim (xs.get j).dim → ∀ v : Valuation w,
      lt i j = .ok (decide ((xs.get i).value v < (xs.get j).value v))) ∧
      (¬ Compatible w (xs.get i).dim (xs.get j).dim → lt i j = .error .valueError) := fun i j =>
    holds_single hw .lt hx (List.get_mem xs i) (List.get_mem xs j)
  have good : ∀ (v : Valuation w) i j b, lt i j = .ok b →
      Compatible w (xs.get i).dim (xs.get j).dim ∧ decide ((xs.get i).value v < (xs.get j).value v) = b := by
    intro v i j b hb
    by_cases hc : Compatible w (xs.get i).dim (xs.get j).dim
    · refine ⟨hc, ?_⟩
      rw [(ans i j).1 hc v] at hb
      exact Except.ok.inj hb
    · rw [(ans i j).2 hc] at hb; cases hb
  rw [hrun]
  refine ⟨?_, ?_, ?_⟩
  · rw [returns_map]
    obtain ⟨v0⟩ := exists_valuation hw.wf
    constructor
    · intro hr x mx y my
      obtain ⟨i, rfl⟩ := List.get_of_mem mx
      obtain ⟨j, rfl⟩ := List.get_of_mem my
      by_contra hcon
      refine sort_connects alg halg lt (fun i => (xs.get i).value v0)
        (fun k => Compatible w (xs.get i).dim (xs.get k).dim) ?_ hr i j (compatible_refl _ _) hcon
      intro p q b hb
      obtain ⟨g1, g2⟩ := good v0 p q b hb
      exact ⟨⟨fun hh => compatible_trans hh g1, fun hh => compatible_trans hh (compatible_symm hw.wf g1)⟩, g2⟩
    · intro hall
      have e : lt = fun i j => .ok (decide ((xs.get i).value v0 < (xs.get j).value v0)) := by
        funext i j
        exact (ans i j).1 (hall _ (List.get_mem xs i) _ (List.get_mem xs j)) v0
      obtain ⟨o, ho, -⟩ := halg (fun i => (xs.get i).value v0)
      rw [e]
      exact ⟨o, ho⟩
  · intro e he
    rcases hr : alg.run lt with e' | o
    · rw [hr] at he
      cases he
      refine run_error lt ?_ alg _ hr
      intro i j e he
      by_cases hc : Compatible w (xs.get i).dim (xs.get j).dim
      · obtain ⟨v0⟩ := exists_valuation hw.wf
        rw [(ans i j).1 hc v0] at he; cases he
      · rw [(ans i j).2 hc] at he; cases he; rfl
    · rw [hr] at he; cases he
  · intro r hr
    obtain ⟨o, ho, rfl⟩ := map_ok hr
    obtain ⟨v0⟩ := exists_valuation hw.wf
    have hv : ∀ v : Valuation w, o.Perm (List.finRange xs.length) ∧
        o.Pairwise (fun i j => (xs.get i).value v < (xs.get j).value v ∨
          (xs.get i).value v = (xs.get j).value v ∧ i < j) := by
      intro v
      obtain ⟨o', e', p', q'⟩ := halg (fun i => (xs.get i).value v)
      rw [run_agree lt (fun i => (xs.get i).value v) (fun i j b hb => (good v i j b hb).2) alg o ho] at e'
      cases e'
      exact ⟨p', q'⟩
    exact ⟨o, rfl, (hv v0).1, fun v => (hv v).2⟩

/-! ## `sum` -/

/-- One step of `sum`. -/
theorem add_step (hw : Reachable h w) (x y : PyVal K) (hx : x.Exact) (hy : y.Exact) (dx : DimOK w x.dim)
    (dy : DimOK w y.dim) (hs : HashSafe w x.dim y.dim) :
    (Returns (binop w .add x y) ↔ Compatible w x.dim y.dim ∧ (bshape x.mag.shape y.mag.shape).isSome) ∧
    (∀ e, binop w .add x y = .error e → e = .valueError) ∧
    (∀ r, binop w .add x y = .ok r → r.Exact ∧ DimOK w r.dim ∧
      (SameContent r.dim x.dim ∨ (∃ a, x = .array a) ∧ SameContent r.dim y.dim) ∧
      ∀ v : Valuation w, NDArr.bin (· + ·) (x.phys v) (y.phys v) = .ok (r.phys v)) := by
  refine ⟨(C56_returns hw x y hx hy dx dy).1 hs .add (.inl rfl), ?_⟩
  suffices hd : (∀ e, binop w .add x y = .error e → e = .valueError) ∧
    (∀ r, binop w .add x y = .ok r → r.Exact ∧
      (SameContent r.dim x.dim ∨ (∃ a, x = .array a) ∧ SameContent r.dim y.dim) ∧
      ∀ v : Valuation w, NDArr.bin (· + ·) (x.phys v) (y.phys v) = .ok (r.phys v)) by
    refine ⟨hd.1, fun r hr => ?_⟩
    obtain ⟨r1, r3, r4⟩ := hd.2 r hr
    exact ⟨r1, (binop_phys hw (by simp) hx hy dx dy (fun _ => hs) hr).1, r3, r4⟩
  rw [C56_unit_is_one w .add x y hx hy]
  have px : ∀ v : Valuation w, x.phys v = x.oneOf.phys v := fun v => (phys_oneOf v x).symm
  have py : ∀ v : Valuation w, y.phys v = y.oneOf.phys v := fun v => (phys_oneOf v y).symm
  simp only [px, py]
  rw [← oneOf_dim x] at dx hs ⊢
  rw [← oneOf_dim y] at dy hs ⊢
  have hx1 : x.oneOf.Exact := by cases x <;> first | exact hx | trivial
  have hy1 : y.oneOf.Exact := by cases y <;> first | exact hy | trivial
  have hxa : (∃ a, x.oneOf = .array a) → ∃ a, x = .array a := by
    cases x <;> rintro ⟨a, ha⟩ <;> first | exact ⟨_, rfl⟩ | (simp [PyVal.oneOf] at ha)
  have hu : ∀ u, y.oneOf ≠ .unit u := by intro u; cases y <;> simp [PyVal.oneOf]
  have hu' : ∀ u, x.oneOf ≠ .unit u := by intro u; cases x <;> simp [PyVal.oneOf]
  suffices hh : (∀ e, binop w .add x.oneOf y.oneOf = .error e → e = .valueError) ∧
    (∀ r, binop w .add x.oneOf y.oneOf = .ok r → r.Exact ∧
      (SameContent r.dim x.oneOf.dim ∨ (∃ a, x.oneOf = .array a) ∧ SameContent r.dim y.oneOf.dim) ∧
      ∀ v : Valuation w, NDArr.bin (· + ·) (x.oneOf.phys v) (y.oneOf.phys v) = .ok (r.phys v)) by
    refine ⟨hh.1, fun r hr => ?_⟩
    obtain ⟨r1, r3, r4⟩ := hh.2 r hr
    exact ⟨r1, r3.imp id (fun r => ⟨hxa r.1, r.2⟩), r4⟩
  generalize x.oneOf = x' at *
  generalize y.oneOf = y' at *
  cases x' with
  | uncertain a => exact hx1.elim
  | unit u => exact absurd rfl (hu' u)
  | quantity a =>
    have core : ∀ o : Operand K, DimOK w o.dim → HashSafe w o.dim a.dim →
        (∀ e, (a.add w o).map PyVal.quantity = .error e → e = .valueError) ∧
        (∀ r, (a.add w o).map PyVal.quantity = .ok r → r.Exact ∧
          SameContent r.dim a.dim ∧
          ∀ v : Valuation w, NDArr.bin (· + ·) (v.phys a) (v.physOp o) = .ok (r.phys v)) := by
      intro o ho hso
      obtain ⟨-, h2, h3⟩ := C13_add hw a o dx ho hso
      refine ⟨fun e he => ?_, fun r hr => ?_⟩
      · rcases h0 : a.add w o with e' | q
        · rw [h0] at he; cases he; exact h2 _ h0
        · rw [h0] at he; cases he
      · obtain ⟨q, hq, rfl⟩ := map_ok hr
        obtain ⟨c1, c2⟩ := h3 q hq
        exact ⟨trivial, c1, c2⟩
    cases y' with
    | uncertain b => exact hy1.elim
    | unit u => exact absurd rfl (hu u)
    | quantity b =>
      obtain ⟨c1, c2⟩ := core (.quantity b) dy hs.symm
      exact ⟨c1, fun r hr => let ⟨r1, r3, r4⟩ := c2 r hr; ⟨r1, .inl r3, r4⟩⟩
    | array b =>
      obtain ⟨c1, c2⟩ := core (.array b) dy hs.symm
      refine ⟨c1, fun r hr => ?_⟩
      obtain ⟨r1, r3, r4⟩ := c2 r hr
      refine ⟨r1, .inl r3, fun v => ?_⟩
      rw [phys_array]
      exact r4 v
  | array a =>
    cases y' with
    | uncertain b => exact hy1.elim
    | unit u => exact absurd rfl (hu u)
    | quantity b =>
      obtain ⟨-, h2, h3⟩ := C13_radd hw b (.array a) dy dx hs
      have e0 : binop w .add (.array a) (.quantity b) = (b.radd w (.array a)).map PyVal.quantity := rfl
      rw [e0]
      refine ⟨fun e he => ?_, fun r hr => ?_⟩
      · rcases h0 : b.radd w (.array a) with e' | q
        · rw [h0] at he; cases he; exact h2 _ h0
        · rw [h0] at he; cases he
      · obtain ⟨q, hq, rfl⟩ := map_ok hr
        obtain ⟨c1, c2⟩ := h3 q hq
        refine ⟨trivial, .inr ⟨⟨a, rfl⟩, c1⟩, fun v => ?_⟩
        rw [phys_array]
        exact c2 v
    | array b =>
      have e0 : binop w .add (.array a : PyVal K) (.array b) = (NDArr.bin (· + ·) a b).map PyVal.array := rfl
      rw [e0]
      refine ⟨fun e he => ?_, fun r hr => ?_⟩
      · rcases h0 : NDArr.bin (fun x y : K => x + y) a b with e' | q
        · rw [h0] at he; cases he; exact NDArr.bin_error h0
        · rw [h0] at he; cases he
      · obtain ⟨q, hq, rfl⟩ := map_ok hr
        refine ⟨trivial, .inl (SameContent.refl _), fun v => ?_⟩
        rw [phys_array, phys_array, phys_array]
        exact hq

omit [Field K] [LinearOrder K] [IsStrictOrderedRing K] [RPow K] [LawfulRPow K] [PyFloor K] in
theorem foldlM_ok_cons {α β : Type _} (f : β → α → Py β) (b : β) (a : α) (l : List α) :
    (a :: l).foldlM f b = match f b a with | .error e => .error e | .ok c => l.foldlM f c := by
  rw [List.foldlM_cons]
  cases f b a <;> rfl

/-- C146 (`sum`): `sum(xs, start)` returns exactly when every element has units compatible with those of
`start` (a plain number counting as dimensionless) and the shapes broadcast, and raises `ValueError`
otherwise; the result is the sum of the physical values, in the units of `start` if that has any. -/
theorem C146_sum (hw : Reachable h w) : ∀ (xs : List (PyVal K)) (start : PyVal K), start.Exact →
    (∀ x ∈ xs, x.Exact) → DimOK w start.dim → (∀ x ∈ xs, DimOK w x.dim) →
    (∀ x ∈ start :: xs, ∀ y ∈ start :: xs, HashSafe w x.dim y.dim) →
    (Returns (pySum w xs start) ↔ (∀ x ∈ xs, Compatible w start.dim x.dim) ∧
      (xs.foldlM (fun s x => bshape s x.mag.shape) start.mag.shape).isSome) ∧
    (∀ e, pySum w xs start = .error e → e = .valueError) ∧
    (∀ r, pySum w xs start = .ok r → ((∀ a, start ≠ .array a) → SameContent r.dim start.dim) ∧
      ∀ v : Valuation w, xs.foldlM (fun s x => NDArr.bin (· + ·) s (x.phys v)) (start.phys v) =
        .ok (r.phys v)) := by
  intro xs
  induction xs with
  | nil =>
    intro start _ _ _ _ _
    have e : pySum w [] start = .ok start := rfl
    rw [e]
    refine ⟨⟨fun _ => ⟨by simp, rfl⟩, fun _ => returns_ok _⟩, fun e he => (by cases he), fun r hr => ?_⟩
    cases hr
    exact ⟨fun _ => SameContent.refl _, fun v => rfl⟩
  | cons x xs ih =>
    intro start hst hxs dst dxs hs
    obtain ⟨s1, s2, s3⟩ := add_step hw start x hst (hxs x (by simp)) dst (dxs x (by simp))
      (hs start (by simp) x (by simp))
    have e0 : pySum w (x :: xs) start = match binop w .add start x with
        | .error e => .error e
        | .ok c => pySum w xs c := by
      unfold pySum
      rw [foldlM_ok_cons]
      cases binop w .add start x <;> rfl
    rw [e0]
    rcases hb : binop w .add start x with e | c
    · rw [hb] at s1 s2
      refine ⟨⟨fun hr => absurd hr (not_returns_error _), fun hr => ?_⟩, fun e' he => ?_, fun r hr => (by cases hr)⟩
      · refine absurd (s1.2 ⟨hr.1 x (by simp), ?_⟩) (not_returns_error _)
        have := hr.2
        rw [List.foldlM_cons] at this
        rcases hsh : bshape start.mag.shape x.mag.shape with _ | t
        · rw [hsh] at this; cases this
        · rfl
      · cases he
        exact s2 e rfl
    · obtain ⟨c1, c2, c3, c4⟩ := s3 c hb
      have hcs := s1.1 (by rw [hb]; exact returns_ok _)
      have hcc : Compatible w start.dim c.dim := by
        rcases c3 with h1 | ⟨-, h1⟩
        · exact compatible_of_same dst.canon.nodup c2.canon.nodup h1.symm
        · exact compatible_trans hcs.1 (compatible_of_same (dxs x (by simp)).canon.nodup c2.canon.nodup h1.symm)
      obtain ⟨v0⟩ := exists_valuation hw.wf
      have hshape : bshape start.mag.shape x.mag.shape = some c.mag.shape := by
        obtain ⟨t, ht⟩ := Option.isSome_iff_exists.1 hcs.2
        have := c4 v0
        unfold NDArr.bin at this
        have ht' : bshape (start.phys v0).shape (x.phys v0).shape = some t := ht
        rw [ht'] at this
        have e := congrArg NDArr.shape (Except.ok.inj this)
        rw [ht]
        exact congrArg some e
      have hsafe : ∀ y ∈ c :: xs, ∀ z ∈ c :: xs, HashSafe w y.dim z.dim := by
        have k : ∀ y ∈ xs, HashSafe w c.dim y.dim := by
          intro y my
          have dy := dxs y (by simp [my])
          rcases c3 with h1 | ⟨-, h1⟩
          · exact (hs start (by simp) y (by simp [my])).congr hw.wf dst c2 dy dy h1.symm (SameContent.refl _)
          · exact (hs x (by simp) y (by simp [my])).congr hw.wf (dxs x (by simp)) c2 dy dy h1.symm (SameContent.refl _)
        intro y my z mz
        rcases List.mem_cons.1 my with hy | my' <;> rcases List.mem_cons.1 mz with hz | mz'
        · rw [hy, hz]; exact HashSafe.refl _ _
        · rw [hy]; exact k z mz'
        · rw [hz]; exact (k y my').symm
        · exact hs y (by simp [my']) z (by simp [mz'])
      obtain ⟨i1, i2, i3⟩ := ih c c1 (fun y my => hxs y (by simp [my])) c2 (fun y my => dxs y (by simp [my])) hsafe
      have hfold : (x :: xs).foldlM (fun s (x : PyVal K) => bshape s x.mag.shape) start.mag.shape =
          xs.foldlM (fun s x => bshape s x.mag.shape) c.mag.shape := by
        rw [List.foldlM_cons, hshape]; rfl
      refine ⟨i1.trans ?_, i2, fun r hr => ?_⟩
      · rw [hfold]
        refine and_congr_left fun _ => ⟨fun ha y my => ?_, fun ha y my => ?_⟩
        · rcases List.mem_cons.1 my with rfl | my
          · exact hcs.1
          · exact compatible_trans hcc (ha y my)
        · exact compatible_trans (compatible_symm hw.wf hcc) (ha y (by simp [my]))
      · obtain ⟨j1, j2⟩ := i3 r hr
        refine ⟨fun hna => ?_, fun v => ?_⟩
        · rcases c3 with h1 | ⟨⟨a, ha⟩, -⟩
          · refine (j1 ?_).trans h1
            intro a ha
            subst ha
            cases start with
            | array b => exact hna b rfl
            | uncertain b => exact hst.elim
            | unit u =>
              cases x <;> obtain ⟨q, -, hq⟩ := map_ok hb <;> cases hq
            | quantity q =>
              cases x <;> first
                | (exact (hxs _ (by simp)).elim)
                | (simp only [binop, reflectsOver, if_true] at hb
                   obtain ⟨q, -, hq⟩ := map_ok hb; cases hq)
          · exact absurd ha (hna a)
        · rw [foldlM_ok_cons, c4 v]
          exact j2 v

/-- C146 (`sum` of single values): the physical value of the result is the sum of the physical values. -/
theorem C146_sum_value (hw : Reachable h w) (xs : List (PyVal K)) (start : PyVal K) (hst : start.Exact)
    (hxs : ∀ x ∈ xs, x.Exact) (dst : DimOK w start.dim) (dxs : ∀ x ∈ xs, DimOK w x.dim)
    (hs : ∀ x ∈ start :: xs, ∀ y ∈ start :: xs, HashSafe w x.dim y.dim)
    (single : ∀ x ∈ start :: xs, x.mag.shape = []) :
    (Returns (pySum w xs start) ↔ ∀ x ∈ xs, Compatible w start.dim x.dim) ∧
    ∀ r, pySum w xs start = .ok r → r.mag.shape = [] ∧ ∀ v : Valuation w,
      r.value v = start.value v + (xs.map (PyVal.value v)).sum := by
  obtain ⟨h1, -, h3⟩ := C146_sum hw xs start hst hxs dst dxs hs
  have hsh : xs.foldlM (fun s (x : PyVal K) => bshape s x.mag.shape) start.mag.shape = some [] := by
    rw [single start (by simp)]
    have hx : ∀ x ∈ xs, x.mag.shape = [] := fun x hx => single x (by simp [hx])
    clear h1 h3 hs dxs hxs single
    induction xs with
    | nil => rfl
    | cons x xs ih =>
      rw [List.foldlM_cons, hx x (by simp)]
      exact ih (fun y my => hx y (by simp [my]))
  refine ⟨?_, fun r hr => ?_⟩
  · rw [h1, hsh]; simp
  · obtain ⟨-, h4⟩ := h3 r hr
    have key : ∀ (v : Valuation w) (ys : List (PyVal K)) (a b : NDArr K), (∀ y ∈ ys, y.mag.shape = []) →
        a.shape = [] → ys.foldlM (fun s x => NDArr.bin (· + ·) s (x.phys v)) a = .ok b →
        b.shape = [] ∧ b.elem [] = a.elem [] + (ys.map (PyVal.value v)).sum := by
      intro v ys
      induction ys with
      | nil =>
        intro a b _ ha hb
        cases hb
        exact ⟨ha, by simp⟩
      | cons y ys ih =>
        intro a b hy ha hb
        rw [foldlM_ok_cons] at hb
        have hy' : (y.phys v).shape = [] := hy y (by simp)
        have e : NDArr.bin (· + ·) a (y.phys v) =
            .ok ⟨[], fun i => a.elem (bidx [] i) + (y.phys v).elem (bidx [] i)⟩ := by
          unfold NDArr.bin
          rw [ha, hy']
          rfl
        rw [e] at hb
        obtain ⟨k1, k2⟩ := ih _ b (fun z hz => hy z (by simp [hz])) rfl hb
        refine ⟨k1, ?_⟩
        rw [k2, List.map_cons, List.sum_cons, ← add_assoc]
        rfl
    obtain ⟨v0⟩ := exists_valuation hw.wf
    have hx : ∀ x ∈ xs, x.mag.shape = [] := fun x hx => single x (by simp [hx])
    exact ⟨(key v0 xs (start.phys v0) _ hx (single start (by simp)) (h4 v0)).1,
      fun v => (key v xs (start.phys v) _ hx (single start (by simp)) (h4 v)).2⟩

/-! ## Witnesses and concrete cases -/

theorem ex_incompat_nil_m : ¬ Compatible exWorld [] dM := by
  rw [compatible_iff exWorld_wf (DimOK.nil _) (ex_dimOK _ (by simp)), exRef_m]
  intro h
  have := h uM
  simp [Dict.get?_cons, uM, World.refUnits] at this

theorem ex_safe_nil_m : HashSafe exWorld [] dM := by
  have e : exWorld.deq [] dM = false := by
    simp only [World.deq, Dim.eq, dM]
    rw [show exWorld.hasher = exH from rfl, exHash1]
    decide +kernel
  refine ⟨fun h => (by rw [e] at h; cases h), fun h => ?_⟩
  rw [exRef_m] at h
  have e' : exWorld.deq (exWorld.refUnits []).dim [(uM, 1)] = false := e
  rw [e'] at h
  cases h

/-- C146 is false for the default start of `sum`: `sum([m, m])` raises `ValueError`, because it begins with
`0 + m`. -/
theorem C146_false_sum_default : pySum exWorld [.unit uM, .unit uM] = .error .valueError ∧
    Compatible exWorld (PyVal.unit uM : PyVal ℝ).dim (PyVal.unit uM : PyVal ℝ).dim := by
  refine ⟨?_, compatible_refl _ _⟩
  have dm : DimOK exWorld (unitDim uM) := ex_dimOK dM (by simp)
  have sm : HashSafe exWorld [] (unitDim uM) := ex_safe_nil_m
  obtain ⟨h1, h2, -⟩ := C146_sum exWorld_reachable [.unit uM, .unit uM] (.array (NDArr.scalar 0)) trivial
    (by intro x hx; simp only [List.mem_cons, List.not_mem_nil, or_false, or_self] at hx; subst hx; trivial) (DimOK.nil _)
    (by intro x hx; simp only [List.mem_cons, List.not_mem_nil, or_false, or_self] at hx; subst hx; exact dm)
    (by
      intro x hx y hy
      simp only [List.mem_cons, List.not_mem_nil, or_false, or_self] at hx hy
      rcases hx with rfl | rfl <;> rcases hy with rfl | rfl
      · exact HashSafe.refl _ _
      · exact sm
      · exact sm.symm
      · exact HashSafe.refl _ _)
  rcases hr : pySum exWorld [.unit uM, .unit uM] (.array (NDArr.scalar 0)) with e | r
  · rw [h2 e hr]
  · exact absurd ((h1.1 ⟨r, hr⟩).1 (.unit uM) (by simp)) ex_incompat_nil_m

/-- 500 m, a kilometre and 2 km. -/
noncomputable def exLengths : List (PyVal ℝ) :=
  [.quantity ⟨NDArr.scalar 500, dM⟩, .unit uKm, .quantity ⟨NDArr.scalar 2, dKm⟩]

theorem exLengths_ok : Scalars exWorld exLengths := by
  have hd : ∀ x ∈ exLengths, x.dim = dM ∨ x.dim = dKm := by
    intro x hx
    simp only [exLengths, List.mem_cons, List.not_mem_nil, or_false] at hx
    rcases hx with rfl | rfl | rfl
    · exact .inl rfl
    · exact .inr rfl
    · exact .inr rfl
  refine ⟨?_, ?_, ?_, ?_⟩
  · intro x hx
    simp only [exLengths, List.mem_cons, List.not_mem_nil, or_false] at hx
    rcases hx with rfl | rfl | rfl <;> trivial
  · intro x hx
    simp only [exLengths, List.mem_cons, List.not_mem_nil, or_false] at hx
    rcases hx with rfl | rfl | rfl <;> rfl
  · intro x hx
    rcases hd x hx with e | e <;> rw [e] <;> exact ex_dimOK _ (by simp)
  · intro x hx y hy
    rcases hd x hx with e | e <;> rcases hd y hy with e' | e' <;> rw [e, e']
    · exact HashSafe.refl _ _
    · exact ex_safe_m_km
    · exact ex_safe_km_m
    · exact HashSafe.refl _ _

theorem exLengths_compat : AllCompatible exWorld exLengths := by
  have hd : ∀ x ∈ exLengths, Compatible exWorld x.dim dM := by
    intro x hx
    simp only [exLengths, List.mem_cons, List.not_mem_nil, or_false] at hx
    rcases hx with rfl | rfl | rfl
    · exact compatible_refl _ _
    · exact ex_compat
    · exact ex_compat
  exact fun x hx y hy => compatible_trans (hd x hx) (compatible_symm exWorld_wf (hd y hy))

/-- `max`, `min` of them. -/
example : Returns (pyMax exWorld exLengths) ∧ Returns (pyMin exWorld exLengths) :=
  ⟨(C146_max exWorld_reachable _ exLengths_ok).1.2 ⟨by simp [exLengths], exLengths_compat⟩,
   (C146_min exWorld_reachable _ exLengths_ok).1.2 ⟨by simp [exLengths], exLengths_compat⟩⟩

/-- Sorting three elements by insertion. -/
def insertion3 : CmpSort 3 :=
  .ask 1 0
    (.ask 2 1 (.done [2, 1, 0]) (.ask 2 0 (.done [1, 2, 0]) (.done [1, 0, 2])))
    (.ask 2 1 (.ask 2 0 (.done [2, 0, 1]) (.done [0, 2, 1])) (.done [0, 1, 2]))

theorem insertion3_correct : insertion3.Correct ℝ := by
  intro f
  simp only [insertion3, CmpSort.run]
  by_cases h1 : f 1 < f 0 <;> by_cases h2 : f 2 < f 1 <;> by_cases h3 : f 2 < f 0 <;>
    simp only [h1, h2, h3, decide_true, decide_false, CmpSort.run] <;>
    refine ⟨_, rfl, by decide, ?_⟩ <;>
    simp only [List.pairwise_cons, List.mem_cons, List.not_mem_nil, or_false, forall_eq_or_imp, forall_eq,
      List.Pairwise.nil, and_true, IsEmpty.forall_iff, implies_true] <;>
    (try simp only [not_lt] at h1) <;> (try simp only [not_lt] at h2) <;> (try simp only [not_lt] at h3)
  all_goals
    refine ⟨⟨?_, ?_⟩, ?_⟩ <;>
    first
    | (left; linarith)
    | exact ((lt_or_eq_of_le (by linarith)).imp id (fun h => ⟨h, by decide⟩))

/-- `sorted` of them. -/
example : Returns (pySorted exWorld exLengths insertion3) :=
  (C146_sorted exWorld_reachable _ exLengths_ok insertion3 insertion3_correct).1.2 exLengths_compat

/-- `sum` of them starting from `0 m`. -/
example : ∃ r, pySum exWorld exLengths (.quantity ⟨NDArr.scalar 0, dM⟩) = .ok r ∧ r.mag.shape = [] ∧
    ∀ v : Valuation exWorld, r.value v = 3500 * v.size dM := by
  have hd : ∀ x ∈ (PyVal.quantity ⟨NDArr.scalar 0, dM⟩) :: exLengths, x.dim = dM ∨ x.dim = dKm := by
    intro x hx
    simp only [exLengths, List.mem_cons, List.not_mem_nil, or_false] at hx
    rcases hx with rfl | rfl | rfl | rfl
    · exact .inl rfl
    · exact .inl rfl
    · exact .inr rfl
    · exact .inr rfl
  obtain ⟨h1, h2⟩ := C146_sum_value exWorld_reachable exLengths (.quantity ⟨NDArr.scalar 0, dM⟩) trivial
    (by
      intro x hx
      simp only [exLengths, List.mem_cons, List.not_mem_nil, or_false] at hx
      rcases hx with rfl | rfl | rfl <;> trivial)
    (ex_dimOK dM (by simp)) exLengths_ok.known
    (by
      intro x hx y hy
      rcases hd x hx with e | e <;> rcases hd y hy with e' | e' <;> rw [e, e']
      · exact HashSafe.refl _ _
      · exact ex_safe_m_km
      · exact ex_safe_km_m
      · exact HashSafe.refl _ _)
    (by
      intro x hx
      rcases List.mem_cons.1 hx with rfl | hx
      · rfl
      · exact exLengths_ok.single x hx)
  obtain ⟨r, hr⟩ := h1.2 (fun x hx => exLengths_compat (.quantity ⟨NDArr.scalar 500, dM⟩) (by simp [exLengths]) x hx)
  obtain ⟨k1, k2⟩ := h2 r hr
  refine ⟨r, hr, k1, fun v => ?_⟩
  have hkm : v.size dKm = 1000 * v.size dM := by
    have := v.defined uKm (exWorld.info uKm |>.get (by rfl)) ⟨1000, dM⟩ (by rfl) (by rfl)
    simp only [Valuation.size, dKm, dM, dsize_cons, dsize_nil, mul_one, LawfulRPow.rpow_one] at this ⊢
    exact this
  have e0 : (PyVal.quantity (⟨NDArr.scalar 0, dM⟩ : Quantity ℝ)).value v = 0 * v.size dM := rfl
  have e1 : (PyVal.quantity (⟨NDArr.scalar 500, dM⟩ : Quantity ℝ)).value v = 500 * v.size dM := rfl
  have e2 : (PyVal.unit uKm : PyVal ℝ).value v = 1 * v.size dKm := rfl
  have e3 : (PyVal.quantity (⟨NDArr.scalar 2, dKm⟩ : Quantity ℝ)).value v = 2 * v.size dKm := rfl
  rw [k2 v]
  simp only [exLengths, List.map_cons, List.map_nil, List.sum_cons, List.sum_nil, e0, e1, e2, e3, hkm]
  ring

/-- Searching them for 1000 m. -/
example : ∃ b, pyContains exWorld (.unit uKm) exLengths = .ok b ∧ b = true := by
  have hx : Scalars exWorld (PyVal.unit uKm :: exLengths) := by
    have mem : ∀ x ∈ PyVal.unit uKm :: exLengths, x ∈ exLengths := by
      intro x hx
      rcases List.mem_cons.1 hx with rfl | hx
      · simp [exLengths]
      · exact hx
    exact ⟨fun x m => exLengths_ok.units x (mem x m), fun x m => exLengths_ok.single x (mem x m),
      fun x m => exLengths_ok.known x (mem x m), fun x m y m' => exLengths_ok.safe x (mem x m) y (mem y m')⟩
  obtain ⟨⟨b, h1, h2⟩, -⟩ := C146_search exWorld_reachable (.unit uKm) exLengths hx
  exact ⟨b, h1, h2.2 ⟨.unit uKm, by simp [exLengths], compatible_refl _ _, fun v => rfl⟩⟩

end PQ
