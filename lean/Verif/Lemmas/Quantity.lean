import Verif.Lemmas.Reach

/-! # Lemmas about quantities -/

namespace PQ

open Dict LawfulRPow World

variable {K : Type _}

/-! ### arrays -/

theorem NDArr.ext' {α : Type _} {a b : NDArr α} (h1 : a.shape = b.shape) (h2 : a.elem = b.elem) :
    a = b := by cases a; cases b; simp_all

@[simp] theorem NDArr.map_map {α β γ : Type _} (f : β → γ) (g : α → β) (a : NDArr α) :
    (a.map g).map f = a.map (fun x => f (g x)) := rfl

@[simp] theorem NDArr.map_shape {α β : Type _} (f : α → β) (a : NDArr α) :
    (a.map f).shape = a.shape := rfl

@[simp] theorem NDArr.map_elem {α β : Type _} (f : α → β) (a : NDArr α) (i : List ℕ) :
    (a.map f).elem i = f (a.elem i) := rfl

theorem NDArr.map_id' {α : Type _} {f : α → α} (h : ∀ x, f x = x) (a : NDArr α) : a.map f = a := by
  cases a; simp [NDArr.map, h]

theorem NDArr.map_congr {α β : Type _} {f g : α → β} (h : ∀ x, f x = g x) (a : NDArr α) :
    a.map f = a.map g := by simp [NDArr.map, h]

/-- Elementwise operations on mapped arrays. -/
theorem NDArr.bin_map {α α' β β' γ : Type _} (f : α' → β' → γ) (g : α → α') (h : β → β')
    (a : NDArr α) (b : NDArr β) :
    NDArr.bin f (a.map g) (b.map h) = NDArr.bin (fun x y => f (g x) (h y)) a b := by
  unfold NDArr.bin
  simp only [NDArr.map_shape]
  split <;> rfl

theorem NDArr.map_bin {α β γ δ : Type _} (f : α → β → γ) (g : γ → δ) (a : NDArr α) (b : NDArr β) :
    (NDArr.bin f a b).map (NDArr.map g) = NDArr.bin (fun x y => g (f x y)) a b := by
  unfold NDArr.bin
  split <;> rfl

theorem NDArr.bin_congr {α β γ : Type _} {f g : α → β → γ} (h : ∀ x y, f x y = g x y)
    (a : NDArr α) (b : NDArr β) : NDArr.bin f a b = NDArr.bin g a b := by
  have : f = g := by funext x y; exact h x y
  rw [this]

/-- Whether an elementwise operation is defined depends only on the shapes. -/
theorem NDArr.bin_ok_iff {α β γ : Type _} (f : α → β → γ) (a : NDArr α) (b : NDArr β) :
    Returns (NDArr.bin f a b) ↔ (NDArr.bshape a.shape b.shape).isSome := by
  unfold NDArr.bin Returns
  rcases NDArr.bshape a.shape b.shape with _ | s <;> simp

theorem NDArr.bin_error {α β γ : Type _} {f : α → β → γ} {a : NDArr α} {b : NDArr β} {e : PyErr}
    (h : NDArr.bin f a b = .error e) : e = .valueError := by
  unfold NDArr.bin at h
  split at h
  · exact absurd h (by simp)
  · simp only [Except.error.injEq] at h; exact h.symm

theorem returns_ok {α : Type _} (a : α) : Returns (Except.ok a : Py α) := ⟨a, rfl⟩

theorem not_returns_error {α : Type _} (e : PyErr) : ¬ Returns (Except.error e : Py α) := by
  rintro ⟨a, h⟩; exact absurd h (by simp)

/-! ### conversion factors -/

theorem deq_same {w : World K} {a b : Dim} (ha : Nodup a) (hb : Nodup b) (h : SameContent a b) :
    w.deq a b = true := deq_of_same _ _ ha hb h

theorem deq_comm (w : World K) (a b : Dim) : w.deq a b = w.deq b a := by
  unfold World.deq Dim.eq; exact Bool.beq_comm

theorem deq_self (w : World K) (a : Dim) : w.deq a a = true := deq_refl _ _ _

theorem dne_eq (w : World K) (a b : Dim) : w.dne a b = !w.deq a b := rfl

theorem convFactor_def [One K] [Mul K] [RPow K] [Div K] (w : World K) (a b : Dim) :
    w.convFactor a b = if w.deq (w.refUnits a).dim (w.refUnits b).dim then
      .ok ((w.refUnits a).mag * 1 / ((w.refUnits b).mag * 1)) else .error .assertionError := rfl

theorem convFactor_error [One K] [Mul K] [RPow K] [Div K] {w : World K} {a b : Dim} {e : PyErr}
    (h : w.convFactor a b = .error e) : e = .assertionError := by
  rw [convFactor_def] at h
  split at h
  · exact absurd h (by simp)
  · simp only [Except.error.injEq] at h; exact h.symm

theorem rescale_error [One K] [Mul K] [RPow K] [Div K] {w : World K} {q : Quantity K} {d : Dim}
    {e : PyErr} (h : q.rescale w d = .error e) : e = .valueError := by
  unfold Quantity.rescale at h
  split at h
  · exact absurd h (by simp)
  · rcases hc : w.convFactor q.dim d with e' | cf
    · have := convFactor_error hc
      subst this
      rw [hc] at h
      simp only [Except.error.injEq] at h; exact h.symm
    · rw [hc] at h; exact absurd h (by simp)

section
variable [Field K] [LinearOrder K] [IsStrictOrderedRing K] [RPow K] [LawfulRPow K]

/-- A successful conversion factor is the ratio of unit sizes. -/
theorem convFactor_ok {w : World K} (hw : WF w) {a b : Dim} (ha : DimOK w a) (hb : DimOK w b)
    (hs : NoColl w (w.refUnits a).dim (w.refUnits b).dim) {cf : K}
    (h : w.convFactor a b = .ok cf) : 0 < cf ∧ ∀ v : Valuation w, v.size a = cf * v.size b := by
  obtain ⟨a1, a2, a3⟩ := refUnits_spec hw ha
  obtain ⟨b1, b2, b3⟩ := refUnits_spec hw hb
  rw [convFactor_def] at h
  simp only [mul_one] at h
  split at h
  · rename_i hd
    simp only [Except.ok.injEq] at h
    subst h
    refine ⟨div_pos a1 b1, fun v => ?_⟩
    have e : v.size (w.refUnits a).dim = v.size (w.refUnits b).dim :=
      dsize_same v.val a2.canon.nodup b2.canon.nodup (hs hd)
    rw [← a3 v, ← b3 v, e]; field_simp
  · exact absurd h (by simp)

theorem convFactor_returns {w : World K} (hw : WF w) {a b : Dim} (ha : DimOK w a) (hb : DimOK w b)
    (hs : NoColl w (w.refUnits a).dim (w.refUnits b).dim) :
    Returns (w.convFactor a b) ↔ Compatible w a b := by
  obtain ⟨a1, a2, a3⟩ := refUnits_spec hw ha
  obtain ⟨b1, b2, b3⟩ := refUnits_spec hw hb
  rw [compatible_iff hw ha hb]
  constructor
  · rintro ⟨cf, h⟩
    rw [convFactor_def] at h
    split at h
    · rename_i hd; exact hs hd
    · exact absurd h (by simp)
  · intro h
    rw [convFactor_def, if_pos (deq_same a2.canon.nodup b2.canon.nodup h)]
    exact returns_ok _

omit [IsStrictOrderedRing K] [LawfulRPow K] in
theorem compatible_of_same {w : World K} {a b : Dim} (ha : Nodup a) (hb : Nodup b)
    (h : SameContent a b) : Compatible w a b :=
  ⟨1, fun v => by rw [one_mul]; exact dsize_same v.val ha hb h⟩

omit [IsStrictOrderedRing K] [LawfulRPow K] in
theorem compatible_refl (w : World K) (a : Dim) : Compatible w a a := ⟨1, fun v => by rw [one_mul]⟩

theorem compatible_symm {w : World K} (hw : WF w) {a b : Dim} (h : Compatible w a b) :
    Compatible w b a := by
  obtain ⟨c, hc⟩ := h
  refine ⟨c⁻¹, fun v => ?_⟩
  have hv := hc (mkValuation hw (fun _ => 1) (fun _ => one_pos))
  have c0 : c ≠ 0 := by
    rintro rfl
    rw [zero_mul] at hv
    exact absurd hv (Valuation.size_pos _ _).ne'
  rw [hc v]; field_simp

omit [IsStrictOrderedRing K] [LawfulRPow K] in
theorem compatible_trans {w : World K} {a b c : Dim} (h : Compatible w a b)
    (h' : Compatible w b c) : Compatible w a c := by
  obtain ⟨x, hx⟩ := h
  obtain ⟨y, hy⟩ := h'
  exact ⟨x * y, fun v => by rw [hx v, hy v]; ring⟩

/-! ### rescaling -/

/-- Everything about a successful `rescale`. -/
theorem rescale_ok {w : World K} (hw : WF w) {q r : Quantity K} {d : Dim} (hq : DimOK w q.dim)
    (hd : DimOK w d) (hs : HashSafe w q.dim d) (h : q.rescale w d = .ok r) :
    r.mag.shape = q.mag.shape ∧ SameContent r.dim d ∧ DimOK w r.dim ∧
      (∀ v : Valuation w, v.size r.dim = v.size d) ∧
      ∃ cf : K, 0 < cf ∧ r.mag = q.mag.map (fun x => cf * x) ∧
        ∀ v : Valuation w, v.size q.dim = cf * v.size d := by
  unfold Quantity.rescale at h
  split at h
  · rename_i he
    simp only [Except.ok.injEq] at h; subst h
    have hsame := hs.direct he
    have e : ∀ v : Valuation w, v.size q.dim = v.size d := fun v =>
      dsize_same v.val hq.canon.nodup hd.canon.nodup hsame
    exact ⟨rfl, hsame, hq, e, 1, one_pos, (NDArr.map_id' (fun x => one_mul x) _).symm,
      fun v => by rw [e v, one_mul]⟩
  · rcases hc : w.convFactor q.dim d with e | cf
    · rw [hc] at h
      have := convFactor_error hc
      subst this
      exact absurd h (by simp)
    · rw [hc] at h
      simp only [Except.ok.injEq] at h; subst h
      obtain ⟨c1, c2⟩ := convFactor_ok hw hq hd hs.refs hc
      exact ⟨rfl, SameContent.refl _, hd, fun v => rfl, cf, c1, rfl, c2⟩

/-- Everything about a successful `rescale` of a scalar. -/
theorem rescaleS_ok {w : World K} (hw : WF w) {q s : SQ K} {d : Dim} (hq : DimOK w q.dim)
    (hd : DimOK w d) (hs : HashSafe w q.dim d) (h : w.rescaleS q d = .ok s) :
    SameContent s.dim d ∧ DimOK w s.dim ∧ (0 < q.mag → 0 < s.mag) ∧
      ∀ v : Valuation w, s.mag * v.size s.dim = q.mag * v.size q.dim := by
  unfold World.rescaleS at h
  split at h
  · rename_i he
    simp only [Except.ok.injEq] at h; subst h
    exact ⟨hs.direct he, hq, id, fun v => rfl⟩
  · rcases hc : w.convFactor q.dim d with e | cf
    · simp only [hc] at h
      have := convFactor_error hc; subst this
      exact absurd h (by simp)
    · simp only [hc, Except.ok.injEq] at h; subst h
      obtain ⟨c1, c2⟩ := convFactor_ok hw hq hd hs.refs hc
      exact ⟨SameContent.refl _, hd, fun h => mul_pos c1 h, fun v => by rw [c2 v]; ring⟩

/-- `==` of two scalar quantities means equal physical values. -/
theorem eqS_meaning {w : World K} (hw : WF w) {a b : SQ K} (ha : DimOK w a.dim) (hb : DimOK w b.dim)
    (hs : HashSafe w b.dim a.dim) (h : w.eqS a b = true) (v : Valuation w) : v.scalar a = v.scalar b := by
  unfold World.eqS at h
  rcases hr : w.rescaleS b a.dim with e | o
  · rw [hr] at h; exact absurd h (by simp)
  · rw [hr] at h
    have he := of_decide_eq_true h
    obtain ⟨c1, c2, -, c3⟩ := rescaleS_ok hw hb ha hs hr
    have e : v.size o.dim = v.size a.dim := dsize_same v.val c2.canon.nodup ha.canon.nodup c1
    have := c3 v
    rw [e, ← he] at this
    exact this

theorem rescale_phys {w : World K} (hw : WF w) {q r : Quantity K} {d : Dim} (hq : DimOK w q.dim)
    (hd : DimOK w d) (hs : HashSafe w q.dim d) (h : q.rescale w d = .ok r) (v : Valuation w) :
    v.phys r = v.phys q := by
  obtain ⟨_, _, _, h3, cf, _, h5, h6⟩ := rescale_ok hw hq hd hs h
  unfold Valuation.phys
  rw [h5, h3 v, h6 v]
  simp only [NDArr.map_map]
  exact NDArr.map_congr (fun x => by ring) _

theorem rescale_returns {w : World K} (hw : WF w) {q : Quantity K} {d : Dim} (hq : DimOK w q.dim)
    (hd : DimOK w d) (hs : HashSafe w q.dim d) :
    Returns (q.rescale w d) ↔ Compatible w q.dim d := by
  unfold Quantity.rescale
  split
  · rename_i he
    exact ⟨fun _ => compatible_of_same hq.canon.nodup hd.canon.nodup (hs.direct he),
      fun _ => returns_ok _⟩
  · rw [← convFactor_returns hw hq hd hs.refs]
    rcases hc : w.convFactor q.dim d with e | cf
    · have := convFactor_error hc
      subst this
      exact ⟨fun h => absurd h (not_returns_error _), fun h => absurd h (not_returns_error _)⟩
    · exact ⟨fun _ => returns_ok _, fun _ => returns_ok _⟩

theorem rescale_eq_error_iff {w : World K} (hw : WF w) {q : Quantity K} {d : Dim}
    (hq : DimOK w q.dim) (hd : DimOK w d) (hs : HashSafe w q.dim d) :
    q.rescale w d = .error .valueError ↔ ¬ Compatible w q.dim d := by
  rw [← rescale_returns hw hq hd hs]
  rcases h : q.rescale w d with e | r
  · have := rescale_error h
    subst this
    simp [not_returns_error]
  · simp [returns_ok]

end
end PQ

namespace PQ

open Dict LawfulRPow World

variable {K : Type _}

theorem deq_congr_left {w : World K} {a a' : Dim} (ha : Nodup a) (ha' : Nodup a')
    (h : SameContent a a') (b : Dim) : w.deq a b = w.deq a' b := by
  unfold World.deq Dim.eq
  rw [hash_perm w.hasher w.order w.order (perm_of_get?_eq ha ha' h)]

theorem NoColl.congr {w : World K} {a a' b b' : Dim} (ha : Nodup a) (ha' : Nodup a')
    (hb : Nodup b) (hb' : Nodup b') (h : SameContent a a') (h' : SameContent b b')
    (hn : NoColl w a b) : NoColl w a' b' := by
  intro he
  rw [← deq_congr_left ha ha' h, deq_comm, ← deq_congr_left hb hb' h', deq_comm] at he
  exact (h.symm.trans (hn he)).trans h'

theorem NoColl.symm {w : World K} {a b : Dim} (h : NoColl w a b) : NoColl w b a := by
  intro he; rw [deq_comm] at he; exact (h he).symm

theorem HashSafe.symm [One K] [Mul K] [RPow K] {w : World K} {a b : Dim} (h : HashSafe w a b) :
    HashSafe w b a := ⟨h.direct.symm, h.refs.symm⟩

theorem HashSafe.refl [One K] [Mul K] [RPow K] (w : World K) (a : Dim) : HashSafe w a a :=
  ⟨fun _ => SameContent.refl _, fun _ => SameContent.refl _⟩

section
variable [Field K] [LinearOrder K] [IsStrictOrderedRing K] [RPow K] [LawfulRPow K]

theorem refUnits_content {w : World K} (hw : WF w) {a b : Dim} (ha : DimOK w a) (hb : DimOK w b)
    (h : SameContent a b) : SameContent (w.refUnits a).dim (w.refUnits b).dim :=
  (compatible_iff hw ha hb).1 (compatible_of_same ha.canon.nodup hb.canon.nodup h)

theorem HashSafe.congr {w : World K} (hw : WF w) {a a' b b' : Dim} (ha : DimOK w a)
    (ha' : DimOK w a') (hb : DimOK w b) (hb' : DimOK w b') (h : SameContent a a')
    (h' : SameContent b b') (hs : HashSafe w a b) : HashSafe w a' b' :=
  ⟨hs.direct.congr ha.canon.nodup ha'.canon.nodup hb.canon.nodup hb'.canon.nodup h h',
   hs.refs.congr (refUnits_spec hw ha).2.1.canon.nodup (refUnits_spec hw ha').2.1.canon.nodup
    (refUnits_spec hw hb).2.1.canon.nodup (refUnits_spec hw hb').2.1.canon.nodup
    (refUnits_content hw ha ha' h) (refUnits_content hw hb hb' h')⟩

theorem exists_valuation {w : World K} (hw : WF w) : Nonempty (Valuation w) :=
  ⟨mkValuation hw (fun _ => 1) (fun _ => one_pos)⟩

end
end PQ

namespace PQ

open Dict LawfulRPow World

variable {K : Type _} [Field K] [LinearOrder K] [IsStrictOrderedRing K] [RPow K] [LawfulRPow K]

/-- Scalars of compatible units with equal physical values are `==`. -/
theorem eqS_of_value {w : World K} (hw : WF w) {a b : SQ K} (ha : DimOK w a.dim) (hb : DimOK w b.dim)
    (hs : HashSafe w b.dim a.dim) (hc : Compatible w b.dim a.dim)
    (hv : ∀ v : Valuation w, v.scalar a = v.scalar b) : w.eqS a b = true := by
  have hr : Returns (w.rescaleS b a.dim) := by
    unfold World.rescaleS
    split
    · exact returns_ok _
    · obtain ⟨cf, hcf⟩ := (convFactor_returns hw hb ha hs.refs).2 hc
      rw [hcf]; exact returns_ok _
  obtain ⟨o, ho⟩ := hr
  unfold World.eqS
  rw [ho]
  obtain ⟨c1, c2, -, c3⟩ := rescaleS_ok hw hb ha hs ho
  obtain ⟨v⟩ := exists_valuation hw
  have e : v.size o.dim = v.size a.dim := dsize_same v.val c2.canon.nodup ha.canon.nodup c1
  have h3 := c3 v
  have h4 := hv v
  simp only [Valuation.scalar] at h4
  rw [e, ← h4] at h3
  have := mul_right_cancel₀ (v.size_pos a.dim).ne' h3
  simp [this]

omit [IsStrictOrderedRing K] [LawfulRPow K] in
theorem unitEq_self (w : World K) (u : UKey) : w.unitEq u u = true := by
  unfold World.unitEq World.eqS World.rescaleS
  simp [deq_self]

end PQ
