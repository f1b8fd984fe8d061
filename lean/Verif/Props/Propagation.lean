import Verif.Lemmas.Propagation
import Verif.Props.Variance

/-!
# C119: the law of propagation of uncertainty
-/

namespace PQ.Client

variable {z V : Cell → ℝ}

/-- `Lin` for each element. -/
def LinArr (z V : Cell → ℝ) (a : NDArr Sym) (b : NDArr (Spread ℝ)) : Prop :=
  a.shape = b.shape ∧ ∀ i, NDArr.InB a.shape i → Lin z V (a.elem i) (b.elem i)

theorem linArr_map {a : NDArr Sym} {b : NDArr (Spread ℝ)} (h : LinArr z V a b) {f : Sym → Sym} {g : Spread ℝ → Spread ℝ}
    {P : Spread ℝ → Prop} (hb : NDArr.All P b) (hf : ∀ x y, P y → Lin z V x y → Lin z V (f x) (g y)) :
    LinArr z V (a.map f) (b.map g) :=
  ⟨h.1, fun i hi => hf _ _ (hb i (h.1 ▸ hi)) (h.2 i hi)⟩

theorem linArr_bin_left {a : NDArr Sym} {b : NDArr (Spread ℝ)} (h : LinArr z V a b) (o : NDArr ℝ)
    {f : Sym → ℝ → Sym} {g : Spread ℝ → ℝ → Spread ℝ} (hf : ∀ x y c, Lin z V x y → Lin z V (f x c) (g y c)) :
    OutRel (LinArr z V) (NDArr.bin f a o) (NDArr.bin g b o) := by
  unfold NDArr.bin
  rw [← h.1]
  rcases hs : NDArr.bshape a.shape o.shape with _ | s
  · rfl
  · exact ⟨rfl, fun i hi => hf _ _ _ (h.2 _ (NDArr.bidx_inb hs hi))⟩

theorem linArr_bin_right {a : NDArr Sym} {b : NDArr (Spread ℝ)} (h : LinArr z V a b) (o : NDArr ℝ)
    {f : ℝ → Sym → Sym} {g : ℝ → Spread ℝ → Spread ℝ} {P : Spread ℝ → Prop} (hb : NDArr.All P b)
    (hf : ∀ c x y, P y → Lin z V x y → Lin z V (f c x) (g c y)) :
    OutRel (LinArr z V) (NDArr.bin f o a) (NDArr.bin g o b) := by
  unfold NDArr.bin
  rw [← h.1]
  rcases hs : NDArr.bshape o.shape a.shape with _ | s
  · rfl
  · exact ⟨rfl, fun i hi => hf _ _ _ (hb _ (h.1 ▸ NDArr.bidx_inb_right hs hi)) (h.2 _ (NDArr.bidx_inb_right hs hi))⟩

theorem linArr_arith (op : UArith) {a a' : NDArr Sym} {b b' : NDArr (Spread ℝ)} (h : LinArr z V a b)
    (h' : LinArr z V a' b') (hne : op = .mul ∨ op = .div → NDArr.All (fun x => x.value ≠ 0) b')
    (hd : ∀ r, NDArr.bin Disjoint (a.map Sym.U) (a'.map Sym.U) = .ok r → NDArr.All (fun p => p) r) :
    OutRel (LinArr z V) (NDArr.bin (fun x y => ⟨fun z => op.value (x.f z) (y.f z), x.U ∪ y.U⟩) a a')
      (NDArr.bin op.spread b b') := by
  rw [NDArr.bin_map] at hd
  unfold NDArr.bin at hd ⊢
  rw [← h.1, ← h'.1]
  rcases hs : NDArr.bshape a.shape a'.shape with _ | s
  · rfl
  · rw [hs] at hd
    refine ⟨rfl, fun i hi => lin_arith op (h.2 _ (NDArr.bidx_inb hs hi)) (h'.2 _ (NDArr.bidx_inb_right hs hi))
      (hd _ rfl i hi) (fun ho => hne ho _ (h'.1 ▸ NDArr.bidx_inb_right hs hi))⟩

theorem linArr_reduce (ax : Axis) {a : NDArr Sym} {b : NDArr (Spread ℝ)} (h : LinArr z V a b)
    {f : List Sym → Sym} {g : List (Spread ℝ) → Spread ℝ}
    (hd : ∀ r, (a.map Sym.U).reduce (List.Pairwise Disjoint) ax = .ok r → NDArr.All (fun p => p) r)
    (hf : ∀ l m, List.Forall₂ (Lin z V) l m → (l.map Sym.U).Pairwise Disjoint → Lin z V (f l) (g m)) :
    OutRel (LinArr z V) (a.reduce f ax) (b.reduce g ax) := by
  unfold NDArr.reduce at hd ⊢
  rw [show (a.map Sym.U).shape = a.shape from rfl] at hd
  rw [← h.1]
  rcases hm : NDArr.axisMask a.shape.length ax with e | m
  · rfl
  · rw [hm] at hd
    refine ⟨by simp only [NDArr.reduceMask, h.1], fun i hi => ?_⟩
    refine hf _ _ ?_ ?_
    · rw [← h.1, List.forall₂_map_left_iff, List.forall₂_map_right_iff, List.forall₂_same]
      intro r hr
      exact h.2 _ (NDArr.merge_inb m a.shape i r (NDArr.axisMask_length hm) hi (NDArr.mem_indices.1 hr))
    · have := hd _ rfl i hi
      simp only [NDArr.reduceMask, NDArr.map] at this
      rw [List.map_map]
      exact this

theorem linArr_item (i : Int) {a : NDArr Sym} {b : NDArr (Spread ℝ)} (h : LinArr z V a b) :
    OutRel (LinArr z V) (a.select (Key.int i)) (b.select (Key.int i)) := by
  unfold NDArr.select Key.int
  rw [← h.1]
  rcases hs : a.shape with _ | ⟨n, t⟩
  · rfl
  · simp only
    by_cases hp : 0 ≤ (if i < 0 then i + (n : ℤ) else i) ∧ (if i < 0 then i + (n : ℤ) else i) < n
    · rw [if_pos hp]
      refine ⟨rfl, fun j hj => h.2 _ ?_⟩
      rw [hs]
      exact List.Forall₂.cons (by omega) hj
    · rw [if_neg hp]; exact rfl

/-! ## Expressions on bare numbers -/

/-- The variables as values and variances. -/
def spreads (sh : Env (List Nat)) (z V : Cell → ℝ) : Env (NDArr (Spread ℝ)) := arrays sh (fun c => ⟨z c, V c⟩)

variable {w : World ℝ}

theorem num_lin (v : Valuation w) (σ : Env (NDArr ℝ)) (sh : Env (List Nat)) (t : UTerm ℝ)
    (hs : t.Separate v σ sh) (hg : t.Regular v σ (spreads sh z V)) :
    OutRel (LinArr z V) (t.sym v σ sh) (t.num v σ (spreads sh z V)) := by
  induction t with
  | var x =>
    simp only [UTerm.sym, UTerm.num, getVar, spreads, arrays]
    rcases sh x with _ | s
    · rfl
    · exact ⟨rfl, fun i _ => lin_var (x, i)⟩
  | bin op a b iha ihb =>
    simp only [UTerm.sym, UTerm.num]
    refine OutRel.bind (iha hs.1 hg.1) (fun x m hx hm hxm => ?_)
    refine OutRel.bind (ihb hs.2.1 hg.2.1) (fun y n hy hn hyn => ?_)
    refine linArr_arith op hxm hyn (fun ho => (hg.2.2 ho).2 n hn) (fun r hr => ?_)
    refine hs.2.2 _ _ r ?_ ?_ hr
    · rw [cells_sym v σ sh a (separate_smooth v σ sh a hs.1), hx]; rfl
    · rw [cells_sym v σ sh b (separate_smooth v σ sh b hs.2.1), hy]; rfl
  | times a c ih =>
    simp only [UTerm.sym, UTerm.num]
    refine OutRel.bind (ih hs hg) (fun x m hx hm hxm => ?_)
    refine OutRel.bind (OutRel.of_eq (R := fun a b => a = b) (fun _ => rfl) rfl) (fun o o' _ _ ho => ?_)
    subst ho
    refine linArr_bin_left hxm o (fun x y c h => ?_)
    exact lin_map h (F := fun x => x * c) (by simpa using (hasDerivAt_id y.value).mul_const c)
  | over a c ih =>
    simp only [UTerm.sym, UTerm.num]
    refine OutRel.bind (ih hs hg) (fun x m hx hm hxm => ?_)
    refine OutRel.bind (OutRel.of_eq (R := fun a b => a = b) (fun _ => rfl) rfl) (fun o o' _ _ ho => ?_)
    subst ho
    refine linArr_bin_left hxm o (fun x y c h => ?_)
    have := lin_map h (F := fun x => x / c) ((hasDerivAt_id y.value).div_const c)
    rw [show y.variance / c ^ 2 = (1 / c) ^ 2 * y.variance by ring]
    exact this
  | exactTimes c a ih =>
    simp only [UTerm.sym, UTerm.num]
    refine OutRel.bind (OutRel.of_eq (R := fun a b => a = b) (fun _ => rfl) rfl) (fun o o' _ _ ho => ?_)
    subst ho
    refine OutRel.bind (ih hs hg) (fun x m hx hm hxm => ?_)
    refine linArr_bin_left hxm o (fun x y c h => ?_)
    exact lin_map h (F := fun x => x * c) (by simpa using (hasDerivAt_id y.value).mul_const c)
  | exactMinus c a ih =>
    simp only [UTerm.sym, UTerm.num]
    refine OutRel.bind (OutRel.of_eq (R := fun a b => a = b) (fun _ => rfl) rfl) (fun o o' _ _ ho => ?_)
    subst ho
    refine OutRel.bind (ih hs hg) (fun x m hx hm hxm => ?_)
    refine linArr_bin_right hxm o (P := fun _ => True) (fun _ _ => trivial) (fun c x y _ h => ?_)
    have := lin_map h (F := fun x => c - x) ((hasDerivAt_id y.value).const_sub c)
    simpa using this
  | exactOver c a ih =>
    simp only [UTerm.sym, UTerm.num]
    refine OutRel.bind (OutRel.of_eq (R := fun a b => a = b) (fun _ => rfl) rfl) (fun o o' _ _ ho => ?_)
    subst ho
    refine OutRel.bind (ih hs hg.1) (fun x m hx hm hxm => ?_)
    refine linArr_bin_right hxm o (hg.2 m hm) (fun c x y hy h => ?_)
    have := lin_map h (F := fun x => c / x) (k := c * -(y.value ^ 2)⁻¹)
      (by simpa only [div_eq_mul_inv] using (hasDerivAt_inv hy).const_mul c)
    rw [show c ^ 2 * y.variance / y.value ^ 4 = (c * -(y.value ^ 2)⁻¹) ^ 2 * y.variance by field_simp]
    exact this
  | pow a p ih =>
    simp only [UTerm.sym, UTerm.num]
    refine OutRel.bind (ih hs hg.1) (fun x m hx hm hxm => ?_)
    refine linArr_map hxm (hg.2 m hm) (fun x y hy h => lin_pow h p ?_)
    rcases hy with hy | hy
    · exact hy.ne'
    · exact hy.1
  | inUnits a d ih => exact ih hs hg
  | un u a ih =>
    simp only [UTerm.sym, UTerm.num]
    cases u with
    | neg =>
      refine OutRel.bind (ih hs hg.1) (fun x m hx hm hxm => ?_)
      refine linArr_map hxm (P := fun _ => True) (fun _ _ => trivial) (fun x y _ h => ?_)
      have := lin_map h (F := fun x => -x) (hasDerivAt_neg y.value)
      simpa using this
    | sqrt =>
      refine OutRel.bind (ih hs hg.1) (fun x m hx hm hxm => ?_)
      exact linArr_map hxm (hg.2 rfl m hm) (fun x y hy h => lin_pow h (1/2) hy.ne')
    | item i => exact OutRel.bind (ih hs hg.1) (fun x m hx hm hxm => linArr_item i hxm)
    | sum ax =>
      refine OutRel.bind (ih hs.1 hg.1) (fun x m hx hm hxm => ?_)
      refine linArr_reduce ax hxm (fun r hr => hs.2 _ r ?_ hr) (fun l m hl hp => lin_sum hl hp)
      rw [cells_sym v σ sh a (separate_smooth v σ sh a hs.1), hx]; rfl
    | mean ax =>
      refine OutRel.bind (ih hs.1 hg.1) (fun x m hx hm hxm => ?_)
      refine linArr_reduce ax hxm (fun r hr => hs.2 _ r ?_ hr) (fun l m hl hp => lin_mean hl hp)
      rw [cells_sym v σ sh a (separate_smooth v σ sh a hs.1), hx]; rfl
    | max ax => exact hs.elim
    | min ax => exact hs.elim

/-! ## C119 -/

theorem spreads_measured (v : Valuation w) (μ : Env (UQ ℝ)) : EnvRel (IsSpread v) μ
    (spreads (shapes μ) (fun c => (measured v μ c).value) (fun c => (measured v μ c).sigma ^ 2)) := by
  intro x
  simp only [spreads, arrays, shapes, measured]
  rcases μ x with _ | q
  · exact .none
  · exact .some ⟨rfl, fun i _ => rfl⟩

/-- C119: if an expression with uncertain quantities whose units check returns, no measured number enters an element
of the result twice, and no extremum is taken, then each element of the result obeys the law of propagation of
uncertainty: there is a function `f` of the measured numbers, which is what the expression computes for that element
whatever the measured numbers are, and the uncertainty reported is the one propagated through `f`. -/
theorem C119_law {h : Hasher} (hw : Reachable h w) (v : Valuation w) (Γ Δ : Env Dim) (t : UTerm ℝ) (d : Dim)
    (ht : UHasUnits w Γ Δ t d) (ρ : Env (Quantity ℝ)) (σ : Env (NDArr ℝ)) (μ : Env (UQ ℝ))
    (hρ : Declares w Γ ρ) (hσ : EnvRel (IsValue v) ρ σ) (hμ : UDeclares w Δ μ)
    (hs : t.Safe w ρ μ)
    (hg : t.Regular v σ (spreads (shapes μ) (fun c => (measured v μ c).value) (fun c => (measured v μ c).sigma ^ 2)))
    (hsep : t.Separate v σ (shapes μ)) (r : UQ ℝ) (hr : t.eval w ρ μ = .ok r) (i : List Nat)
    (hi : NDArr.InB r.val.mag.shape i) :
    ∃ f : (Cell → ℝ) → ℝ,
      (∀ z, ∃ m, t.value v σ (arrays (shapes μ) z) = .ok m ∧ m.shape = r.val.mag.shape ∧ m.elem i = f z) ∧
      PropagatedBy f (measured v μ) ((v.meas r).elem i) := by
  obtain ⟨m, hm, hd⟩ := (C118_expression hw v Γ Δ t d ht ρ σ μ _ hρ hσ hμ (spreads_measured v μ) hs hg).ok_left hr
  have hl := num_lin v σ (shapes μ) t hsep hg
  rw [hm] at hl
  rcases hy : t.sym v σ (shapes μ) with e | s <;> rw [hy] at hl
  · exact hl.elim
  have hsh : s.shape = r.val.mag.shape := hl.1.trans hd.same.1.symm
  refine ⟨(s.elem i).f, fun z => ?_, ?_⟩
  · refine ⟨s.map (fun x => x.f z), ?_, hsh, rfl⟩
    rw [value_sym v σ (shapes μ) z t (separate_smooth v σ _ t hsep), hy]; rfl
  · have e1 : Meas.spread ((v.meas r).elem i) = m.elem i := hd.same.2 i hi
    obtain ⟨h1, g, h2, h3, h4⟩ := hl.2 i (hsh.symm ▸ hi)
    refine ⟨?_, g, (s.elem i).U, h2, h3, ?_⟩
    · rw [← h1, ← e1]; rfl
    · have : ((v.meas r).elem i).sigma ^ 2 = (m.elem i).variance := by rw [← e1]; rfl
      rw [this, h4]
      exact Finset.sum_congr rfl fun c _ => by ring

/-- `a * b`, the products of measured lengths in kilometres and in metres, meets the hypotheses of `C119_law`. -/
example (v : Valuation exWorld) :
    UHasUnits exWorld (fun _ => none) exLengthUnits (.bin .mul (.var "a") (.var "b") : UTerm ℝ) (Dim.mul dKm dM) ∧
    UDeclares exWorld exLengthUnits exLengths ∧
    (.bin .mul (.var "a") (.var "b") : UTerm ℝ).Safe exWorld exNoVars exLengths ∧
    (.bin .mul (.var "a") (.var "b") : UTerm ℝ).Regular v (fun _ => none)
      (spreads (shapes exLengths) (fun c => (measured v exLengths c).value)
        (fun c => (measured v exLengths c).sigma ^ 2)) ∧
    (.bin .mul (.var "a") (.var "b") : UTerm ℝ).Separate v (fun _ => none) (shapes exLengths) ∧
    ∃ r, (.bin .mul (.var "a") (.var "b") : UTerm ℝ).eval exWorld exNoVars exLengths = .ok r ∧
      NDArr.InB r.val.mag.shape [1] := by
  refine ⟨.mul (.var rfl) (.var rfl), fun x d hx => ?_, ⟨trivial, trivial, fun hu => absurd hu (by simp)⟩,
    ⟨trivial, trivial, fun _ => ⟨fun m hm => ?_, fun m hm => ?_⟩⟩,
    ⟨trivial, trivial, fun m n r hm hn hr => ?_⟩, ?_⟩
  · by_cases ha : x = "a"
    · subst ha
      cases hx
      exact ⟨exUQ, rfl, exUQ_built, compatible_refl _ _⟩
    · by_cases hb : x = "b"
      · subst hb
        cases hx
        exact ⟨exUM, rfl, exUM_built, compatible_refl _ _⟩
      · simp only [exLengthUnits, if_neg ha, if_neg hb] at hx
        cases hx
  · cases hm
    intro i _
    show (if i = [0] then (3 : ℝ) else 4) * v.size dKm ≠ 0
    exact mul_ne_zero (by split <;> norm_num) (v.size_pos _).ne'
  · cases hm
    intro i _
    show (500 : ℝ) * v.size dM ≠ 0
    exact mul_ne_zero (by norm_num) (v.size_pos _).ne'
  · cases hm
    cases hn
    cases hr
    intro i _
    show Disjoint ({("a", _)} : Finset Cell) {("b", _)}
    simp
  · obtain ⟨r, hr⟩ := (C75_product_partial exWorld_reachable _ _ exUQ_built exUM_built).1.2 (by decide)
    refine ⟨r, hr, ?_⟩
    have := ((((C75_product_partial exWorld_reachable _ _ exUQ_built exUM_built).2.2 r hr).2 v).1)
    have h2 : some [2] = some r.val.mag.shape := this
    rw [← Option.some.inj h2]
    exact .cons (by norm_num) .nil

/-! ## C120: a number that occurs twice -/

section repeated
variable {K : Type} [Field K] [LinearOrder K] [IsStrictOrderedRing K] [RPow K] [LawfulRPow K] {h : Hasher} {w : World K}

/-- C120 fails for a difference: `x - x` is zero whatever `x` is, but the library reports the uncertainty `√2 σ`. -/
theorem C120_difference_false (hw : Reachable h w) (x : UQ K) (hx : UQ.Built w x) :
    ∃ r, x.sub w (.uq x) = .ok r ∧ r.val.mag.shape = x.val.mag.shape ∧
      ∀ (v : Valuation w) (i : List Nat), NDArr.InB r.val.mag.shape i →
        ((v.meas r).elem i).value = 0 ∧ ((v.meas r).elem i).sigma ^ 2 = 2 * ((v.meas x).elem i).sigma ^ 2 := by
  have hd := (hx.ok hw.wf).vdim
  obtain ⟨c1, -, c3⟩ := C39_difference hw x x hx hx (HashSafe.of_same hw.wf hd hd (fun _ => rfl))
  obtain ⟨r, hr⟩ := c1.2 ⟨compatible_refl _ _, by rw [NDArr.bshape_self]; rfl⟩
  have hsh : r.val.mag.shape = x.val.mag.shape := by
    obtain ⟨v⟩ := exists_valuation hw.wf
    have := ((c3 r hr).2 v).1
    rw [NDArr.bshape_self] at this
    exact (Option.some.inj this).symm
  refine ⟨r, hr, hsh, fun v i hi => ?_⟩
  obtain ⟨e1, -, e2⟩ := ((c3 r hr).2 v).2 i hi
  have hb : NDArr.bidx (v.meas x).shape i = i := NDArr.bidx_self (show NDArr.InB x.val.mag.shape i from hsh ▸ hi)
  rw [hb] at e1 e2
  exact ⟨by rw [e1, sub_self], by rw [e2]; ring⟩

/-- C120 fails for a square: `x * x` and `x ** 2` have the same value, but the variance reported for `x * x` is half
of that for `x ** 2` (which is the propagated one, `C119_law`). -/
theorem C120_square_false (hw : Reachable h w) (x : UQ K) (hx : UQ.Built w x)
    (hne : NDArr.All (fun m => m ≠ 0) x.val.mag) :
    ∃ r s, x.mul w (.uq x) = .ok r ∧ x.pow w (expOf 2) = .ok s ∧ r.val.mag.shape = x.val.mag.shape ∧
      s.val.mag.shape = x.val.mag.shape ∧
      ∀ (v : Valuation w) (i : List Nat), NDArr.InB x.val.mag.shape i →
        ((v.meas r).elem i).value = ((v.meas s).elem i).value ∧
        2 * ((v.meas r).elem i).sigma ^ 2 = ((v.meas s).elem i).sigma ^ 2 := by
  obtain ⟨c1, -, c3⟩ := C75_product_partial hw x x hx hx
  obtain ⟨r, hr⟩ := c1.2 (by rw [NDArr.bshape_self]; rfl)
  obtain ⟨a1, -⟩ := C75_power_returns_partial hw x (expOf 2) hx
  obtain ⟨s, hs⟩ := a1.2 ⟨fun d hd => absurd (show (none : Option Dim) = some d from hd) (by simp),
    ⟨[], 2, List.Forall₂.nil, rfl, fun _ _ => rfl⟩, by
      show (NDArr.bshape x.val.mag.shape []).isSome = true
      rw [NDArr.bshape_nil_right]; rfl⟩
  obtain ⟨p, p1, -, p3⟩ := C75_power_partial hw x s (expOf 2) hx hs
  have hp : p = 2 := (p1 [] .nil).symm
  subst hp
  have hsh : ∀ v : Valuation w, r.val.mag.shape = x.val.mag.shape ∧ s.val.mag.shape = x.val.mag.shape := fun v => by
    have e1 := ((c3 r hr).2 v).1
    have e2 : NDArr.bshape x.val.mag.shape [] = some s.val.mag.shape := (p3 v).1
    rw [NDArr.bshape_self] at e1
    rw [NDArr.bshape_nil_right] at e2
    exact ⟨(Option.some.inj e1).symm, (Option.some.inj e2).symm⟩
  obtain ⟨v⟩ := exists_valuation hw.wf
  refine ⟨r, s, hr, hs, (hsh v).1, (hsh v).2, fun v i hi => ?_⟩
  have hb : NDArr.bidx (v.meas x).shape i = i := NDArr.bidx_self (show NDArr.InB x.val.mag.shape i from hi)
  have hv : ((v.meas x).elem i).value ≠ 0 := mul_ne_zero (hne i hi) (v.size_pos _).ne'
  have e1 := ((c3 r hr).2 v).2 i (show NDArr.InB r.val.mag.shape i from (hsh v).1 ▸ hi)
  have e2 := (p3 v).2 i (show NDArr.InB s.val.mag.shape i from (hsh v).2 ▸ hi)
  rw [hb] at e1 e2
  obtain ⟨⟨e3, e4⟩, -⟩ := e1 hv hv
  obtain ⟨⟨e5, e6⟩, -⟩ := e2 (.inr ⟨hv, 2, by norm_num⟩)
  have h2 : rpow ((v.meas x).elem i).value 2 = ((v.meas x).elem i).value ^ 2 := by
    have := LawfulRPow.rpow_natCast ((v.meas x).elem i).value 2
    exact_mod_cast this
  refine ⟨by rw [e3, e5, h2]; ring, ?_⟩
  rw [e4, e6, show (2 : ℚ) - 1 = 1 by norm_num, LawfulRPow.rpow_one]
  push_cast
  ring

end repeated

/-- C120 fails: the uncertainty reported for `b - b` is not the one propagated through the function that the
expression computes. -/
theorem C120_repeated_false (v : Valuation exWorld) :
    ∃ r, (.bin .sub (.var "b") (.var "b") : UTerm ℝ).eval exWorld exNoVars exLengths = .ok r ∧
      ∀ f : (Cell → ℝ) → ℝ,
        (∀ z, ∃ m, (.bin .sub (.var "b") (.var "b") : UTerm ℝ).value v (fun _ => none)
          (arrays (shapes exLengths) z) = .ok m ∧ m.elem [] = f z) →
        ¬ PropagatedBy f (measured v exLengths) ((v.meas r).elem []) := by
  obtain ⟨r, hr, hsh, h2⟩ := C120_difference_false exWorld_reachable exUM exUM_built
  refine ⟨r, hr, fun f hf hp => ?_⟩
  obtain ⟨-, g, S, g1, -, g3⟩ := hp
  have hf0 : ∀ z, f z = 0 := fun z => by
    obtain ⟨m, hm, hz⟩ := hf z
    cases hm
    rw [← hz]
    exact sub_self _
  have hg : ∀ c, g c = 0 := fun c => by
    have h1 := g1 c
    simp only [hf0] at h1
    exact h1.unique (hasDerivAt_const _ _)
  have h0 : ((v.meas r).elem []).sigma ^ 2 = 0 := by
    rw [g3]
    exact Finset.sum_eq_zero fun c _ => by rw [hg c]; ring
  rw [(h2 v [] (by rw [hsh]; exact .nil)).2] at h0
  have h3 : ((v.meas exUM).elem []).sigma = 50 * v.size dM := rfl
  rw [h3] at h0
  have := v.size_pos dM
  have : 0 < 2 * (50 * v.size dM) ^ 2 := by positivity
  exact absurd h0 this.ne'

end PQ.Client
