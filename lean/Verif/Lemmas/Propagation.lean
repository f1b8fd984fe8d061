import Verif.Spec.Propagation
import Verif.Lemmas.Programs
import Verif.Lemmas.Reduce
import Verif.Lemmas.Uncertain
import Mathlib.Analysis.Calculus.Deriv.Add
import Mathlib.Analysis.Calculus.Deriv.Mul
import Mathlib.Analysis.Calculus.Deriv.Inv
import Mathlib.Analysis.SpecialFunctions.Pow.Deriv

/-!
# Lemmas for the law of propagation

A fourth reading of an expression, in which each element is a function of the measured numbers together with the set
of the numbers it uses.  The value, the set and the propagated variance are all read off from it.
-/

namespace PQ.Client

/-- A function of the measured numbers and the numbers it is computed from. -/
structure Sym where
  f : (Cell → ℝ) → ℝ
  U : Finset Cell

section sym
variable {w : World ℝ}

noncomputable def UUn.sym : UUn → NDArr Sym → Py (NDArr Sym)
  | .neg, a => .ok (a.map (fun x => ⟨fun z => -x.f z, x.U⟩))
  | .sqrt, a => .ok (a.map (fun x => ⟨fun z => rpow (x.f z) (1/2), x.U⟩))
  | .item i, a => a.select (Key.int i)
  | .sum ax, a => a.reduce (fun l => ⟨fun z => (l.map (fun x => x.f z)).sum, unions (l.map Sym.U)⟩) ax
  | .mean ax, a => a.reduce (fun l => ⟨fun z => (l.map (fun x => x.f z)).sum / (l.length : ℝ), unions (l.map Sym.U)⟩) ax
  | .max _, _ => .error .valueError
  | .min _, _ => .error .valueError



noncomputable def UTerm.sym (v : Valuation w) (σ : Env (NDArr ℝ)) (sh : Env (List Nat)) : UTerm ℝ → Py (NDArr Sym)
  | .var x => getVar (arrays sh (fun c => ⟨fun z => z c, {c}⟩)) x
  | .bin op a b => a.sym v σ sh >>= fun x => b.sym v σ sh >>= fun y =>
      NDArr.bin (fun x y => ⟨fun z => op.value (x.f z) (y.f z), x.U ∪ y.U⟩) x y
  | .times a c => a.sym v σ sh >>= fun x => c.num v σ >>= fun o =>
      NDArr.bin (fun x c => ⟨fun z => x.f z * c, x.U⟩) x o
  | .over a c => a.sym v σ sh >>= fun x => c.num v σ >>= fun o =>
      NDArr.bin (fun x c => ⟨fun z => x.f z / c, x.U⟩) x o
  | .exactTimes c a => c.num v σ >>= fun o => a.sym v σ sh >>= fun x =>
      NDArr.bin (fun x c => ⟨fun z => x.f z * c, x.U⟩) x o
  | .exactMinus c a => c.num v σ >>= fun o => a.sym v σ sh >>= fun x =>
      NDArr.bin (fun c x => ⟨fun z => c - x.f z, x.U⟩) o x
  | .exactOver c a => c.num v σ >>= fun o => a.sym v σ sh >>= fun x =>
      NDArr.bin (fun c x => ⟨fun z => c / x.f z, x.U⟩) o x
  | .pow a p => a.sym v σ sh >>= fun x => .ok (x.map (fun x => ⟨fun z => rpow (x.f z) p, x.U⟩))
  | .un u a => a.sym v σ sh >>= u.sym
  | .inUnits a _ => a.sym v σ sh

/-! ## Reading off -/

theorem bind_map {α β γ : Type _} (x : Py α) (f : α → β) (g : β → Py γ) :
    (x.map f) >>= g = x >>= fun a => g (f a) := by
  rcases x with e | a <;> rfl

theorem map_bind {α β γ : Type _} (x : Py α) (g : α → Py β) (f : β → γ) :
    (x >>= g).map f = x >>= fun a => (g a).map f := by
  rcases x with e | a <;> rfl

theorem bind_congr {α β : Type _} (x : Py α) {f g : α → Py β} (h : ∀ a, f a = g a) : x >>= f = x >>= g := by
  rw [funext h]

theorem bin_map_left {α α' β γ : Type _} (f : α' → β → γ) (g : α → α') (a : NDArr α) (b : NDArr β) :
    NDArr.bin f (a.map g) b = NDArr.bin (fun x y => f (g x) y) a b := NDArr.bin_map f g id a b

theorem bin_map_right {α β β' γ : Type _} (f : α → β' → γ) (g : β → β') (a : NDArr α) (b : NDArr β) :
    NDArr.bin f a (b.map g) = NDArr.bin (fun x y => f x (g y)) a b := NDArr.bin_map f id g a b

theorem select_map' {α β : Type _} (f : α → β) (a : NDArr α) (k : Key) :
    (a.map f).select k = (a.select k).map (NDArr.map f) := by
  unfold NDArr.select
  show (match k a.shape with | .error e => _ | .ok (s, g) => _) = _
  rcases k a.shape with e | ⟨s, g⟩ <;> rfl

/-- No extremum is taken. -/
def UTerm.Smooth : UTerm ℝ → Prop
  | .var _ => True
  | .bin _ a b => a.Smooth ∧ b.Smooth
  | .times a _ => a.Smooth
  | .over a _ => a.Smooth
  | .exactTimes _ a => a.Smooth
  | .exactMinus _ a => a.Smooth
  | .exactOver _ a => a.Smooth
  | .pow a _ => a.Smooth
  | .un (.max _) _ => False
  | .un (.min _) _ => False
  | .un _ a => a.Smooth
  | .inUnits a _ => a.Smooth

theorem value_sym (v : Valuation w) (σ : Env (NDArr ℝ)) (sh : Env (List Nat)) (z : Cell → ℝ) (t : UTerm ℝ)
    (ht : t.Smooth) :
    t.value v σ (arrays sh z) = (t.sym v σ sh).map (NDArr.map (fun x => x.f z)) := by
  induction t with
  | var x =>
    simp only [UTerm.value, UTerm.sym, getVar, arrays]
    rcases sh x with _ | s <;> rfl
  | bin op a b iha ihb =>
    simp only [UTerm.value, UTerm.sym, iha ht.1, ihb ht.2, bind_map, map_bind, NDArr.bin_map, NDArr.map_bin]
  | times a c ih => simp only [UTerm.value, UTerm.sym, ih ht, bind_map, map_bind, bin_map_left, NDArr.map_bin]
  | over a c ih => simp only [UTerm.value, UTerm.sym, ih ht, bind_map, map_bind, bin_map_left, NDArr.map_bin]
  | exactTimes c a ih => simp only [UTerm.value, UTerm.sym, ih ht, bind_map, map_bind, bin_map_left, NDArr.map_bin]
  | exactMinus c a ih => simp only [UTerm.value, UTerm.sym, ih ht, bind_map, map_bind, bin_map_right, NDArr.map_bin]
  | exactOver c a ih => simp only [UTerm.value, UTerm.sym, ih ht, bind_map, map_bind, bin_map_right, NDArr.map_bin]
  | pow a p ih => simp only [UTerm.value, UTerm.sym, ih ht, bind_map, map_bind]; rfl
  | inUnits a d ih => exact ih ht
  | un u a ih =>
    cases u with
    | neg => simp only [UTerm.value, UTerm.sym, ih ht, bind_map, map_bind]; rfl
    | sqrt => simp only [UTerm.value, UTerm.sym, ih ht, bind_map, map_bind]; rfl
    | item i => simp only [UTerm.value, UTerm.sym, ih ht, bind_map, map_bind, UUn.value, UUn.sym, select_map']
    | sum ax =>
      simp only [UTerm.value, UTerm.sym, ih ht, bind_map, map_bind, UUn.value, UUn.sym]
      refine bind_congr _ fun a => NDArr.reduce_map (fun l => by rfl) ax a
    | mean ax =>
      simp only [UTerm.value, UTerm.sym, ih ht, bind_map, map_bind, UUn.value, UUn.sym]
      refine bind_congr _ fun a => NDArr.reduce_map (fun l => by simp only [List.length_map]) ax a
    | max ax => exact ht.elim
    | min ax => exact ht.elim

theorem cells_sym (v : Valuation w) (σ : Env (NDArr ℝ)) (sh : Env (List Nat)) (t : UTerm ℝ) (ht : t.Smooth) :
    t.cells v σ sh = (t.sym v σ sh).map (NDArr.map Sym.U) := by
  induction t with
  | var x =>
    simp only [UTerm.cells, UTerm.sym, getVar, arrays]
    rcases sh x with _ | s <;> rfl
  | bin op a b iha ihb =>
    simp only [UTerm.cells, UTerm.sym, iha ht.1, ihb ht.2, bind_map, map_bind, NDArr.bin_map, NDArr.map_bin]
  | times a c ih => simp only [UTerm.cells, UTerm.sym, ih ht, bind_map, map_bind, bin_map_left, NDArr.map_bin]
  | over a c ih => simp only [UTerm.cells, UTerm.sym, ih ht, bind_map, map_bind, bin_map_left, NDArr.map_bin]
  | exactTimes c a ih => simp only [UTerm.cells, UTerm.sym, ih ht, bind_map, map_bind, bin_map_left, NDArr.map_bin]
  | exactMinus c a ih => simp only [UTerm.cells, UTerm.sym, ih ht, bind_map, map_bind, bin_map_right, NDArr.map_bin]
  | exactOver c a ih => simp only [UTerm.cells, UTerm.sym, ih ht, bind_map, map_bind, bin_map_right, NDArr.map_bin]
  | pow a p ih =>
    simp only [UTerm.cells, UTerm.sym, ih ht, map_bind]
    rcases a.sym v σ sh with e | x <;> rfl
  | inUnits a d ih => exact ih ht
  | un u a ih =>
    cases u with
    | neg =>
      simp only [UTerm.cells, UTerm.sym, ih ht, bind_map, map_bind]; rfl
    | sqrt => simp only [UTerm.cells, UTerm.sym, ih ht, bind_map, map_bind]; rfl
    | item i => simp only [UTerm.cells, UTerm.sym, ih ht, bind_map, map_bind, UUn.cells, UUn.sym, select_map']
    | sum ax =>
      simp only [UTerm.cells, UTerm.sym, ih ht, bind_map, map_bind, UUn.cells, UUn.sym]
      refine bind_congr _ fun a => NDArr.reduce_map (fun l => by rfl) ax a
    | mean ax =>
      simp only [UTerm.cells, UTerm.sym, ih ht, bind_map, map_bind, UUn.cells, UUn.sym]
      refine bind_congr _ fun a => NDArr.reduce_map (fun l => by rfl) ax a
    | max ax => exact ht.elim
    | min ax => exact ht.elim

theorem separate_smooth (v : Valuation w) (σ : Env (NDArr ℝ)) (sh : Env (List Nat)) (t : UTerm ℝ)
    (ht : t.Separate v σ sh) : t.Smooth := by
  induction t with
  | var x => trivial
  | bin op a b iha ihb => exact ⟨iha ht.1, ihb ht.2.1⟩
  | times a c ih => exact ih ht
  | over a c ih => exact ih ht
  | exactTimes c a ih => exact ih ht
  | exactMinus c a ih => exact ih ht
  | exactOver c a ih => exact ih ht
  | pow a p ih => exact ih ht
  | inUnits a d ih => exact ih ht
  | un u a ih =>
    cases u with
    | neg => exact ih ht
    | sqrt => exact ih ht
    | item i => exact ih ht
    | sum ax => exact ih ht.1
    | mean ax => exact ih ht.1
    | max ax => exact ht
    | min ax => exact ht

end sym

/-! ## One element -/

/-- The element `y` is the propagation of the variances `V` of the measured numbers `z` through `s`. -/
def Lin (z V : Cell → ℝ) (s : Sym) (y : Spread ℝ) : Prop :=
  y.value = s.f z ∧ ∃ g : Cell → ℝ,
    (∀ c, HasDerivAt (fun t => s.f (Function.update z c t)) (g c) (z c)) ∧ (∀ c, c ∉ s.U → g c = 0) ∧
    y.variance = ∑ c ∈ s.U, g c ^ 2 * V c

variable {z V : Cell → ℝ}

theorem lin_var (c : Cell) : Lin z V ⟨fun z => z c, {c}⟩ ⟨z c, V c⟩ := by
  refine ⟨rfl, fun c' => if c' = c then 1 else 0, fun c' => ?_, fun c' h => ?_, ?_⟩
  · by_cases h : c' = c
    · subst h
      simp only [Function.update_self, if_true]
      exact hasDerivAt_id _
    · simp only [Function.update_of_ne (Ne.symm h), if_neg h]
      exact hasDerivAt_const _ _
  · exact if_neg (by simpa using h)
  · simp

theorem lin_map {s : Sym} {y : Spread ℝ} (h : Lin z V s y) {F : ℝ → ℝ} {k : ℝ} (hF : HasDerivAt F k y.value) :
    Lin z V ⟨fun z => F (s.f z), s.U⟩ ⟨F y.value, k ^ 2 * y.variance⟩ := by
  obtain ⟨h1, g, h2, h3, h4⟩ := h
  refine ⟨by rw [h1], fun c => k * g c, fun c => ?_, fun c hc => by simp only [h3 c hc, mul_zero], ?_⟩
  · refine HasDerivAt.comp (z c) (h := fun t => s.f (Function.update z c t)) (h₂ := F) ?_ (h2 c)
    simp only [Function.update_eq_self]
    rw [← h1]
    exact hF
  · show k ^ 2 * y.variance = _
    rw [h4, Finset.mul_sum]
    exact Finset.sum_congr rfl fun c _ => by ring

theorem sum_union {U W : Finset Cell} (hd : Disjoint U W) {g h : Cell → ℝ} (hg : ∀ c, c ∉ U → g c = 0)
    (hh : ∀ c, c ∉ W → h c = 0) (a b : ℝ) :
    ∑ c ∈ U ∪ W, (a * g c + b * h c) ^ 2 * V c =
      a ^ 2 * ∑ c ∈ U, g c ^ 2 * V c + b ^ 2 * ∑ c ∈ W, h c ^ 2 * V c := by
  rw [Finset.sum_union hd, Finset.mul_sum, Finset.mul_sum]
  congr 1
  · refine Finset.sum_congr rfl fun c hc => ?_
    rw [hh c (Finset.disjoint_left.1 hd hc)]
    ring
  · refine Finset.sum_congr rfl fun c hc => ?_
    rw [hg c (Finset.disjoint_right.1 hd hc)]
    ring

theorem lin_bin {s s' : Sym} {y y' : Spread ℝ} (h : Lin z V s y) (h' : Lin z V s' y') (hd : Disjoint s.U s'.U)
    {F : ℝ → ℝ → ℝ} {a b : ℝ}
    (hF : ∀ (f f' : ℝ → ℝ) (d d' t : ℝ), f t = y.value → f' t = y'.value → HasDerivAt f d t → HasDerivAt f' d' t →
      HasDerivAt (fun t => F (f t) (f' t)) (a * d + b * d') t) :
    Lin z V ⟨fun z => F (s.f z) (s'.f z), s.U ∪ s'.U⟩
      ⟨F y.value y'.value, a ^ 2 * y.variance + b ^ 2 * y'.variance⟩ := by
  obtain ⟨h1, g, h2, h3, h4⟩ := h
  obtain ⟨k1, g', k2, k3, k4⟩ := h'
  refine ⟨by rw [h1, k1], fun c => a * g c + b * g' c, fun c => ?_, fun c hc => ?_, ?_⟩
  · refine hF _ _ _ _ _ ?_ ?_ (h2 c) (k2 c)
    · simp only [Function.update_eq_self]; exact h1.symm
    · simp only [Function.update_eq_self]; exact k1.symm
  · rw [Finset.mem_union, not_or] at hc
    simp only [h3 c hc.1, k3 c hc.2, mul_zero, add_zero]
  · show a ^ 2 * y.variance + b ^ 2 * y'.variance = _
    rw [sum_union hd h3 k3, h4, k4]

theorem lin_arith (op : UArith) {s s' : Sym} {y y' : Spread ℝ} (h : Lin z V s y) (h' : Lin z V s' y')
    (hd : Disjoint s.U s'.U) (hne : op = .mul ∨ op = .div → y'.value ≠ 0) :
    Lin z V ⟨fun z => op.value (s.f z) (s'.f z), s.U ∪ s'.U⟩ (op.spread y y') := by
  cases op with
  | add =>
    have := lin_bin h h' hd (F := fun x y => x + y) (a := 1) (b := 1) (fun f f' d d' t _ _ i j => by
      rw [one_mul, one_mul]
      exact i.add j)
    simpa [UArith.spread, UArith.value] using this
  | sub =>
    have := lin_bin h h' hd (F := fun x y => x - y) (a := 1) (b := -1) (fun f f' d d' t _ _ i j => by
      rw [one_mul, neg_one_mul, ← sub_eq_add_neg]
      exact i.sub j)
    simpa [UArith.spread, UArith.value] using this
  | mul =>
    have := lin_bin h h' hd (F := fun x y => x * y) (a := y'.value) (b := y.value) (fun f f' d d' t e e' i j => by
      have := i.mul j
      rw [e, e'] at this
      rw [mul_comm y'.value d]
      exact this)
    exact this
  | div =>
    have hv := hne (.inr rfl)
    have := lin_bin h h' hd (F := fun x y => x / y) (a := 1 / y'.value) (b := -(y.value / y'.value ^ 2))
      (fun f f' d d' t e e' i j => by
        have := i.div j (by rw [e']; exact hv)
        rw [e, e'] at this
        have he : (d * y'.value - y.value * d') / y'.value ^ 2 = 1 / y'.value * d + -(y.value / y'.value ^ 2) * d' := by
          field_simp
          ring
        rw [← he]
        exact this)
    have he : (UArith.div.spread y y') = ⟨y.value / y'.value,
        (1 / y'.value) ^ 2 * y.variance + (-(y.value / y'.value ^ 2)) ^ 2 * y'.variance⟩ := by
      simp only [UArith.spread, Spread.mk.injEq, true_and]
      field_simp
    rw [he]
    exact this

theorem lin_pow {s : Sym} {y : Spread ℝ} (h : Lin z V s y) (p : ℚ) (hp : y.value ≠ 0) :
    Lin z V ⟨fun z => rpow (s.f z) p, s.U⟩ (y.pow p) := by
  have hd := Real.hasDerivAt_rpow_const (x := y.value) (p := (p : ℝ)) (.inl hp)
  have := lin_map h (F := fun x => rpow x p) (k := (p : ℝ) * rpow y.value (p - 1)) (by
    rw [real_rpow_def]
    push_cast
    exact hd)
  exact this

theorem lin_sum : ∀ {l : List Sym} {m : List (Spread ℝ)}, List.Forall₂ (Lin z V) l m →
    (l.map Sym.U).Pairwise Disjoint →
    Lin z V ⟨fun z => (l.map (fun x => x.f z)).sum, unions (l.map Sym.U)⟩ (Spread.total m)
  | [], [], _, _ => ⟨rfl, fun _ => 0, fun c => by simpa using hasDerivAt_const _ _, fun _ _ => rfl, by simp [Spread.total, unions]⟩
  | s :: l, y :: m, .cons h hl, hp => by
    rw [List.map_cons, List.pairwise_cons] at hp
    have ih := lin_sum hl hp.2
    have hd : Disjoint s.U (unions (l.map Sym.U)) := by
      have : ∀ k : List (Finset Cell), (∀ W ∈ k, Disjoint s.U W) → Disjoint s.U (unions k) := by
        intro k
        induction k with
        | nil => intro _; exact Finset.disjoint_empty_right _
        | cons W k ih =>
          intro hk
          exact Finset.disjoint_union_right.2 ⟨hk W (by simp), ih fun W' hW' => hk W' (by simp [hW'])⟩
      exact this _ hp.1
    have := lin_arith .add h ih hd (by simp)
    simpa [UArith.spread, UArith.value, Spread.total, unions] using this

theorem lin_mean {l : List Sym} {m : List (Spread ℝ)} (h : List.Forall₂ (Lin z V) l m)
    (hp : (l.map Sym.U).Pairwise Disjoint) :
    Lin z V ⟨fun z => (l.map (fun x => x.f z)).sum / (l.length : ℝ), unions (l.map Sym.U)⟩ (Spread.average m) := by
  have := lin_map (lin_sum h hp) (F := fun x => x / (l.length : ℝ)) (k := 1 / (l.length : ℝ))
    ((hasDerivAt_id _).div_const _)
  rw [h.length_eq] at this ⊢
  have he : (Spread.average m) = ⟨(Spread.total m).value / (m.length : ℝ),
      (1 / (m.length : ℝ)) ^ 2 * (Spread.total m).variance⟩ := by
    simp only [Spread.average, Spread.total, Spread.mk.injEq, true_and]
    ring
  rw [he]
  exact this

end PQ.Client
