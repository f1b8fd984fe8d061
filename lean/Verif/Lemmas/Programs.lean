import Verif.Spec.Programs
import Verif.Props.Arithmetic
import Verif.Props.Reductions
import Verif.Props.Dispatch

/-! # Lemmas about programs -/

set_option linter.unusedSectionVars false

namespace PQ

open LawfulRPow

/-! ## numpy functions look at elements inside the shape only -/

namespace NDArr

theorem InB.nil : InB [] [] := List.Forall₂.nil

theorem merge_inb : ∀ (m : List Bool) (s i r : List Nat), m.length = s.length →
    InB (pick false m s) i → InB (pick true m s) r → InB s (merge m i r)
  | [], [], _, _, _, _, _ => List.Forall₂.nil
  | [], _ :: _, _, _, h, _, _ => by simp at h
  | _ :: _, [], _, _, h, _, _ => by simp at h
  | true :: ms, n :: s, i, r, h, hi, hr => by
    have hl : ms.length = s.length := by simpa using h
    simp only [pick, if_true] at hr
    simp only [pick, Bool.true_eq_false, if_false] at hi
    cases hr with
    | cons h1 h2 => exact List.Forall₂.cons h1 (merge_inb ms s i _ hl hi h2)
  | false :: ms, n :: s, i, r, h, hi, hr => by
    have hl : ms.length = s.length := by simpa using h
    simp only [pick, if_true] at hi
    simp only [pick, Bool.false_eq_true, if_false] at hr
    cases hi with
    | cons h1 h2 => exact List.Forall₂.cons h1 (merge_inb ms s _ r hl h2 hr)

theorem axisMask_length {nd : Nat} {ax : Axis} {m : List Bool} (h : axisMask nd ax = .ok m) : m.length = nd := by
  cases ax with
  | all => simp only [axisMask, Except.ok.injEq] at h; rw [← h]; simp
  | one a =>
    simp only [axisMask] at h
    split at h
    · exact absurd h (by simp)
    · simp only [Except.ok.injEq] at h; rw [← h]; simp
  | many a =>
    simp only [axisMask] at h
    split at h
    · exact absurd h (by simp)
    · simp only [Except.ok.injEq] at h; rw [← h]; simp

theorem reduceMask_same {α β : Type _} (f : List α → β) {m : List Bool} {a b : NDArr α} (h : Same a b)
    (hm : m.length = a.shape.length) : Same (reduceMask f m a) (reduceMask f m b) := by
  refine ⟨by simp only [reduceMask, h.1], fun i hi => ?_⟩
  simp only [reduceMask, ← h.1]
  congr 1
  refine List.map_congr_left fun r hr => ?_
  exact h.2 _ (merge_inb m a.shape i r hm hi (mem_indices.1 hr))

end NDArr

namespace Client

variable {K : Type _}

/-! ## Outcomes -/

theorem OutRel.bind {α β α' β' : Type _} {R : α → β → Prop} {S : α' → β' → Prop} {x : Py α} {y : Py β}
    {f : α → Py α'} {g : β → Py β'} (h : OutRel R x y)
    (hf : ∀ a b, x = .ok a → y = .ok b → R a b → OutRel S (f a) (g b)) : OutRel S (x >>= f) (y >>= g) := by
  rcases x with e | a <;> rcases y with e' | b
  · exact h
  · exact h.elim
  · exact h.elim
  · exact hf a b rfl rfl h

theorem OutRel.map {α β α' β' : Type _} {R : α → β → Prop} {S : α' → β' → Prop} {x : Py α} {y : Py β}
    {f : α → α'} {g : β → β'} (h : OutRel R x y) (hf : ∀ a b, R a b → S (f a) (g b)) :
    OutRel S (x.map f) (y.map g) := by
  rcases x with e | a <;> rcases y with e' | b
  · exact h
  · exact h.elim
  · exact h.elim
  · exact hf a b h

theorem OutRel.mono {α β : Type _} {R S : α → β → Prop} {x : Py α} {y : Py β} (h : OutRel R x y)
    (hf : ∀ a b, x = .ok a → y = .ok b → R a b → S a b) : OutRel S x y := by
  rcases x with e | a <;> rcases y with e' | b
  · exact h
  · exact h.elim
  · exact h.elim
  · exact hf a b rfl rfl h

theorem OutRel.of_eq {α : Type _} {R : α → α → Prop} (hR : ∀ a, R a a) {x y : Py α} (h : x = y) : OutRel R x y := by
  subst h
  rcases x with e | a
  · rfl
  · exact hR a

theorem OutRel.ok_left {α β : Type _} {R : α → β → Prop} {x : Py α} {y : Py β} (h : OutRel R x y) {a : α}
    (hx : x = .ok a) : ∃ b, y = .ok b ∧ R a b := by
  subst hx
  rcases y with e | b
  · exact h.elim
  · exact ⟨b, rfl, h⟩

theorem OutRel.eq {α : Type _} {x y : Py α} (h : OutRel (fun a b => a = b) x y) : x = y := by
  rcases x with e | a <;> rcases y with e' | b
  · exact congrArg Except.error h
  · exact h.elim
  · exact h.elim
  · exact congrArg Except.ok h

/-! ## The numpy side -/

theorem bin_rel {α β γ : Type _} (f : α → β → γ) {a a' : NDArr α} {b b' : NDArr β} (ha : NDArr.Same a a')
    (hb : NDArr.Same b b') : OutRel NDArr.Same (NDArr.bin f a b) (NDArr.bin f a' b') := by
  unfold NDArr.bin
  rw [← ha.1, ← hb.1]
  rcases hs : NDArr.bshape a.shape b.shape with _ | s
  · rfl
  · refine ⟨rfl, fun i hi => ?_⟩
    simp only [ha.2 _ (NDArr.bidx_inb hs hi), hb.2 _ (NDArr.bidx_inb_right hs hi)]

theorem map_rel {α β : Type _} (f : α → β) {a a' : NDArr α} (ha : NDArr.Same a a') :
    NDArr.Same (a.map f) (a'.map f) :=
  ⟨ha.1, fun i hi => by simp only [NDArr.map]; rw [ha.2 i hi]⟩

theorem reduce_rel {α β : Type _} (f : List α → β) (ax : Axis) {a b : NDArr α} (h : NDArr.Same a b) :
    OutRel NDArr.Same (a.reduce f ax) (b.reduce f ax) := by
  unfold NDArr.reduce
  rw [← h.1]
  rcases hm : NDArr.axisMask a.shape.length ax with e | m
  · rfl
  · exact NDArr.reduceMask_same f h (NDArr.axisMask_length hm)

theorem reduceNE_rel {α β : Type _} (f : List α → β) (ax : Axis) {a b : NDArr α} (h : NDArr.Same a b) :
    OutRel NDArr.Same (a.reduceNE f ax) (b.reduceNE f ax) := by
  unfold NDArr.reduceNE NDArr.size
  rw [← h.1]
  rcases hm : NDArr.axisMask a.shape.length ax with e | m
  · rfl
  · simp only
    split
    · rfl
    · exact NDArr.reduceMask_same f h (NDArr.axisMask_length hm)

theorem forall₂_set_le {i s : List Nat} (n j : Nat) (h : List.Forall₂ (· < ·) i s) (hj : j < i.getD n 0 + 1) :
    List.Forall₂ (· < ·) (i.set n j) s := by
  induction h generalizing n with
  | nil => simp
  | cons h1 h2 ih =>
    cases n with
    | zero =>
      simp only [List.getD_cons_zero] at hj
      exact List.Forall₂.cons (by omega) h2
    | succ n =>
      simp only [List.getD_cons_succ] at hj
      exact List.Forall₂.cons h1 (ih n hj)

theorem cumulate_rel {α : Type _} (f : List α → α) (ax : Axis) {a b : NDArr α} (h : NDArr.Same a b) :
    OutRel NDArr.Same (a.cumulate f ax) (b.cumulate f ax) := by
  cases ax with
  | all =>
    have hsz : a.size = b.size := by unfold NDArr.size; rw [h.1]
    refine ⟨by simp only [hsz], fun i _ => ?_⟩
    simp only [NDArr.toList_congr h]
  | one x =>
    simp only [NDArr.cumulate, ← h.1]
    rcases hn : NDArr.normAxis a.shape.length x with e | n
    · rfl
    · refine ⟨rfl, fun i hi => ?_⟩
      simp only
      congr 1
      refine List.map_congr_left fun j hj => ?_
      exact h.2 _ (forall₂_set_le n j hi (List.mem_range.1 hj))
  | many l => exact rfl

theorem select_int_rel {a b : NDArr K} (h : NDArr.Same a b) (i : Int) :
    OutRel NDArr.Same (a.select (Key.int i)) (b.select (Key.int i)) := by
  have key : ∀ (p : ℤ) (n : ℕ) (t : List ℕ), a.shape = n :: t →
      OutRel NDArr.Same
        (match (if 0 ≤ p ∧ p < n then .ok (t, fun r => p.toNat :: r) else .error .indexError :
            Py (List Nat × (List Nat → List Nat))) with
          | .error e => .error e
          | .ok (s, f) => .ok (⟨s, fun i => a.elem (f i)⟩ : NDArr K))
        (match (if 0 ≤ p ∧ p < n then .ok (t, fun r => p.toNat :: r) else .error .indexError :
            Py (List Nat × (List Nat → List Nat))) with
          | .error e => .error e
          | .ok (s, f) => .ok (⟨s, fun i => b.elem (f i)⟩ : NDArr K)) := by
    intro p n t hs
    by_cases hp : 0 ≤ p ∧ p < n
    · rw [if_pos hp]
      refine ⟨rfl, fun j hj => h.2 _ ?_⟩
      rw [hs]
      exact List.Forall₂.cons (by omega) hj
    · rw [if_neg hp]; exact rfl
  unfold NDArr.select Key.int
  rw [← h.1]
  rcases hs : a.shape with _ | ⟨n, t⟩
  · rfl
  · exact key (if i < 0 then i + n else i) n t hs

theorem un_rel [Field K] [LinearOrder K] [RPow K] (u : Un) {a b : NDArr K} (h : NDArr.Same a b) :
    OutRel NDArr.Same (u.num a) (u.num b) := by
  cases u with
  | neg => exact map_rel _ h
  | abs => exact map_rel _ h
  | sum ax => exact reduce_rel _ ax h
  | mean ax => exact reduce_rel _ ax h
  | max ax => exact reduceNE_rel _ ax h
  | min ax => exact reduceNE_rel _ ax h
  | ptp ax => exact reduceNE_rel _ ax h
  | std ax ddof => exact reduce_rel _ ax h
  | cumsum ax => exact cumulate_rel _ ax h
  | item i => exact select_int_rel h i

theorem allTrue_same {a b : NDArr Bool} (h : NDArr.Same a b) : allTrue a = allTrue b := by
  unfold allTrue; rw [NDArr.toList_congr h]

/-! ## The library's side -/

section
variable [Field K] [LinearOrder K] [IsStrictOrderedRing K] [RPow K] [LawfulRPow K] [PyFloor K]
variable {h : Hasher} {w : World K}

/-- A call whose result denotes the result of a numpy call. -/
theorem map_phys {w : World K} {res : Py (Quantity K)} {A : Py (NDArr K)} (v : Valuation w)
    (hret : Returns A → Returns res) (herr : ∀ e, res = .error e → e = .valueError)
    (hA : ∀ e, A = .error e → e = .valueError) (hok : ∀ r, res = .ok r → A = .ok (v.phys r)) :
    res.map v.phys = A := by
  rcases hr : res with e | r
  · rcases ha : A with e' | m
    · rw [herr e hr, hA e' ha]; rfl
    · exact absurd (hret ⟨m, ha⟩) (by rw [hr]; exact not_returns_error _)
  · rw [hok r hr]; rfl

/-- The units fit the operator. -/
def Arith.Fits (w : World K) (op : Arith) (d e : Dim) : Prop :=
  op = .mul ∨ op = .div ∨ Compatible w e d

/-- The units of the result. -/
def Arith.kind : Arith → Dim → Dim → Dim
  | .mul, d, e => Dim.mul d e
  | .div, d, e => Dim.div d e
  | _, d, _ => d

theorem compatible_mul {a a' b b' : Dim} (h : Compatible w a a') (h' : Compatible w b b') :
    Compatible w (Dim.mul a b) (Dim.mul a' b') := by
  obtain ⟨x, hx⟩ := h
  obtain ⟨y, hy⟩ := h'
  refine ⟨x * y, fun v => ?_⟩
  have e1 : v.size (Dim.mul a b) = v.size a * v.size b := dsize_mul v.pos a b
  have e2 : v.size (Dim.mul a' b') = v.size a' * v.size b' := dsize_mul v.pos a' b'
  rw [e1, e2, hx v, hy v]; ring

theorem compatible_div {a a' b b' : Dim} (h : Compatible w a a') (h' : Compatible w b b') :
    Compatible w (Dim.div a b) (Dim.div a' b') := by
  obtain ⟨x, hx⟩ := h
  obtain ⟨y, hy⟩ := h'
  refine ⟨x / y, fun v => ?_⟩
  have e1 : v.size (Dim.div a b) = v.size a / v.size b := dsize_div v.pos a b
  have e2 : v.size (Dim.div a' b') = v.size a' / v.size b' := dsize_div v.pos a' b'
  rw [e1, e2, hx v, hy v, mul_div_mul_comm]

theorem compatible_pow (hw : Reachable h w) {a a' : Dim} (hc : Compatible w a a') (p : ℚ) :
    Compatible w (Dim.pow a p) (Dim.pow a' p) := by
  obtain ⟨x, hx⟩ := hc
  obtain ⟨v0⟩ := exists_valuation hw.wf
  have hpos : 0 < x := by
    have h1 := v0.size_pos a
    rw [hx v0] at h1
    exact pos_of_mul_pos_left h1 (v0.size_pos a').le
  refine ⟨rpow x p, fun v => ?_⟩
  have e1 : v.size (Dim.pow a p) = rpow (v.size a) p := dsize_pow v.pos a p
  have e2 : v.size (Dim.pow a' p) = rpow (v.size a') p := dsize_pow v.pos a' p
  rw [e1, e2, hx v, mul_rpow _ _ _ hpos (v.size_pos a')]

theorem compatible_congr (hw : Reachable h w) {a a' b b' : Dim} (ha : Compatible w a a') (hb : Compatible w b b') :
    Compatible w a b ↔ Compatible w a' b' :=
  ⟨fun hc => compatible_trans (compatible_symm hw.wf ha) (compatible_trans hc hb),
   fun hc => compatible_trans ha (compatible_trans hc (compatible_symm hw.wf hb))⟩

theorem fits_congr (hw : Reachable h w) (op : Arith) {a a' b b' : Dim} (ha : Compatible w a a')
    (hb : Compatible w b b') : op.Fits w a b ↔ op.Fits w a' b' := by
  unfold Arith.Fits
  rw [compatible_congr hw hb ha]

theorem kind_congr (op : Arith) {a a' b b' : Dim} (ha : Compatible w a a') (hb : Compatible w b b') :
    Compatible w (op.kind a b) (op.kind a' b') := by
  cases op with
  | add => exact ha
  | sub => exact ha
  | mod => exact ha
  | mul => exact compatible_mul ha hb
  | div => exact compatible_div ha hb

theorem dimOK_kind (op : Arith) {a b : Dim} (ha : DimOK w a) (hb : DimOK w b) : DimOK w (op.kind a b) := by
  cases op with
  | add => exact ha
  | sub => exact ha
  | mod => exact ha
  | mul => exact ha.mul hb
  | div => exact ha.div hb

theorem physOp_shape (v : Valuation w) (o : Operand K) : (v.physOp o).shape = o.arr.shape := by
  cases o <;> rfl

/-- What an operator does: it computes with the physical values, if the units fit. -/
theorem ap_spec (hw : Reachable h w) (op : Arith) (x : Quantity K) (o : Operand K) (hx : DimOK w x.dim)
    (ho : DimOK w o.dim) (hs : HashSafe w o.dim x.dim) :
    (op.Fits w x.dim o.dim →
      (∀ v : Valuation w, (op.ap w x o).map v.phys = NDArr.bin op.fn (v.phys x) (v.physOp o)) ∧
      ∀ r, op.ap w x o = .ok r → DimOK w r.dim ∧ Compatible w r.dim (op.kind x.dim o.dim)) ∧
    (¬ op.Fits w x.dim o.dim → op.ap w x o = .error .valueError) := by
  have bret : ∀ (f : K → K → K) (v : Valuation w), Returns (NDArr.bin f (v.phys x) (v.physOp o)) →
      (NDArr.bshape x.mag.shape o.arr.shape).isSome := fun f v hb => by
    have := (NDArr.bin_ok_iff f _ _).1 hb
    rwa [physOp_shape] at this
  have sums : ∀ (g : K → K → K) (res : Py (Quantity K)),
      ((Returns res ↔ Compatible w o.dim x.dim ∧ (NDArr.bshape x.mag.shape o.arr.shape).isSome) ∧
       (∀ e, res = .error e → e = .valueError) ∧
       (∀ r, res = .ok r → SameContent r.dim x.dim ∧ DimOK w r.dim ∧ ∀ v : Valuation w,
          NDArr.bin g (v.phys x) (v.physOp o) = .ok (v.phys r))) →
      (Compatible w o.dim x.dim →
        (∀ v : Valuation w, res.map v.phys = NDArr.bin g (v.phys x) (v.physOp o)) ∧
        ∀ r, res = .ok r → DimOK w r.dim ∧ Compatible w r.dim x.dim) ∧
      (¬ Compatible w o.dim x.dim → res = .error .valueError) := by
    rintro g res ⟨h1, h2, h3⟩
    refine ⟨fun hc => ⟨fun v => ?_, fun r hr => ?_⟩, fun hc => ?_⟩
    · exact map_phys v (fun hA => h1.2 ⟨hc, bret g v hA⟩) h2 (fun e he => NDArr.bin_error he)
        (fun r hr => (h3 r hr).2.2 v)
    · exact ⟨(h3 r hr).2.1, compatible_of_same (h3 r hr).2.1.canon.nodup hx.canon.nodup (h3 r hr).1⟩
    · rcases hres : res with e | r
      · rw [h2 e hres]
      · exact absurd (h1.1 ⟨r, hres⟩).1 hc
  have prods : ∀ (g : K → K → K) (d : Dim) (f : UF2) (hd : ufunc2Dim w f (.quantity x) o = .ok d) (hok : DimOK w d)
      (hg : ∀ (v : Valuation w) (a b : K), g (a * v.size x.dim) (b * v.size o.dim) = g a b * v.size d),
      (∀ v : Valuation w, (applyUF2 w f g (.quantity x) o).map v.phys = NDArr.bin g (v.phys x) (v.physOp o)) ∧
      ∀ r, applyUF2 w f g (.quantity x) o = .ok r → DimOK w r.dim ∧ Compatible w r.dim d := by
    intro g d f hd hok hg
    obtain ⟨t1, t2, t3⟩ := applyUF2_spec hd g
    refine ⟨fun v => map_phys v (fun hA => t1.2 (bret g v hA)) t2 (fun e he => NDArr.bin_error he) (fun r hr => ?_),
      fun r hr => ?_⟩
    · exact applyUF2_phys hd g v (hg v) hr
    · rw [(t3 r hr).1]; exact ⟨hok, compatible_refl _ _⟩
  cases op with
  | add =>
    have key := sumLike_spec hw.wf hx ho hs .add (fun _ _ => rfl) (fun x y => x + y) homog_add false (x.add w o) rfl
    simp only [Bool.false_eq_true, if_false] at key
    have := sums _ _ key
    simp only [Arith.Fits, reduceCtorEq, false_or]
    exact this
  | sub =>
    have key := sumLike_spec hw.wf hx ho hs .subtract (fun _ _ => rfl) (fun x y => x - y) homog_sub false (x.sub w o) rfl
    simp only [Bool.false_eq_true, if_false] at key
    have := sums _ _ key
    simp only [Arith.Fits, reduceCtorEq, false_or]
    exact this
  | mod =>
    have key := sumLike_spec hw.wf hx ho hs .remainder (fun _ _ => rfl) modK homog_mod false (x.mod w o) rfl
    simp only [Bool.false_eq_true, if_false] at key
    have := sums _ _ key
    simp only [Arith.Fits, reduceCtorEq, false_or]
    exact this
  | mul =>
    refine ⟨fun _ => ?_, fun hn => absurd (Or.inl rfl) hn⟩
    cases o with
    | quantity q =>
      exact prods (· * ·) (Dim.mul x.dim q.dim) .multiply rfl (hx.mul ho) (fun v a b => by
        have := dsize_mul v.pos x.dim q.dim
        simp only [Valuation.size, Operand.dim, this]; ring)
    | array c =>
      exact prods (· * ·) x.dim .multiply rfl hx (fun v a b => by
        simp only [Operand.dim, Valuation.size, dsize_nil]; ring)
  | div =>
    refine ⟨fun _ => ?_, fun hn => absurd (Or.inr (Or.inl rfl)) hn⟩
    cases o with
    | quantity q =>
      exact prods (· / ·) (Dim.div x.dim q.dim) .trueDivide rfl (hx.div ho) (fun v a b => by
        have := dsize_div v.pos x.dim q.dim
        simp only [Valuation.size, Operand.dim, this]; rw [mul_div_mul_comm])
    | array c =>
      exact prods (· / ·) x.dim .trueDivide rfl hx (fun v a b => by
        simp only [Operand.dim, Valuation.size, dsize_nil]; rw [mul_one]; ring)

/-- The units of the result with a number on the left. -/
def LArith.kind : LArith → Dim → Dim
  | .div, d => Dim.pow d (-1)
  | _, d => d

/-- The units fit the operator. -/
def LArith.Fits (w : World K) (op : LArith) (d : Dim) : Prop :=
  op = .mul ∨ op = .div ∨ Compatible w [] d

theorem lkind_congr (hw : Reachable h w) (op : LArith) {a a' : Dim} (ha : Compatible w a a') :
    Compatible w (op.kind a) (op.kind a') := by
  cases op with
  | add => exact ha
  | sub => exact ha
  | mul => exact ha
  | div => exact compatible_pow hw ha _

theorem dimOK_lkind (op : LArith) {a : Dim} (ha : DimOK w a) : DimOK w (op.kind a) := by
  cases op with
  | add => exact ha
  | sub => exact ha
  | mul => exact ha
  | div => exact ha.pow _

theorem lfits_congr (hw : Reachable h w) (op : LArith) {a a' : Dim} (ha : Compatible w a a') :
    op.Fits w a ↔ op.Fits w a' := by
  unfold LArith.Fits
  rw [compatible_congr hw (compatible_refl w []) ha]

theorem lap_spec (hw : Reachable h w) (op : LArith) (x : Quantity K) (c : NDArr K) (hx : DimOK w x.dim)
    (hs : HashSafe w [] x.dim) :
    (op.Fits w x.dim →
      (∀ v : Valuation w, (op.ap w x c).map v.phys = NDArr.bin op.fn c (v.phys x)) ∧
      ∀ r, op.ap w x c = .ok r → DimOK w r.dim ∧ Compatible w r.dim (op.kind x.dim)) ∧
    (¬ op.Fits w x.dim → op.ap w x c = .error .valueError) := by
  have pc : ∀ v : Valuation w, v.physOp (.array c) = c := fun v => by
    rw [physOp_eq']
    simp only [Operand.dim, Operand.arr, Valuation.size, dsize_nil, mul_one]
    exact NDArr.map_id' (fun _ => rfl) _
  have bret : ∀ (f : K → K → K) (v : Valuation w), Returns (NDArr.bin f c (v.phys x)) →
      (NDArr.bshape c.shape x.mag.shape).isSome := fun f v hb => (NDArr.bin_ok_iff f c (v.phys x)).1 hb
  have sums : ∀ (g : K → K → K) (res : Py (Quantity K)),
      ((Returns res ↔ Compatible w [] x.dim ∧ (NDArr.bshape x.mag.shape c.shape).isSome) ∧
       (∀ e, res = .error e → e = .valueError) ∧
       (∀ r, res = .ok r → SameContent r.dim x.dim ∧ DimOK w r.dim ∧ ∀ v : Valuation w,
          NDArr.bin g (v.physOp (.array c)) (v.phys x) = .ok (v.phys r))) →
      (Compatible w [] x.dim →
        (∀ v : Valuation w, res.map v.phys = NDArr.bin g c (v.phys x)) ∧
        ∀ r, res = .ok r → DimOK w r.dim ∧ Compatible w r.dim x.dim) ∧
      (¬ Compatible w [] x.dim → res = .error .valueError) := by
    rintro g res ⟨h1, h2, h3⟩
    refine ⟨fun hc => ⟨fun v => ?_, fun r hr => ?_⟩, fun hc => ?_⟩
    · exact map_phys v (fun hA => h1.2 ⟨hc, by rw [NDArr.bshape_comm]; exact bret g v hA⟩) h2
        (fun e he => NDArr.bin_error he) (fun r hr => by have := (h3 r hr).2.2 v; rwa [pc] at this)
    · exact ⟨(h3 r hr).2.1, compatible_of_same (h3 r hr).2.1.canon.nodup hx.canon.nodup (h3 r hr).1⟩
    · rcases hres : res with e | r
      · rw [h2 e hres]
      · exact absurd (h1.1 ⟨r, hres⟩).1 hc
  have prods : ∀ (g : K → K → K) (d : Dim) (f : UF2) (hd : ufunc2Dim w f (.array c) (.quantity x) = .ok d)
      (hok : DimOK w d) (hg : ∀ (v : Valuation w) (a b : K), g (a * v.size []) (b * v.size x.dim) = g a b * v.size d),
      (∀ v : Valuation w, (applyUF2 w f g (.array c) (.quantity x)).map v.phys = NDArr.bin g c (v.phys x)) ∧
      ∀ r, applyUF2 w f g (.array c) (.quantity x) = .ok r → DimOK w r.dim ∧ Compatible w r.dim d := by
    intro g d f hd hok hg
    obtain ⟨t1, t2, t3⟩ := applyUF2_spec hd g
    refine ⟨fun v => map_phys v (fun hA => t1.2 (bret g v hA)) t2 (fun e he => NDArr.bin_error he) (fun r hr => ?_),
      fun r hr => ?_⟩
    · have := applyUF2_phys hd g v (hg v) hr
      rwa [pc] at this
    · rw [(t3 r hr).1]; exact ⟨hok, compatible_refl _ _⟩
  cases op with
  | add =>
    have key := sumLike_spec hw.wf (other := .array c) hx (DimOK.nil w) hs .add (fun _ _ => rfl) (fun x y => x + y)
      homog_add true (x.radd w (.array c)) rfl
    simp only [if_true] at key
    simp only [LArith.Fits, reduceCtorEq, false_or]
    exact sums _ _ key
  | sub =>
    have key := sumLike_spec hw.wf (other := .array c) hx (DimOK.nil w) hs .subtract (fun _ _ => rfl)
      (fun x y => x - y) homog_sub true (x.rsub w (.array c)) rfl
    simp only [if_true] at key
    simp only [LArith.Fits, reduceCtorEq, false_or]
    exact sums _ _ key
  | mul =>
    refine ⟨fun _ => ?_, fun hn => absurd (Or.inl rfl) hn⟩
    exact prods (· * ·) x.dim .multiply rfl hx (fun v a b => by
      simp only [Valuation.size, dsize_nil]; ring)
  | div =>
    refine ⟨fun _ => ?_, fun hn => absurd (Or.inr (Or.inl rfl)) hn⟩
    exact prods (· / ·) (Dim.pow x.dim (-1)) .trueDivide rfl (hx.pow _) (fun v a b => by
      have h1 : v.size (Dim.pow x.dim (-1)) = (v.size x.dim)⁻¹ := by
        rw [show v.size (Dim.pow x.dim (-1)) = rpow (v.size x.dim) (-1) from dsize_pow v.pos _ _]
        have := rpow_intCast (v.size x.dim) (-1) (v.size_pos _).ne'
        simpa using this
      rw [h1]
      simp only [Valuation.size, dsize_nil, mul_one]
      rw [div_mul_eq_div_div, div_eq_mul_inv (a / b)])

theorem un_denotes (hw : Reachable h w) (u : Un) : DenotesReduction w (u.ap w) (u.num (K := K)) := by
  cases u with
  | neg =>
    exact denotes_of_homog (R := fun a => .ok (a.map (- ·))) (fun c _ a => by
      simp only [Except.map, NDArr.map, neg_mul]) (fun q => rfl)
  | abs =>
    exact denotes_of_homog (R := fun a => .ok (a.map (fun x => |x|))) (fun c hc a => by
      simp only [Except.map, NDArr.map, abs_mul, abs_of_pos hc]) (fun q => rfl)
  | sum ax => exact (C32_sum hw ax).1
  | mean ax => exact (C32_mean hw ax).1
  | max ax => exact (C32_max hw ax).1
  | min ax => exact (C32_min hw ax).1
  | ptp ax => exact (C32_ptp hw ax).1
  | std ax ddof => exact (C32_std hw ax ddof).1
  | cumsum ax => exact (C32_cumsum hw ax).1
  | item i =>
    refine denotes_of_homog (R := fun a => a.select (Key.int i)) (fun c _ a => ?_) (fun q => ?_)
    · unfold NDArr.select
      simp only [NDArr.map]
      rcases Key.int i a.shape with e | ⟨s, f⟩ <;> rfl
    · simp only [Un.ap, Quantity.getitem, attach]
      rcases q.mag.select (Key.int i) with e | m <;> rfl

theorem pow_spec (hw : Reachable h w) (x : Quantity K) (p : ℚ) (hx : DimOK w x.dim) (hp : LiteralPow x.mag p) :
    ∃ r, x.pow ⟨NDArr.scalar p, none⟩ = .ok r ∧ DimOK w r.dim ∧ Compatible w r.dim (Dim.pow x.dim p) ∧
      ∀ v : Valuation w, NDArr.Same (v.phys r) ((v.phys x).map (fun y => rpow y p)) := by
  obtain ⟨r, hr⟩ := (C15_pow_returns x).2.2 p
  obtain ⟨p', h1, -, h3, h4, h5⟩ := C15_pow x r ⟨NDArr.scalar p, none⟩ hx hr
  have hpp : p = p' := h1 [] NDArr.InB.nil
  subst hpp
  refine ⟨r, hr, h3, ?_, fun v => ?_⟩
  · refine compatible_of_same h3.canon.nodup (hx.pow p).canon.nodup ?_
    exact (Canon.sameContent h3.canon (hx.pow p).canon (fun u => by rw [h4, expo_pow]))
  · obtain ⟨m, hm, hsame⟩ := h5 hp v
    obtain ⟨m', hm', hs'⟩ := bin_scalar_right (fun (x : K) q => rpow x q) (v.phys x) p
    rw [hm'] at hm
    rw [← Except.ok.inj hm] at hsame
    exact hsame.symm.trans hs'

theorem rescale_out (hw : Reachable h w) (x : Quantity K) (d : Dim) (hx : DimOK w x.dim) (hd : DimOK w d)
    (hs : HashSafe w x.dim d) :
    (Compatible w x.dim d → ∃ r, x.rescale w d = .ok r ∧ DimOK w r.dim ∧ SameContent r.dim d ∧
      ∀ v : Valuation w, v.phys r = v.phys x) ∧
    (¬ Compatible w x.dim d → x.rescale w d = .error .valueError) := by
  refine ⟨fun hc => ?_, fun hc => (rescale_eq_error_iff hw.wf hx hd hs).2 hc⟩
  obtain ⟨r, hr⟩ := (rescale_returns hw.wf hx hd hs).2 hc
  obtain ⟨-, h1, h2, -⟩ := rescale_ok hw.wf hx hd hs hr
  exact ⟨r, hr, h2, h1, rescale_phys hw.wf hx hd hs hr⟩

end
end Client
end PQ
