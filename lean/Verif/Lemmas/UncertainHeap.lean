import Verif.Spec.UncertainMemory
import Verif.Lemmas.Heap5
import Verif.Lemmas.Quantity

/-! # Commands on uncertain quantities as steps on arrays -/

namespace PQ

open NDArr Heap

variable {K : Type _} [Zero K] [One K] [Add K] [Sub K] [Mul K] [Div K] [RPow K] [PyFloor K]
  [DecidableEq K] {np2 : Bool} {w : World K}

/-! ## Objects created by commands -/

/-- Commands that make a new object and modify nothing. -/
def Cmd.creates : Cmd K → Bool
  | .newQuantity _ _ => true
  | .wrap _ _ => true
  | .magnitude _ => true
  | .view _ _ => true
  | .item _ _ => true
  | .copy _ => true
  | _ => false

/-- Existing objects are as before. -/
def Grows (h h' : Heap K) : Prop := ∀ (i : Nat) (o : Obj), h.objs[i]? = some o → h'.objs[i]? = some o

omit [Zero K] [One K] [Add K] [Sub K] [Mul K] [Div K] [RPow K] [PyFloor K] [DecidableEq K] in
theorem Grows.rfl' (h : Heap K) : Grows h h := fun _ _ h => h

omit [Zero K] [One K] [Add K] [Sub K] [Mul K] [Div K] [RPow K] [PyFloor K] [DecidableEq K] in
theorem Grows.trans {a b c : Heap K} (h : Grows a b) (k : Grows b c) : Grows a c :=
  fun i o ho => k i o (h i o ho)

omit [Zero K] [One K] [Add K] [Sub K] [Mul K] [Div K] [RPow K] [PyFloor K] [DecidableEq K] in
theorem Grows.of_eq {h h' : Heap K} (e : h'.objs = h.objs) : Grows h h' := fun i o ho => by rw [e]; exact ho

omit [Zero K] [One K] [Add K] [Sub K] [Mul K] [Div K] [RPow K] [PyFloor K] [DecidableEq K] in
theorem grows_push (h : Heap K) (o : Obj) : Grows h (h.push o).2 := fun i p hp => push_get_old h o i p hp

omit [Zero K] [One K] [Add K] [Sub K] [Mul K] [Div K] [RPow K] [PyFloor K] [DecidableEq K] in
theorem grows_alloc (h : Heap K) (a : NDArr K) (k : AKind) (wr : Bool) : Grows h (h.alloc a k wr).2 :=
  fun i p hp => alloc_get_old h a k wr i p hp

omit [Zero K] [One K] [Add K] [Sub K] [Mul K] [Div K] [RPow K] [PyFloor K] [DecidableEq K] in
theorem grows_pushView (h : Heap K) (i : Nat) (o : Obj) (k : AKind) (s : List Nat) (f : List Nat → List Nat) :
    Grows h (h.pushView i o k s f).2 := grows_push _ _

omit [Zero K] [One K] [Add K] [Sub K] [Mul K] [Div K] [RPow K] [PyFloor K] [DecidableEq K] in
theorem allocQuantity_grows (h : Heap K) (a : NDArr K) (d : Dim) : Grows h (h.allocQuantity a d).2 := by
  rw [allocQuantity_eq]
  exact (grows_alloc _ _ _ _).trans (grows_pushView _ _ _ _ _ _)

omit [Zero K] [One K] [Add K] [Sub K] [Mul K] [Div K] [RPow K] [PyFloor K] [DecidableEq K] in
theorem allocQuantity_new (h : Heap K) (a : NDArr K) (d : Dim) :
    ∃ o, (h.allocQuantity a d).2.objs[(h.allocQuantity a d).1]? = some o ∧ o.kind = .quantity d ∧
      o.shape = a.shape := by
  rw [allocQuantity_eq]
  exact ⟨_, push_get_new _ _, rfl, rfl⟩

omit [Zero K] [One K] [Add K] [Sub K] [Mul K] [Div K] [RPow K] [PyFloor K] [DecidableEq K] in
theorem allocQuantity_fst (h : Heap K) (a : NDArr K) (d : Dim) : h.objs.length ≤ (h.allocQuantity a d).1 := by
  rw [allocQuantity_eq]
  change h.objs.length ≤ (h.alloc a .ndarray true).2.objs.length
  simp [alloc, push]

/-- Object `x` of `h'` is new with respect to `h`, and is `o`; all others are as before. -/
structure Made (h h' : Heap K) (x : Nat) (o : Obj) : Prop where
  grows : Grows h h'
  fresh : h.objs.length ≤ x
  get : h'.objs[x]? = some o

omit [Zero K] [One K] [Add K] [Sub K] [Mul K] [Div K] [RPow K] [PyFloor K] [DecidableEq K] in
theorem made_pushView (h : Heap K) (i : Nat) (o : Obj) (k : AKind) (s : List Nat) (f : List Nat → List Nat) :
    ∃ p, Made h (h.pushView i o k s f).2 (h.pushView i o k s f).1 p ∧ p.kind = k ∧ p.shape = s :=
  ⟨_, ⟨grows_pushView _ _ _ _ _ _, le_rfl, push_get_new _ _⟩, rfl, rfl⟩

omit [Zero K] [One K] [Add K] [Sub K] [Mul K] [Div K] [RPow K] [PyFloor K] [DecidableEq K] in
theorem made_allocQuantity (h : Heap K) (a : NDArr K) (d : Dim) :
    ∃ p, Made h (h.allocQuantity a d).2 (h.allocQuantity a d).1 p ∧ p.kind = .quantity d ∧
      p.shape = a.shape := by
  obtain ⟨o, h1, h2, h3⟩ := allocQuantity_new h a d
  exact ⟨o, ⟨allocQuantity_grows h a d, allocQuantity_fst h a d, h1⟩, h2, h3⟩

theorem made_newQuantity {h h' : Heap K} {a : NDArr K} {d : Dim} {x : Nat}
    (hr : h.run np2 w (.newQuantity a d) = (.ok x, h')) :
    ∃ p, Made h h' x p ∧ p.kind = .quantity d ∧ p.shape = a.shape := by
  simp only [run, Prod.mk.injEq, Except.ok.injEq] at hr
  obtain ⟨rfl, rfl⟩ := hr
  exact made_allocQuantity h a d

theorem made_magnitude {h h' : Heap K} {i x : Nat} {o : Obj} (ho : h.objs[i]? = some o)
    (hr : h.run np2 w (.magnitude i) = (.ok x, h')) :
    ∃ p, Made h h' x p ∧ p.kind = .ndarray ∧ p.shape = o.shape := by
  simp only [run, ho] at hr
  split at hr
  · simp only [Prod.mk.injEq, Except.ok.injEq] at hr
    obtain ⟨rfl, rfl⟩ := hr
    exact made_pushView h i o .ndarray o.shape id
  · cases hr

theorem made_view {h h' : Heap K} {i x : Nat} {o : Obj} {k : Key} (ho : h.objs[i]? = some o)
    (hr : h.run np2 w (.view i k) = (.ok x, h')) :
    ∃ p s f, k o.shape = .ok (s, f) ∧ Made h h' x p ∧ p.kind = o.kind ∧ p.shape = s := by
  simp only [run, ho] at hr
  split at hr
  · cases hr
  · split at hr
    · cases hr
    · rename_i s f hk
      simp only [Prod.mk.injEq, Except.ok.injEq] at hr
      obtain ⟨rfl, rfl⟩ := hr
      obtain ⟨p, h1, h2, h3⟩ := made_pushView h i o o.kind s f
      exact ⟨p, s, f, hk, h1, h2, h3⟩

theorem made_copy {h h' : Heap K} {i x : Nat} {o : Obj} (ho : h.objs[i]? = some o)
    (hr : h.run np2 w (.copy i) = (.ok x, h')) :
    ∃ p, Made h h' x p ∧ p.kind = o.kind ∧ p.shape = o.shape := by
  simp only [run, ho] at hr
  split at hr
  · cases hr
  · simp only [Prod.mk.injEq, Except.ok.injEq] at hr
    obtain ⟨rfl, rfl⟩ := hr
    exact ⟨_, ⟨grows_alloc _ _ _ _, le_rfl, alloc_get_new _ _ _ _⟩, rfl, rfl⟩

theorem made_item {h h' : Heap K} {i x : Nat} {o : Obj} {idx : List Nat} (ho : h.objs[i]? = some o)
    (hq : o.kind.isQuantity = true) (hr : h.run np2 w (.item i idx) = (.ok x, h')) :
    ∃ p, Made h h' x p ∧ p.kind = .quantity o.kind.dim ∧ p.shape = [] := by
  simp only [run, ho, hq, if_true] at hr
  split at hr
  · simp only [Prod.mk.injEq, Except.ok.injEq] at hr
    obtain ⟨rfl, rfl⟩ := hr
    exact made_allocQuantity h _ _
  · cases hr

omit [Zero K] [Add K] [Sub K] [PyFloor K] [DecidableEq K] in
theorem rescale_shape_deq {q r : Quantity K} {d : Dim} (hr : q.rescale w d = .ok r) :
    w.deq r.dim d = true ∧ r.mag.shape = q.mag.shape := by
  unfold Quantity.rescale at hr
  split at hr
  · rename_i h
    cases hr
    exact ⟨h, rfl⟩
  · split at hr
    · cases hr
      exact ⟨deq_self _ _, rfl⟩
    · cases hr
    · cases hr

/-- `Quantity(x, d)`: a quantity of the same shape; it has the units `d` unless they are empty, then the
units of `x`. -/
theorem made_wrap {h h' : Heap K} {i x : Nat} {o : Obj} {d : Dim} (ho : h.objs[i]? = some o)
    (hr : h.run np2 w (.wrap i d) = (.ok x, h')) :
    ∃ p dp, Made h h' x p ∧ p.kind = .quantity dp ∧ p.shape = o.shape ∧
      (o.kind = .ndarray → dp = d) ∧ (o.kind.isQuantity = true → d = [] → dp = o.kind.dim) ∧
      (d ≠ [] → w.deq dp d = true) := by
  simp only [run, ho, wrap] at hr
  split at hr
  · rename_i hk
    simp only [Prod.mk.injEq, Except.ok.injEq] at hr
    obtain ⟨rfl, rfl⟩ := hr
    obtain ⟨p, h1, h2, h3⟩ := made_pushView h i o (.quantity d) o.shape id
    exact ⟨p, d, h1, h2, h3, fun _ => rfl, (fun hq => by rw [hk] at hq; cases hq), fun _ => deq_self _ _⟩
  · rename_i hk
    split at hr
    · rename_i hd
      have hd' : d = [] := by cases d with | nil => rfl | cons => cases hd
      split at hr
      · rename_i u hu
        simp only [Prod.mk.injEq, Except.ok.injEq] at hr
        obtain ⟨rfl, rfl⟩ := hr
        obtain ⟨p, h1, h2, h3⟩ := made_allocQuantity h (h.arr o) (unitDim u)
        exact ⟨p, _, h1, h2, h3, fun e => absurd e hk, fun _ _ => by rw [hu]; rfl, fun e => absurd hd' e⟩
      · simp only [Prod.mk.injEq, Except.ok.injEq] at hr
        obtain ⟨rfl, rfl⟩ := hr
        obtain ⟨p, h1, h2, h3⟩ := made_pushView h i o (.quantity o.kind.dim) o.shape id
        exact ⟨p, _, h1, h2, h3, fun e => absurd e hk, fun _ _ => rfl, fun e => absurd hd' e⟩
    · rename_i hd
      split at hr
      · cases hr
      · rename_i q hq
        obtain ⟨hdq, hsh⟩ := rescale_shape_deq hq
        obtain ⟨o', h1, h2, h3⟩ := made_allocQuantity h q.mag q.dim
        rw [h1.get] at hr
        simp only [Prod.mk.injEq, Except.ok.injEq] at hr
        obtain ⟨rfl, rfl⟩ := hr
        obtain ⟨p, k1, k2, k3⟩ := made_pushView (h.allocQuantity q.mag q.dim).2 (h.allocQuantity q.mag q.dim).1
          o' (.quantity q.dim) o'.shape id
        refine ⟨p, _, ⟨h1.grows.trans k1.grows, ?_, k1.get⟩, k2, k3.trans (h3.trans hsh),
          fun e => absurd e hk, fun _ e => by subst e; exact absurd rfl hd, fun _ => hdq⟩
        exact le_trans h1.fresh (le_trans (Nat.le_of_lt (get_lt h1.get)) k1.fresh)

/-! ## Frame -/

/-- Steps on objects in `H` only; uncertainties of objects outside `H` are not replaced. -/
structure UStep (H : Nat → Prop) (h : Heap K) (unc : Nat → Option Nat) (s' : UHeap K) : Prop where
  prims : Prims H h s'.heap
  keep : ∀ n, ¬ H n → s'.unc n = unc n

omit [Zero K] [One K] [Add K] [Sub K] [Mul K] [Div K] [RPow K] [PyFloor K] [DecidableEq K] in
theorem andThen_ind {P : UHeap K → Prop} {unc : Nat → Option Nat} {r : Py Nat × Heap K}
    {f : Nat → Heap K → Py Nat × UHeap K} (he : ∀ e h, r = (.error e, h) → P ⟨h, unc⟩)
    (hk : ∀ i h, r = (.ok i, h) → P (f i h).2) : P (UHeap.andThen unc r f).2 := by
  rcases r with ⟨r1, h⟩
  cases r1 with
  | error e => exact he e h rfl
  | ok i => exact hk i h rfl

/-- One step on arrays, then the rest. -/
theorem UStep.andThen {H : Nat → Prop} {h0 h : Heap K} {unc : Nat → Option Nat} {c : Cmd K}
    {f : Nat → Heap K → Py Nat × UHeap K} (hp : Prims H h0 h) (hw : Heap.WF h0) (hc : c.Valid)
    (hH : ∀ n, h0.objs.length ≤ n → H n) (ht : ∀ n, c.touches = some n → H n)
    (hk : ∀ i h', h.run np2 w c = (.ok i, h') → Prims H h0 h' → UStep H h0 unc (f i h').2) :
    UStep H h0 unc (UHeap.andThen unc (h.run np2 w c) f).2 := by
  have hs : Prims H h0 (h.run np2 w c).2 := hp.trans ((run_prims np2 w h c (hp.wf hw) hc).mono (by
    rintro n (h1 | h1)
    · exact ht n h1
    · exact hH n (le_trans hp.length_le h1)))
  refine andThen_ind (P := UStep H h0 unc) ?_ ?_
  · intro e h' hr
    rw [hr] at hs
    exact ⟨hs, fun _ _ => rfl⟩
  · intro i h' hr
    rw [hr] at hs
    exact hk i h' hr hs

omit [Zero K] [Add K] [Sub K] [Mul K] [Div K] [RPow K] [PyFloor K] [DecidableEq K] in
theorem ustep_link {H : Nat → Prop} {h0 h : Heap K} {unc : Nat → Option Nat} {i j : Nat}
    (hp : Prims H h0 h) (hi : H i) : UStep H h0 unc (UHeap.link ⟨h, unc⟩ i j) :=
  ⟨hp, fun n hn => Function.update_of_ne (fun e => hn (by rw [e]; exact hi)) _ _⟩

theorem attach_step {H : Nat → Prop} {h0 h : Heap K} {unc : Nat → Option Nat} {i j : Nat}
    (hp : Prims H h0 h) (hw : Heap.WF h0) (hH : ∀ n, h0.objs.length ≤ n → H n) (hi : H i) :
    UStep H h0 unc (UHeap.attach np2 w unc i j h).2 := by
  unfold UHeap.attach
  split
  · split
    · split
      · split
        · exact ⟨hp, fun _ _ => rfl⟩
        · exact UStep.andThen hp hw trivial hH (fun n hn => by cases hn)
            (fun i' h' _ hp' => ustep_link hp' hi)
      · exact ustep_link hp hi
    · exact ⟨hp, fun _ _ => rfl⟩
  · exact ⟨hp, fun _ _ => rfl⟩

theorem made_fresh {h h' : Heap K} {c : Cmd K} {x : Nat} (hc : c.creates = true)
    (hr : h.run np2 w c = (.ok x, h')) : h.objs.length ≤ x := by
  cases c with
  | newQuantity a d =>
    obtain ⟨p, h1, _⟩ := made_newQuantity hr
    exact h1.fresh
  | wrap i d =>
    cases ho : h.objs[i]? with
    | none => simp only [run, ho] at hr; cases hr
    | some o => obtain ⟨p, _, h1, _⟩ := made_wrap ho hr; exact h1.fresh
  | magnitude i =>
    cases ho : h.objs[i]? with
    | none => simp only [run, ho] at hr; cases hr
    | some o => obtain ⟨p, h1, _⟩ := made_magnitude ho hr; exact h1.fresh
  | view i k =>
    cases ho : h.objs[i]? with
    | none => simp only [run, ho] at hr; cases hr
    | some o => obtain ⟨p, _, _, _, h1, _⟩ := made_view ho hr; exact h1.fresh
  | copy i =>
    cases ho : h.objs[i]? with
    | none => simp only [run, ho] at hr; cases hr
    | some o => obtain ⟨p, h1, _⟩ := made_copy ho hr; exact h1.fresh
  | item i idx =>
    cases ho : h.objs[i]? with
    | none => simp only [run, ho] at hr; cases hr
    | some o =>
      simp only [run, ho] at hr
      split at hr
      · split at hr
        · simp only [Prod.mk.injEq, Except.ok.injEq] at hr
          obtain ⟨rfl, rfl⟩ := hr
          exact allocQuantity_fst _ _ _
        · simp only [Prod.mk.injEq, Except.ok.injEq] at hr
          obtain ⟨rfl, rfl⟩ := hr
          exact le_rfl
      · cases hr
  | _ => cases hc

/-- A command works on the objects it touches and on new ones. -/
theorem urun_step {s : UHeap K} {c : UCmd K} (hw : Heap.WF s.heap) (hc : c.Valid) :
    UStep (fun n => s.touches c n ∨ s.heap.objs.length ≤ n) s.heap s.unc (s.run np2 w c).2 := by
  have hH : ∀ n, s.heap.objs.length ≤ n → (s.touches c n ∨ s.heap.objs.length ≤ n) := fun n h => .inr h
  have ge : ∀ {h h' : Heap K} {c' : Cmd K} {x : Nat}, Prims (fun n => s.touches c n ∨ s.heap.objs.length ≤ n)
      s.heap h → c'.creates = true → h.run np2 w c' = (.ok x, h') → s.heap.objs.length ≤ x :=
    fun hp hc hr => le_trans hp.length_le (made_fresh hc hr)
  have rfl' : UStep (fun n => s.touches c n ∨ s.heap.objs.length ≤ n) s.heap s.unc s :=
    ⟨.refl _, fun _ _ => rfl⟩
  cases c with
  | plain c =>
    simp only [UHeap.run]
    split
    · exact ⟨run_prims np2 w s.heap c hw hc, fun _ _ => rfl⟩
    · split <;> exact rfl'
  | new a d u =>
    refine UStep.andThen (.refl _) hw trivial hH (fun n hn => by cases hn) (fun i h1 r1 p1 => ?_)
    refine UStep.andThen p1 hw trivial hH (fun n hn => by cases hn) (fun j h2 r2 p2 => ?_)
    exact attach_step p2 hw hH (.inr (ge (.refl _) rfl r1))
  | index i k =>
    simp only [UHeap.run]
    split
    · rename_i o ui ho hu
      refine UStep.andThen (.refl _) hw trivial hH (fun n hn => by cases hn; exact .inl (.inl rfl))
        (fun m h1 r1 p1 => ?_)
      refine UStep.andThen p1 hw hc hH (fun n hn => by cases hn; exact .inr (ge (.refl _) rfl r1))
        (fun mv h2 r2 p2 => ?_)
      refine UStep.andThen p2 hw hc hH (fun n hn => by cases hn; exact .inl (.inr hu))
        (fun uv h3 r3 p3 => ?_)
      refine UStep.andThen p3 hw trivial hH (fun n hn => by cases hn; exact .inr (ge p1 rfl r2))
        (fun x h4 r4 p4 => ?_)
      refine UStep.andThen p4 hw trivial hH (fun n hn => by cases hn; exact .inr (ge p2 rfl r3))
        (fun y h5 r5 p5 => ?_)
      exact attach_step p5 hw hH (.inr (ge p3 rfl r4))
    · exact rfl'
  | item i idx =>
    simp only [UHeap.run]
    split
    · rename_i o ui ho hu
      refine UStep.andThen (.refl _) hw trivial hH (fun n hn => by cases hn) (fun x h1 r1 p1 => ?_)
      refine UStep.andThen p1 hw trivial hH (fun n hn => by cases hn) (fun u h2 r2 p2 => ?_)
      refine UStep.andThen p2 hw trivial hH (fun n hn => by cases hn; exact .inr (ge p1 rfl r2))
        (fun y h3 r3 p3 => ?_)
      exact attach_step p3 hw hH (.inr (ge (.refl _) rfl r1))
    · exact rfl'
  | rearrange i k =>
    simp only [UHeap.run]
    split
    · exact rfl'
    · refine UStep.andThen (.refl _) hw hc hH (fun n hn => by cases hn; exact .inl rfl) (fun x h1 r1 p1 => ?_)
      exact ustep_link p1 (.inr (ge (.refl _) rfl r1))
  | copy i =>
    simp only [UHeap.run]
    split
    · exact rfl'
    · refine UStep.andThen (.refl _) hw trivial hH (fun n hn => by cases hn) (fun x h1 r1 p1 => ?_)
      exact ustep_link p1 (.inr (ge (.refl _) rfl r1))
  | setUncertainty i v =>
    simp only [UHeap.run]
    split
    · exact rfl'
    · refine UStep.andThen (.refl _) hw trivial hH (fun n hn => by cases hn) (fun x h1 r1 p1 => ?_)
      exact attach_step p1 hw hH (.inl (.inl rfl))
    · rename_i j
      split
      · split
        · exact attach_step (.refl _) hw hH (.inl (.inl rfl))
        · refine UStep.andThen (.refl _) hw trivial hH
            (fun n hn => by cases hn; exact .inl (.inr ⟨_, rfl, rfl⟩)) (fun x h1 r1 p1 => ?_)
          exact attach_step p1 hw hH (.inl (.inl rfl))
      · exact rfl'

theorem UHeap.Reached.wf {s : UHeap K} (r : UHeap.Reached np2 w s) : Heap.WF s.heap := by
  induction r with
  | empty => exact empty_wf
  | step c _ hc ih => exact (urun_step ih hc).prims.wf ih

end PQ
