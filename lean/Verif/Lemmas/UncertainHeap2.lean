import Verif.Lemmas.UncertainHeap

/-! # Alignment of values and uncertainties -/

namespace PQ

open NDArr Heap

variable {K : Type _} [Zero K] [One K] [Add K] [Sub K] [Mul K] [Div K] [RPow K] [PyFloor K]
  [DecidableEq K] {np2 : Bool} {w : World K}

/-- Commands that modify nothing leave all objects as they are. -/
theorem grows_of_modifies {h : Heap K} {c : Cmd K} (hm : c.modifies = none) :
    Grows h (h.run np2 w c).2 := by
  cases c with
  | newUnit u => exact grows_alloc _ _ _ _
  | newArray a => exact grows_alloc _ _ _ _
  | newQuantity a d => exact allocQuantity_grows _ _ _
  | wrap i d =>
    simp only [run]
    split
    · exact .rfl' _
    · simp only [wrap]
      split
      · exact grows_pushView _ _ _ _ _ _
      · split
        · split
          · exact allocQuantity_grows _ _ _
          · exact grows_pushView _ _ _ _ _ _
        · split
          · exact .rfl' _
          · split
            · exact allocQuantity_grows _ _ _
            · exact (allocQuantity_grows _ _ _).trans (grows_pushView _ _ _ _ _ _)
  | magnitude i =>
    simp only [run]
    split
    · exact .rfl' _
    · split
      · exact grows_pushView _ _ _ _ _ _
      · exact .rfl' _
  | view i k =>
    simp only [run]
    split
    · exact .rfl' _
    · split
      · exact .rfl' _
      · split
        · exact .rfl' _
        · exact grows_pushView _ _ _ _ _ _
  | item i idx =>
    simp only [run]
    split
    · exact .rfl' _
    · split
      · split
        · exact allocQuantity_grows _ _ _
        · exact grows_alloc _ _ _ _
      · exact .rfl' _
  | copy i =>
    simp only [run]
    split
    · exact .rfl' _
    · split
      · exact .rfl' _
      · exact grows_alloc _ _ _ _
  | deepcopy i =>
    simp only [run]
    split
    · exact .rfl' _
    · split
      · split
        · exact .rfl' _
        · exact (grows_pushView _ _ _ _ _ _).trans (grows_pushView _ _ _ _ _ _)
      · exact grows_alloc _ _ _ _
  | squeeze i k =>
    simp only [run]
    split
    · exact .rfl' _
    · split
      · split
        · exact .rfl' _
        · split
          · exact .rfl' _
          · split
            · exact .rfl' _
            · exact ((grows_pushView _ _ _ _ _ _).trans (grows_pushView _ _ _ _ _ _)).trans
                (grows_pushView _ _ _ _ _ _)
      · exact .rfl' _
  | rawWrite i k m =>
    simp only [run]
    split
    · exact .rfl' _
    · split
      · rw [result_snd]
        exact .of_eq (assign_objs _ _ _ _)
      · exact .rfl' _
  | setitem | put | fill | inplace | ipow | setUnits | into => cases hm

/-- Only the object a command is meant to modify changes its type or units. -/
theorem run_others {h : Heap K} {c : Cmd K} (hw : Heap.WF h) (hc : c.Valid) {i : Nat} {o : Obj}
    (hm : c.modifies ≠ some i) (ho : h.objs[i]? = some o) : (h.run np2 w c).2.objs[i]? = some o := by
  by_cases hn : c.modifies = none
  · exact grows_of_modifies hn i o ho
  · obtain ⟨o', ho', _, e⟩ := (run_prims np2 w h c hw hc).stable i o ho
    rw [e ?_] at ho'
    · exact ho'
    · rintro (h1 | h1)
      · apply hm
        cases c <;> first | exact absurd rfl hn | exact h1
      · exact absurd (get_lt ho) (by omega)

/-- In-place commands that keep units. -/
theorem keepsUnits_objs {h : Heap K} {c : Cmd K} {i : Nat} {o : Obj} (hw : Heap.WF h)
    (hm : c.modifies = some i) (ho : h.objs[i]? = some o) (hq : o.kind.isQuantity = true) (hk : c.KeepsUnits h) :
    (h.run np2 w c).2.objs = h.objs := by
  cases c <;> simp only [Cmd.modifies, reduceCtorEq, Option.some.injEq] at hm <;> subst hm <;>
    simp only [Cmd.KeepsUnits] at hk <;> simp only [run]
  · split
    · split
      · rw [result_snd]; exact setitem_objs _ _ _ _ _
      · rfl
    · rfl
  · split
    · split
      · rw [result_snd]; exact put_objs _ _ _ _ _
      · rfl
    · rfl
  · rename_i op i' x
    split
    · rename_i o2 y ho2 hy
      rw [ho] at ho2; cases ho2
      rw [result_snd]
      have hdim : y.toQuantity.dim = y.dim := by cases y <;> rfl
      cases hd : o.kind with
      | ndarray => rw [hd] at hq; cases hq
      | unit u => exact inplace_objs_nonquantity hw ho (fun d => by rw [hd]; simp)
      | quantity d =>
        cases op
        · exact inplace_objs_keeps ho hd rfl
        · exact inplace_objs_keeps ho hd rfl
        · exact inplace_objs_keeps ho hd rfl
        · exact inplace_objs_scale ho hd (.inl rfl) (hdim.trans (hk y hy))
        · exact inplace_objs_scale ho hd (.inr (.inl rfl)) (hdim.trans (hk y hy))
        · exact inplace_objs_scale ho hd (.inr (.inr rfl)) (hdim.trans (hk y hy))
    · rfl

/-! ## The invariant -/

/-- `Aligned`, and both parts are quantities. -/
def UInv (w : World K) (s : UHeap K) : Prop :=
  ∀ i j, s.unc i = some j → ∃ o p d1, s.heap.objs[i]? = some o ∧ s.heap.objs[j]? = some p ∧
    o.kind = .quantity d1 ∧ p.kind.isQuantity = true ∧ o.shape = p.shape ∧ w.deq p.kind.dim d1 = true

omit [Zero K] [One K] [Add K] [Sub K] [Mul K] [Div K] [RPow K] [PyFloor K] [DecidableEq K] in
theorem UInv.grow {s : UHeap K} {h' : Heap K} (hi : UInv w s) (hg : Grows s.heap h') : UInv w ⟨h', s.unc⟩ := by
  intro i j hj
  obtain ⟨o, p, d1, h1, h2, h3⟩ := hi i j hj
  exact ⟨o, p, d1, hg i o h1, hg j p h2, h3⟩

omit [Zero K] [One K] [Add K] [Sub K] [Mul K] [Div K] [RPow K] [PyFloor K] [DecidableEq K] in
theorem UInv.link {h : Heap K} {unc : Nat → Option Nat} (hi : UInv w ⟨h, unc⟩) {x y : Nat} {o p : Obj}
    {d1 : Dim} (ho : h.objs[x]? = some o) (hp : h.objs[y]? = some p) (h1 : o.kind = .quantity d1)
    (h2 : p.kind.isQuantity = true) (hs : o.shape = p.shape) (hd : w.deq p.kind.dim d1 = true) :
    UInv w (UHeap.link ⟨h, unc⟩ x y) := by
  intro i j hj
  have hj' : Function.update unc x (some y) i = some j := hj
  by_cases e : i = x
  · subst e
    rw [Function.update_self] at hj'
    cases hj'
    exact ⟨o, p, d1, ho, hp, h1, h2, hs, hd⟩
  · rw [Function.update_of_ne e] at hj'
    exact hi i j hj'

theorem UInv.andThen {s0 : Heap K} {h : Heap K} {unc : Nat → Option Nat} {c : Cmd K}
    {f : Nat → Heap K → Py Nat × UHeap K} (hi : UInv w ⟨s0, unc⟩) (hg : Grows s0 h) (hm : c.modifies = none)
    (hk : ∀ i h', h.run np2 w c = (.ok i, h') → Grows s0 h' → UInv w (f i h').2) :
    UInv w (UHeap.andThen unc (h.run np2 w c) f).2 := by
  have hs : Grows s0 (h.run np2 w c).2 := hg.trans (grows_of_modifies hm)
  refine andThen_ind (P := UInv w) ?_ ?_
  · intro e h' hr
    rw [hr] at hs
    exact UInv.grow (s := ⟨s0, unc⟩) hi hs
  · intro i h' hr
    rw [hr] at hs
    exact hk i h' hr hs

theorem UInv.attach {s0 h : Heap K} {unc : Nat → Option Nat} {i j : Nat} (hi : UInv w ⟨s0, unc⟩)
    (hg : Grows s0 h) {o p : Obj} {d1 : Dim} (ho : h.objs[i]? = some o) (hp : h.objs[j]? = some p)
    (h1 : o.kind = .quantity d1) (h2 : p.kind.isQuantity = true) :
    UInv w (UHeap.attach np2 w unc i j h).2 := by
  have hi' : UInv w ⟨h, unc⟩ := UInv.grow (s := ⟨s0, unc⟩) hi hg
  simp only [UHeap.attach, ho, hp, h1, show (AKind.quantity d1).dim = d1 from rfl]
  split
  · rename_i hs
    split
    · split
      · exact hi'
      · rename_i r hr
        refine UInv.andThen hi hg rfl (fun n h' hr' hg' => ?_)
        obtain ⟨q, hq, hqk, hqs⟩ := made_newQuantity hr'
        obtain ⟨hd, hsh⟩ := rescale_shape_deq hr
        have hi'' : UInv w ⟨h', unc⟩ := UInv.grow (s := ⟨s0, unc⟩) hi hg'
        exact hi''.link (hq.grows i o ho) hq.get h1 (by rw [hqk]; rfl) (by rw [hqs, hsh]; exact hs)
          (by rw [hqk]; exact hd)
    · rename_i hd
      refine hi'.link ho hp h1 h2 hs ?_
      rw [dne_eq, Bool.not_eq_true, Bool.not_eq_false'] at hd
      exact hd
  · exact hi'

/-- Every careful command keeps values and uncertainties aligned. -/
theorem uinv_run {s : UHeap K} {c : UCmd K} (hw : Heap.WF s.heap) (hc : c.Valid) (hca : c.Careful s)
    (hi : UInv w s) : UInv w (s.run np2 w c).2 := by
  cases c with
  | plain c =>
    simp only [UHeap.run]
    split
    · intro i j hj
      obtain ⟨o, p, d1, h1, h2, h3, h4, h5, h6⟩ := hi i j hj
      have key : ∀ (n : Nat) (q : Obj), s.heap.objs[n]? = some q → q.kind.isQuantity = true →
          (s.unc n ≠ none ∨ ∃ x, s.unc x = some n) →
          (s.heap.run np2 w c).2.objs[n]? = some q := by
        intro n q hq hqk hrel
        by_cases hm : c.modifies = some n
        · rw [keepsUnits_objs hw hm hq hqk (hca n hm hrel)]; exact hq
        · exact run_others hw hc hm hq
      have hj' : s.unc i = some j := hj
      exact ⟨o, p, d1, key i o h1 (by rw [h3]; rfl) (.inl (by rw [hj']; exact Option.some_ne_none _)),
        key j p h2 h4 (.inr ⟨i, hj'⟩), h3, h4, h5, h6⟩
    · split <;> exact hi
  | new a d u =>
    simp only [UHeap.run]
    refine UInv.andThen hi (.rfl' _) rfl (fun i h1 r1 g1 => ?_)
    refine UInv.andThen hi g1 rfl (fun j h2 r2 g2 => ?_)
    obtain ⟨o, m1, k1, _⟩ := made_newQuantity r1
    obtain ⟨p, m2, k2, _⟩ := made_newQuantity r2
    exact hi.attach g2 (m2.grows i o m1.get) m2.get k1 (by rw [k2]; rfl)
  | index i k =>
    simp only [UHeap.run]
    split
    · rename_i o ui ho hu
      obtain ⟨o', p, d1, h1, h2, h3, h4, h5, h6⟩ := hi i ui hu
      rw [ho] at h1; cases h1
      refine UInv.andThen hi (.rfl' _) rfl (fun m h1 r1 g1 => ?_)
      refine UInv.andThen hi g1 rfl (fun mv h2' r2 g2 => ?_)
      refine UInv.andThen hi g2 rfl (fun uv h3' r3 g3 => ?_)
      refine UInv.andThen hi g3 rfl (fun x h4' r4 g4 => ?_)
      refine UInv.andThen hi g4 rfl (fun y h5' r5 g5 => ?_)
      obtain ⟨om, m1, _, _⟩ := made_magnitude ho r1
      obtain ⟨omv, _, _, _, m2, _, _⟩ := made_view m1.get r2
      obtain ⟨ouv, _, _, _, m3, _, _⟩ := made_view (m2.grows ui p (m1.grows ui p h2)) r3
      obtain ⟨ox, dx, m4, kx, _⟩ := made_wrap (m3.grows mv omv m2.get) r4
      obtain ⟨oy, dy, m5, ky, _⟩ := made_wrap (m4.grows uv ouv m3.get) r5
      exact hi.attach g5 (m5.grows x ox m4.get) m5.get kx (by rw [ky]; rfl)
    · exact hi
  | item i idx =>
    simp only [UHeap.run]
    split
    · rename_i o ui ho hu
      obtain ⟨o', p, d1, h1, h2, h3, h4, h5, h6⟩ := hi i ui hu
      rw [ho] at h1; cases h1
      refine UInv.andThen hi (.rfl' _) rfl (fun x h1 r1 g1 => ?_)
      refine UInv.andThen hi g1 rfl (fun u h2' r2 g2 => ?_)
      refine UInv.andThen hi g2 rfl (fun y h3' r3 g3 => ?_)
      obtain ⟨ox, m1, kx, _⟩ := made_item ho (by rw [h3]; rfl) r1
      obtain ⟨ou, m2, _, _⟩ := made_item (m1.grows ui p h2) h4 r2
      obtain ⟨oy, dy, m3, ky, _⟩ := made_wrap m2.get r3
      exact hi.attach g3 (m3.grows x ox (m2.grows x ox m1.get)) m3.get kx (by rw [ky]; rfl)
    · exact hi
  | rearrange i k =>
    simp only [UHeap.run]
    split
    · exact hi
    · rename_i ui hu
      obtain ⟨o, p, d1, h1, h2, h3, h4, h5, h6⟩ := hi i ui hu
      refine UInv.andThen hi (.rfl' _) rfl (fun x h1' r1 g1 => ?_)
      obtain ⟨ox, sh, f, hk, m1, kx, sx⟩ := made_view h1 r1
      have hsh := hca o sh f h1 hk
      exact (UInv.grow hi g1).link m1.get (g1 ui p h2) (kx.trans h3) h4 (by rw [sx, hsh, h5]) h6
  | copy i =>
    simp only [UHeap.run]
    split
    · exact hi
    · rename_i ui hu
      obtain ⟨o, p, d1, h1, h2, h3, h4, h5, h6⟩ := hi i ui hu
      refine UInv.andThen hi (.rfl' _) rfl (fun x h1' r1 g1 => ?_)
      obtain ⟨ox, m1, kx, sx⟩ := made_copy h1 r1
      exact (UInv.grow hi g1).link m1.get (g1 ui p h2) (kx.trans h3) h4 (sx.trans h5) h6
  | setUncertainty i v =>
    simp only [UHeap.run]
    split
    · exact hi
    · rename_i ui x hu
      obtain ⟨o, p, d1, h1, h2, h3, h4, h5, h6⟩ := hi i ui hu
      refine UInv.andThen hi (.rfl' _) rfl (fun j h1' r1 g1 => ?_)
      obtain ⟨q, m1, kx, sx⟩ := made_newQuantity r1
      exact hi.attach g1 (m1.grows i o h1) m1.get h3 (by rw [kx]; rfl)
    · rename_i ui j hu
      obtain ⟨o, p, d1, h1, h2, h3, h4, h5, h6⟩ := hi i ui hu
      split
      · rename_i q hq hn
        split
        · rename_i hqk
          exact hi.attach (.rfl' _) h1 hq h3 hqk
        · refine UInv.andThen hi (.rfl' _) rfl (fun x h1' r1 g1 => ?_)
          obtain ⟨ox, dx, m1, kx, _⟩ := made_wrap hq r1
          exact hi.attach g1 (m1.grows i o h1) m1.get h3 (by rw [kx]; rfl)
      · exact hi

end PQ

namespace PQ

open NDArr Heap

variable {K : Type _} [Zero K] [One K] [Add K] [Sub K] [Mul K] [Div K] [RPow K] [PyFloor K]
  [DecidableEq K] {np2 : Bool} {w : World K}

/-! ## The arrays are in a state reachable by commands on arrays -/

theorem reached_andThen {h : Heap K} {unc : Nat → Option Nat} {c : Cmd K}
    {f : Nat → Heap K → Py Nat × UHeap K} (hr : Heap.Reached np2 w h) (hc : c.Valid)
    (hk : ∀ i h', Heap.Reached np2 w h' → Heap.Reached np2 w (f i h').2.heap) :
    Heap.Reached np2 w (UHeap.andThen unc (h.run np2 w c) f).2.heap := by
  have hs := Heap.Reached.step (np2 := np2) (w := w) c hr hc
  refine andThen_ind (P := fun s => Heap.Reached np2 w s.heap) ?_ ?_
  · intro e h' hr'
    rw [hr'] at hs
    exact hs
  · intro i h' hr'
    rw [hr'] at hs
    exact hk i h' hs

theorem reached_attach {h : Heap K} {unc : Nat → Option Nat} {i j : Nat} (hr : Heap.Reached np2 w h) :
    Heap.Reached np2 w (UHeap.attach np2 w unc i j h).2.heap := by
  unfold UHeap.attach
  split
  · split
    · split
      · split
        · exact hr
        · exact reached_andThen hr trivial (fun _ _ h => h)
      · exact hr
    · exact hr
  · exact hr

theorem UHeap.Reached.heap {s : UHeap K} (r : UHeap.Reached np2 w s) : Heap.Reached np2 w s.heap := by
  induction r with
  | empty => exact .empty
  | @step s c hs hc ih =>
    cases c with
    | plain c =>
      simp only [UHeap.run]
      split
      · exact .step c ih hc
      · split <;> exact ih
    | new a d u =>
      exact reached_andThen ih trivial (fun i h1 r1 => reached_andThen r1 trivial (fun j h2 r2 =>
        reached_attach r2))
    | index i k =>
      simp only [UHeap.run]
      split
      · refine reached_andThen ih trivial (fun m h1 r1 => ?_)
        refine reached_andThen r1 hc (fun mv h2 r2 => ?_)
        refine reached_andThen r2 hc (fun uv h3 r3 => ?_)
        refine reached_andThen r3 trivial (fun x h4 r4 => ?_)
        exact reached_andThen r4 trivial (fun y h5 r5 => reached_attach r5)
      · exact ih
    | item i idx =>
      simp only [UHeap.run]
      split
      · refine reached_andThen ih trivial (fun x h1 r1 => ?_)
        refine reached_andThen r1 trivial (fun u h2 r2 => ?_)
        exact reached_andThen r2 trivial (fun y h3 r3 => reached_attach r3)
      · exact ih
    | rearrange i k =>
      simp only [UHeap.run]
      split
      · exact ih
      · exact reached_andThen ih hc (fun _ _ h => h)
    | copy i =>
      simp only [UHeap.run]
      split
      · exact ih
      · exact reached_andThen ih trivial (fun _ _ h => h)
    | setUncertainty i v =>
      simp only [UHeap.run]
      split
      · exact ih
      · exact reached_andThen ih trivial (fun _ _ h => reached_attach h)
      · split
        · split
          · exact reached_attach ih
          · exact reached_andThen ih trivial (fun _ _ h => reached_attach h)
        · exact ih

/-- Objects outside what a sequence of commands touches are seen as before. -/
theorem avoids_iso (S : Nat → Prop) : ∀ (cs : List (UCmd K)) (s : UHeap K), Heap.WF s.heap →
    (∀ n, S n → n < s.heap.objs.length) → (∀ c ∈ cs, c.Valid) → UHeap.Avoids np2 w S s cs →
    UStep (fun n => ¬ S n) s.heap s.unc (s.runAll np2 w cs)
  | [], s, _, _, _, _ => ⟨.refl _, fun _ _ => rfl⟩
  | c :: cs, s, hw, hS, hv, ha => by
    have h1 := urun_step (np2 := np2) (w := w) (s := s) (c := c) hw (hv c (by simp))
    have hp : Prims (fun n => ¬ S n) s.heap (s.run np2 w c).2.heap := h1.prims.mono (by
      rintro n (h | h) hn
      · exact ha.1 n hn h
      · exact absurd (hS n hn) (by omega))
    have ih := avoids_iso S cs (s.run np2 w c).2 (hp.wf hw)
      (fun n hn => lt_of_lt_of_le (hS n hn) hp.length_le) (fun x hx => hv x (by simp [hx])) ha.2
    refine ⟨hp.trans ih.prims, fun n hn => ?_⟩
    have hn' : S n := not_not.1 hn
    rw [show (s.runAll np2 w (c :: cs)).unc n = ((s.run np2 w c).2.runAll np2 w cs).unc n from rfl,
      ih.keep n hn, h1.keep n ?_]
    rintro (h | h)
    · exact ha.1 n hn' h
    · exact absurd (hS n hn') (by omega)

end PQ
