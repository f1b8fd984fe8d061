import Verif.Lemmas.ExampleHeap

/-!
# Property C29: views and their owners

`h` ranges over all states of memory reachable by any sequence of commands, `np2` over both
behaviours of numpy.
-/

namespace PQ

open NDArr Heap

section views
variable {K : Type _} [Zero K] [One K] [Add K] [Sub K] [Mul K] [Div K] [RPow K] [PyFloor K]
  [DecidableEq K] {np2 : Bool} {w : World K} {h : Heap K}

/-- A view of a quantity has a quantity as its base, forever. -/
theorem view_protected (hr : Reached np2 w h) {i v : Nat} {d : Dim} {o : Obj} {k : Key} {h1 : Heap K}
    (hk : k.Basic) (ho : h.objs[i]? = some o) (hd : o.kind = .quantity d)
    (hrun : h.run np2 w (.view i k) = (.ok v, h1)) {cs : List (Cmd K)} (hc : ∀ c ∈ cs, c.Valid) :
    ∃ o' d', (h1.runAll np2 w cs).objs[v]? = some o' ∧ o'.kind = .quantity d' ∧
      (h1.runAll np2 w cs).baseIsQuantity o' = true := by
  have hr1 : Heap.WF h1 := by
    have := run_wf (np2 := np2) (w := w) (c := .view i k) hr.wf hk
    rwa [hrun] at this
  simp only [run, ho, hd] at hrun
  split at hrun
  · cases hrun
  · rename_i s sel he
    simp only [Prod.mk.injEq, Except.ok.injEq] at hrun
    obtain ⟨rfl, rfl⟩ := hrun
    have hp := runAll_prims np2 w (fun _ => True) cs _ hr1 hc (fun _ _ _ _ => trivial)
      (fun _ _ => trivial)
    have hnew := push_get_new h ⟨.quantity d, s, fun j => o.addr (sel j), false,
      some (collapse h.objs (.quantity d) h.objs.length i), o.writeable⟩
    obtain ⟨ob, hob, hq⟩ := collapse_quantity h.objs d h.objs.length i o ho (by rw [hd]; rfl)
    have hb := baseIsQuantity_of (h := (h.pushView i o (.quantity d) s sel).2)
      (o := ⟨.quantity d, s, fun j => o.addr (sel j), false,
        some (collapse h.objs (.quantity d) h.objs.length i), o.writeable⟩) rfl
      (push_get_old _ _ _ _ hob) hq
    obtain ⟨o', ho', st, _⟩ := hp.stable _ _ hnew
    have hkind : ∃ d', o'.kind = .quantity d' := by
      rcases st.kind with e | ⟨_, d', _, e⟩
      · exact ⟨d, e⟩
      · exact ⟨d', e⟩
    obtain ⟨d', hd'⟩ := hkind
    exact ⟨o', d', ho', hd', hp.baseIsQuantity hnew ho' hb⟩

/-- C29: let `v = q[...]` be a view of a quantity.  Whatever happens afterwards, an in-place operation
through `v` that would change its units is refused and changes nothing: `v.units = ...`, `v *= x` and
`v /= x` for `x` with units, and `v **= e` unless `e` is 1. -/
theorem C29_view_refuses_unit_changes (hr : Reached np2 w h) (i v : Nat) (k : Key) (hk : k.Basic)
    (d : Dim) (a : NDArr K) (h1 : Heap K) (hs : Sees h i (.quantity d) a)
    (hrun : h.run np2 w (.view i k) = (.ok v, h1)) (cs : List (Cmd K)) (hc : ∀ c ∈ cs, c.Valid)
    (h2 : Heap K) (hh : h2 = h1.runAll np2 w cs) :
    (∀ d', h2.run np2 w (.setUnits v d') = (.error .valueError, h2)) ∧
    (∀ x y, h2.src x = some y → y.dim ≠ [] →
      h2.run np2 w (.inplace .mul v x) = (.error .valueError, h2) ∧
      h2.run np2 w (.inplace .div v x) = (.error .valueError, h2)) ∧
    (∀ e : ExpArg, (∀ p, uniformExp e.vals = .ok p → p ≠ 1) →
      ∃ err, h2.run np2 w (.ipow v e) = (.error err, h2)) := by
  obtain ⟨o, ho, hd, _⟩ := hs.ex
  obtain ⟨o', d', ho', hd', hb⟩ := view_protected hr hk ho hd hrun hc
  rw [← hh] at ho' hb
  refine ⟨fun dn => ?_, fun x y hx hy => ?_, fun e he => ?_⟩
  · simp only [run, ho', setUnits, hd', hb, if_true, result]
  · have hx' : (!y.toQuantity.dim.isEmpty && h2.baseIsQuantity o') = true := by
      rw [hb, Bool.and_true]
      cases y with
      | quantity q =>
        change (!q.dim.isEmpty) = true
        cases hq : q.dim with
        | nil => exact absurd hq hy
        | cons => rfl
      | array a => exact absurd rfl hy
    constructor <;> simp only [run, ho', hx, inplace, hd', hx', if_true, result]
  · simp only [run, ho', ipow, hd']
    split
    · exact ⟨_, rfl⟩
    · split
      · exact ⟨_, rfl⟩
      · rename_i p hp
        split
        · exact ⟨_, rfl⟩
        · rw [if_pos ⟨he p hp, hb⟩]
          exact ⟨_, rfl⟩

/-- The commands that are allowed to change the units of their target without asking whether it is a
view. -/
def Cmd.bypasses : Cmd K → Prop
  | .fill _ _ => True
  | .into _ _ _ => True
  | .inplace .floordiv _ _ => True
  | _ => False

/-- C29: a command that modifies a view `v` (other than `fill`, `out=` and `//=`) leaves the type and
units of every object as they were, whether it succeeds or raises. -/
theorem C29_view_keeps_units (hr : Reached np2 w h) (i v : Nat) (k : Key) (hk : k.Basic)
    (d : Dim) (a : NDArr K) (h1 : Heap K) (hs : Sees h i (.quantity d) a)
    (hrun : h.run np2 w (.view i k) = (.ok v, h1)) (cs : List (Cmd K)) (hc : ∀ c ∈ cs, c.Valid)
    (h2 : Heap K) (hh : h2 = h1.runAll np2 w cs) (c : Cmd K) (hm : c.modifies = some v)
    (hb : ¬ c.bypasses) : (h2.run np2 w c).2.objs = h2.objs := by
  obtain ⟨o, ho, hd, _⟩ := hs.ex
  obtain ⟨o', d', ho', hd', hbq⟩ := view_protected hr hk ho hd hrun hc
  rw [← hh] at ho' hbq
  cases c <;> simp only [Cmd.modifies, reduceCtorEq, Option.some.injEq] at hm <;> subst hm <;>
    simp only [run]
  · split
    · split
      · rw [result_snd]; exact setitem_objs _ _ _ _ _
      · rfl
    · rfl
  · split
    · split
      · rw [result_snd]; exact put_objs _ _ _ _ _
      · rfl
    · rfl
  · exact absurd trivial hb
  · rename_i op i' x
    split
    · rename_i o2 y ho2 hy
      rw [ho'] at ho2; cases ho2
      rw [result_snd]
      by_cases hkp : IOp.keeps op = true
      · exact inplace_objs_keeps ho' hd' hkp
      · by_cases hx : y.toQuantity.dim = []
        · refine inplace_objs_scale ho' hd' ?_ hx
          cases op <;> simp_all [IOp.keeps]
        · have hx' : (!y.toQuantity.dim.isEmpty && h2.baseIsQuantity o') = true := by
            rw [hbq, Bool.and_true]
            cases hq : y.toQuantity.dim with
            | nil => exact absurd hq hx
            | cons => rfl
          cases op <;> simp only [IOp.keeps, not_true_eq_false] at hkp
          · simp only [inplace, hd', hx', if_true]
          · simp only [inplace, hd', hx', if_true]
          · exact absurd trivial hb
    · rfl
  · simp only [ho', result_snd]
    exact ipow_objs_protected ho' hbq
  · simp only [ho', result_snd, setUnits, hd', hbq, if_true]
  · exact absurd trivial hb

/-- C29: no command changes the type or units of an object other than the one it is applied to. -/
theorem C29_units_of_others_kept (hr : Reached np2 w h) (c : Cmd K) (hc : c.Valid) (j : Nat) (o : Obj)
    (ho : h.objs[j]? = some o) (hj : c.touches ≠ some j) : (h.run np2 w c).2.objs[j]? = some o := by
  obtain ⟨o', ho', _, e⟩ := (run_prims np2 w h c hr.wf hc).stable j o ho
  rw [e (by
    rintro (h1 | h1)
    · exact hj h1
    · exact absurd (get_lt ho) (by omega))] at ho'
  exact ho'

/-- C29: objects that share no memory with the object a command is applied to look the same
afterwards. -/
theorem C29_unrelated_unaffected (hr : Reached np2 w h) (c : Cmd K) (hc : c.Valid) (j : Nat)
    (k : AKind) (a : NDArr K) (hs : Sees h j k a)
    (hj : ∀ i, c.touches = some i → i ≠ j ∧ ApartIds h j i) :
    Sees (h.run np2 w c).2 j k a := by
  obtain ⟨o, ho, hk, hsh, hel⟩ := hs.ex
  have hp := run_prims np2 w h c hr.wf hc
  have iso := hp.iso (S := fun m => m = j) (fun m hm h1 => by
      subst hm
      rcases h1 with h1 | h1
      · exact (hj _ h1).1 rfl
      · exact absurd (get_lt ho) (by omega)) hr.wf (fun m n hm hn => by
      subst hm
      rcases hn with h1 | h1
      · exact (hj _ h1).2
      · intro p q hp hq
        exact absurd (get_lt hq) (by omega))
  obtain ⟨h1, hm⟩ := iso.same j o rfl ho
  refine ⟨o, h1, hk, hsh, fun x hx => ?_⟩
  rw [← hel x hx]
  exact hm _ ⟨x, hx, rfl⟩

/-- C70: after any sequence of commands that does not use the holes of the protection (see
`Cmd.Careful`), any two quantities that share memory still have the same units.  Partial: the full
claim would drop the condition; it is false then, see the witnesses below. -/
theorem C70_coherent_partial (hr : Reached np2 w h) (hco : h.Coherent) (cs : List (Cmd K))
    (hv : ∀ c ∈ cs, c.Valid) (hca : AllCareful np2 w h cs) : (h.runAll np2 w cs).Coherent := by
  induction cs generalizing h with
  | nil => exact hco
  | cons c cs ih =>
    exact ih (h := (h.run np2 w c).2) (.step c hr (hv c (by simp)))
      (run_coherent hr.wf hco (hv c (by simp)) hca.1) (fun x hx => hv x (by simp [hx])) hca.2

/-- C70: every state reached from the start by careful commands is coherent. -/
theorem C70_coherent_from_start_partial (cs : List (Cmd K)) (hv : ∀ c ∈ cs, c.Valid)
    (hca : AllCareful np2 w Heap.empty cs) :
    ((Heap.empty : Heap K).runAll np2 w cs).Coherent :=
  C70_coherent_partial .empty empty_coherent cs hv hca

end views

section phys
variable {K : Type _} [Field K] [LinearOrder K] [IsStrictOrderedRing K] [RPow K] [LawfulRPow K]
  [PyFloor K] {np2 : Bool} {w : World K} {h : Heap K} {hh : Hasher}

omit [PyFloor K] [IsStrictOrderedRing K] [LawfulRPow K] in
/-- C70: in a coherent state, two quantities looking at the same memory show the same physical
value there. -/
theorem C70_shared_elements_agree_partial (hco : h.Coherent) (i j : Nat) (o p : Obj)
    (ho : h.objs[i]? = some o) (hp : h.objs[j]? = some p) (hqo : o.kind.isQuantity = true)
    (hqp : p.kind.isQuantity = true) (hdo : DimOK w o.kind.dim) (hdp : DimOK w p.kind.dim)
    (x y : List Nat) (hx : InB o.shape x) (hy : InB p.shape y) (e : o.addr x = p.addr y)
    (v : Valuation w) : (v.phys (h.quantity o)).elem x = (v.phys (h.quantity p)).elem y := by
  have hs := hco i j o p ho hp hqo hqp (fun hap => hap _ ⟨x, hx, rfl⟩ ⟨y, hy, e.symm⟩)
  have hsz : v.size o.kind.dim = v.size p.kind.dim :=
    dsize_same v.val hdo.canon.nodup hdp.canon.nodup hs
  change h.mem (o.addr x) * v.size o.kind.dim = h.mem (p.addr y) * v.size p.kind.dim
  rw [e, hsz]

/-- C29: `q.units = u` with units that are not compatible raises `ValueError` and changes nothing at
all. -/
theorem C29_units_setter_incompatible (hw : Reachable hh w) (i : Nat) (d : Dim) (o : Obj)
    (ho : h.objs[i]? = some o) (d0 : Dim) (hk : o.kind = .quantity d0) (hd : DimOK w d)
    (hod : DimOK w d0) (hs : HashSafe w d0 d) (hc : ¬ Compatible w d0 d) :
    h.run np2 w (.setUnits i d) = (.error .valueError, h) := by
  simp only [run, ho, setUnits, hk]
  have hdq : w.deq d0 d = false := by
    by_contra hx
    have hx : w.deq d0 d = true := by simpa using hx
    exact hc (compatible_of_same hod.canon.nodup hd.canon.nodup (hs.direct hx))
  have hcf : ∃ e, w.convFactor d0 d = .error e := by
    rcases hx : w.convFactor d0 d with e | cf
    · exact ⟨e, rfl⟩
    · exact absurd ((convFactor_returns hw.wf hod hd hs.refs).1 ⟨cf, hx⟩) hc
  obtain ⟨e, he⟩ := hcf
  have := convFactor_error he
  subst this
  by_cases hb : h.baseIsQuantity o = true
  · simp only [hb, if_true]; rfl
  · simp only [hb, Bool.false_eq_true, if_false, hdq, he]
    by_cases hwr : o.writeable = true <;> simp [hwr, result]

/-- C29: `q.units = u` on a quantity that shares memory with no other quantity preserves the physical
value of every quantity, `q` included. -/
theorem C29_units_setter_preserves (hw : Reachable hh w) (hr : Reached np2 w h) (i : Nat) (d : Dim)
    (hun : h.Unshared i) (j : Nat) (o p : Obj) (ho : h.objs[i]? = some o) (hp : h.objs[j]? = some p)
    (hq : p.kind.isQuantity = true) (hd : DimOK w d) (hod : DimOK w o.kind.dim)
    (hs : HashSafe w o.kind.dim d) (v : Valuation w) :
    ∃ p', (h.run np2 w (.setUnits i d)).2.objs[j]? = some p' ∧
      (v.phys ((h.run np2 w (.setUnits i d)).2.quantity p')).Same (v.phys (h.quantity p)) := by
  simp only [run, ho, result_snd]
  unfold setUnits
  split
  · exact ⟨p, hp, .refl _⟩
  · exact ⟨p, hp, .refl _⟩
  · rename_i d0 hk
    split
    · exact ⟨p, hp, .refl _⟩
    · split
      · exact ⟨p, hp, .refl _⟩
      · split
        · exact ⟨p, hp, .refl _⟩
        · split
          · rename_i cf hcf
            have hk' : o.kind.dim = d0 := by rw [hk]; rfl
            rw [hk'] at hod hs
            obtain ⟨hpos, hsz⟩ := convFactor_ok hw.wf hod hd hs.refs hcf
            have hget := setDim_get (h.store o ((h.arr o).map (fun x => x * cf))) i o d ho j
            by_cases e : j = i
            · subst e
              rw [ho] at hp; cases hp
              rw [if_pos rfl] at hget
              refine ⟨_, hget, rfl, fun x hx => ?_⟩
              have hx' : InB o.shape x := hx
              have hst := store_mem_cell h o ((h.arr o).map (fun x => x * cf)) (hr.wf.ok j o ho).inj x hx'
              change (h.store o _).mem (o.addr x) * v.size d = h.mem (o.addr x) * v.size o.kind.dim
              rw [hst, hk', hsz v]
              change h.mem (o.addr x) * cf * v.size d = _
              ring
            · rw [if_neg e] at hget
              refine ⟨p, hget.trans hp, rfl, fun x hx => ?_⟩
              have hx' : InB p.shape x := hx
              have hap := hun j o p e ho hp hq
              have hst := store_mem_of_not_cell h o ((h.arr o).map (fun x => x * cf)) (p.addr x)
                (fun hc => hap _ hc ⟨x, hx', rfl⟩)
              change (h.store o _).mem (p.addr x) * v.size p.kind.dim = h.mem (p.addr x) * v.size p.kind.dim
              rw [hst]
          · exact ⟨p, hp, .refl _⟩
          · exact ⟨p, hp, .refl _⟩

end phys

/-! ## Concrete cases -/

/-- The hypotheses of the theorems above are met: `q = [1, 2, 3] * km; v = q[1:]`. -/
example : Sees exHeap1 1 (.quantity dKm) exArr ∧ exHeap1.run false exWorld (.view 1 kTail) = (.ok 2, exHeap2) :=
  ⟨⟨_, rfl, rfl, rfl, fun i hi => by
      cases hi with
      | cons h1 h2 =>
        cases h2
        rename_i n
        change exHeap1.mem (0 + (n * 1 + 0)) = _
        have : n = 0 ∨ n = 1 ∨ n = 2 := by omega
        rcases this with rfl | rfl | rfl <;> rfl⟩, rfl⟩

/-- So `v.units = 'm'`, `v *= s` are refused, even after `q[...]` has been viewed once more. -/
example : (∀ d', (exHeap2.runAll false exWorld [.view 2 kTail]).run false exWorld (.setUnits 2 d')
      = (.error .valueError, exHeap2.runAll false exWorld [.view 2 kTail])) :=
  fun _ => rfl

/-- Careful commands: creating a quantity, viewing it, multiplying the view by a number, adding. -/
example : AllCareful false exWorld Heap.empty
    [.newQuantity exArr dKm, .view 1 kTail, .inplace .mul 2 (.lit (.array (NDArr.scalar 2))),
     .inplace .add 2 (.obj 2)] := by
  refine ⟨trivial, trivial, .inr ⟨_, 1, _, rfl, rfl, rfl, rfl⟩, trivial, trivial⟩

/-- Seeing one element. -/
theorem sees_scalar {K : Type _} {h : Heap K} {i : Nat} {k : AKind} {o : Obj} {x : K} (ho : h.objs[i]? = some o)
    (hk : o.kind = k) (hs : o.shape = []) (hx : h.mem (o.addr []) = x) :
    Sees h i k (NDArr.scalar x) := by
  refine ⟨o, ho, hk, hs, fun j hj => ?_⟩
  have hj' : InB o.shape j := hj
  rw [hs] at hj'
  cases hj'
  exact hx

/-- `q = 1000 * m; v = q[...]` -/
noncomputable def exOwner : List (Cmd ℝ) := [.newQuantity (NDArr.scalar 1000) dM, .view 1 kAll]

/-- The state after that. -/
noncomputable def exOwnerHeap : Heap ℝ := Heap.empty.runAll false exWorld exOwner

/-- C70 is false of the `units` setter of the owner: `q = 1000*m; v = q[...]; q.units = 'km'` makes
`v`, which was 1000 m, show 1 m. -/
theorem C70_owner_units_false :
    Sees exOwnerHeap 2 (.quantity dM) (NDArr.scalar 1000) ∧
    (exOwnerHeap.run false exWorld (.setUnits 1 dKm)).1 = .ok 1 ∧
    Sees (exOwnerHeap.run false exWorld (.setUnits 1 dKm)).2 1 (.quantity dKm) (NDArr.scalar 1) ∧
    Sees (exOwnerHeap.run false exWorld (.setUnits 1 dKm)).2 2 (.quantity dM) (NDArr.scalar 1) := by
  have hx : exOwnerHeap.run false exWorld (.setUnits 1 dKm)
      = result 1 (exOwnerHeap.setUnits exWorld 1
          ⟨.quantity dM, [], fun j => 0 + ravel [] j, false, some 0, true⟩ dKm) := rfl
  have hs : exOwnerHeap.setUnits exWorld 1
      ⟨.quantity dM, [], fun j => 0 + ravel [] j, false, some 0, true⟩ dKm
      = (none, (exOwnerHeap.store ⟨.quantity dM, [], fun j => 0 + ravel [] j, false, some 0, true⟩
          ((exOwnerHeap.arr ⟨.quantity dM, [], fun j => 0 + ravel [] j, false, some 0, true⟩).map
            (fun x => x * (1 / 1000)))).setDim 1
          ⟨.quantity dM, [], fun j => 0 + ravel [] j, false, some 0, true⟩ dKm) := by
    have hb : exOwnerHeap.baseIsQuantity ⟨.quantity dM, [], fun j => 0 + ravel [] j, false, some 0, true⟩
        = false := rfl
    simp only [setUnits, hb, Bool.false_eq_true, if_false, Bool.not_true, ex_deq_m_km,
      ex_convFactor_m_km]
  rw [hx, hs]
  refine ⟨sees_scalar rfl rfl rfl rfl, rfl, sees_scalar rfl rfl rfl ?_, sees_scalar rfl rfl rfl ?_⟩
  · change (1000 : ℝ) * (1 / 1000) = 1
    norm_num
  · change (1000 : ℝ) * (1 / 1000) = 1
    norm_num

/-- C70 is false of `fill`: `v.fill(5*s)` is accepted for a view `v` of `q = 1000*m`; `v` is then 5 s
and `q` is 5 m. -/
theorem C70_fill_false :
    (exOwnerHeap.run false exWorld (.fill 2 (.lit (.quantity ⟨NDArr.scalar 5, dS⟩)))).1 = .ok 2 ∧
    Sees (exOwnerHeap.run false exWorld (.fill 2 (.lit (.quantity ⟨NDArr.scalar 5, dS⟩)))).2 2
      (.quantity dS) (NDArr.scalar 5) ∧
    Sees (exOwnerHeap.run false exWorld (.fill 2 (.lit (.quantity ⟨NDArr.scalar 5, dS⟩)))).2 1
      (.quantity dM) (NDArr.scalar 5) :=
  ⟨rfl, sees_scalar rfl rfl rfl rfl, sees_scalar rfl rfl rfl rfl⟩

/-- C70 is false of `//=` (before numpy 2): `v //= 2*s` is accepted for a view `v` of `q = 1000*m`
and gives `v` other units than `q`. -/
theorem C70_floordiv_false :
    (exOwnerHeap.run false exWorld (.inplace .floordiv 2 (.lit (.quantity ⟨NDArr.scalar 2, dS⟩)))).1 = .ok 2 ∧
    Sees (exOwnerHeap.run false exWorld (.inplace .floordiv 2 (.lit (.quantity ⟨NDArr.scalar 2, dS⟩)))).2 2
      (.quantity [(uM, 1), (uS, -1)]) (NDArr.scalar 500) ∧
    Sees (exOwnerHeap.run false exWorld (.inplace .floordiv 2 (.lit (.quantity ⟨NDArr.scalar 2, dS⟩)))).2 1
      (.quantity dM) (NDArr.scalar 500) := by
  refine ⟨rfl, sees_scalar rfl ?_ rfl ?_, sees_scalar rfl rfl rfl ?_⟩
  · rfl
  · change floorDivK (1000 : ℝ) 2 = 500
    norm_num [floorDivK, pfloor]
  · change floorDivK (1000 : ℝ) 2 = 500
    norm_num [floorDivK, pfloor]

/-- C70 is false of `squeeze` and `real`: their result shares memory with the original but is not
protected, so `s = q.squeeze(); s.units = 'km'` turns `q = 1000*m` into 1 m. -/
theorem C70_squeeze_false :
    let h := exOwnerHeap.runAll false exWorld [.squeeze 1 kAll]
    Sees h 5 (.quantity dM) (NDArr.scalar 1000) ∧
    (h.run false exWorld (.setUnits 5 dKm)).1 = .ok 5 ∧
    Sees (h.run false exWorld (.setUnits 5 dKm)).2 1 (.quantity dM) (NDArr.scalar 1) := by
  intro h
  have hx : h.run false exWorld (.setUnits 5 dKm)
      = result 5 (h.setUnits exWorld 5
          ⟨.quantity dM, [], fun j => 0 + ravel [] j, false, some 4, true⟩ dKm) := rfl
  have hs : h.setUnits exWorld 5
      ⟨.quantity dM, [], fun j => 0 + ravel [] j, false, some 4, true⟩ dKm
      = (none, (h.store ⟨.quantity dM, [], fun j => 0 + ravel [] j, false, some 4, true⟩
          ((h.arr ⟨.quantity dM, [], fun j => 0 + ravel [] j, false, some 4, true⟩).map
            (fun x => x * (1 / 1000)))).setDim 5
          ⟨.quantity dM, [], fun j => 0 + ravel [] j, false, some 4, true⟩ dKm) := by
    have hb : h.baseIsQuantity ⟨.quantity dM, [], fun j => 0 + ravel [] j, false, some 4, true⟩
        = false := rfl
    simp only [setUnits, hb, Bool.false_eq_true, if_false, Bool.not_true, ex_deq_m_km,
      ex_convFactor_m_km]
  rw [hx, hs]
  refine ⟨sees_scalar rfl rfl rfl rfl, rfl, sees_scalar rfl rfl rfl ?_⟩
  change (1000 : ℝ) * (1 / 1000) = 1
  norm_num

end PQ
