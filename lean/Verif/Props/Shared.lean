import Verif.Lemmas.Shared
import Verif.Lemmas.ExampleHeap

/-! # C112–C115: threads that share quantities, and interrupted operations -/

namespace PQ.Shared

open _root_.PQ.Shared.Task

universe u v
variable {K : Type u} {ρ : Type v}

/-! ### C112 -/

section
variable [Zero K] [One K] [Mul K] [Div K] [RPow K] [DecidableEq K] [Add K] [Sub K] [PyFloor K]

omit [Zero K] [One K] [Mul K] [Div K] [RPow K] [DecidableEq K] [Add K] [Sub K] [PyFloor K] in
theorem changes_mentions {c : Call K} {j : Nat} (h : c.Changes j) : c.Mentions j := by
  cases c <;> first | exact h.elim | exact h | exact .inl h

omit [Zero K] [One K] [Mul K] [Div K] [RPow K] [DecidableEq K] [Add K] [Sub K] [PyFloor K] in
theorem Client.Within.inter {R W : Nat → Prop} {p : Client K ρ} (h : p.Within R W) :
    p.Within R (fun i => W i ∧ R i) := by
  induction h with
  | done r => exact .done r
  | call hr hw _ ih => exact .call hr (fun j hj => ⟨hw j hj, hr j (changes_mentions hj)⟩) ih

theorem run_clients (np2 : Bool) (w : World K) (σ : Store K) (progs : List (Client K ρ))
    (R W : Nat → Nat → Prop)
    (hU : ∀ (t : Nat) (p : Client K ρ), progs[t]? = some p → p.Within (R t) (W t))
    (hD : ∀ t t' i, t ≠ t' → t < progs.length → t' < progs.length → W t i → ¬ R t' i)
    (sched : List Nat) :
    (∀ (t : Nat) (p : Client K ρ), progs[t]? = some p →
      ((Sys.mk σ (progs.map (Client.task np2 w))).run sched).threads[t]? =
        some (after (sched.count t) σ (p.task np2 w)).2 ∧
      ∀ i, R t i → SameAt ((Sys.mk σ (progs.map (Client.task np2 w))).run sched).store
        (after (sched.count t) σ (p.task np2 w)).1 i) ∧
    (∀ i, (∀ t, t < progs.length → ¬ W t i) →
      SameAt ((Sys.mk σ (progs.map (Client.task np2 w))).run sched).store σ i) := by
  have hU' : ∀ (t : Nat) (p : Task K ρ), (progs.map (Client.task np2 w))[t]? = some p →
      p.Uses (R t) (fun i => W t i ∧ R t i) := by
    intro t p hp
    rw [List.getElem?_map] at hp
    obtain ⟨c, hc, rfl⟩ := Option.map_eq_some_iff.1 hp
    exact uses_client np2 w (hU t c hc).inter
  obtain ⟨-, h1, h2⟩ := run_inv (σ := σ) hU' (fun t t' i hne ht ht' hw => by
    rw [List.length_map] at ht ht'
    exact ⟨hD t t' i hne ht ht' hw.1, fun hc => hD t t' i hne ht ht' hw.1 hc.2⟩) sched
  refine ⟨fun t p hp => ?_, fun i hi => h2 i fun t ht hw => hi t (by simpa using ht) hw.1⟩
  obtain ⟨a, -, b⟩ := h1 t (p.task np2 w) (by rw [List.getElem?_map, hp]; rfl)
  exact ⟨a, fun i hi => b i (.inl hi)⟩

/-- C112: several threads, each running any program of method calls on shared quantities (`rescale`,
`+`, `-`, `*`, `/`, `//`, `%`, comparisons, `+=` and so on, `q.units = u`, `q[key] = y`).  If no thread
changes a quantity another thread mentions, then under every schedule a thread that has finished
returns what it returns when it is alone, the quantities it mentions are as it leaves them when it is
alone, and a quantity no thread changes is unchanged. -/
theorem C112_apart (np2 : Bool) (w : World K) (σ : Store K) (progs : List (Client K ρ))
    (R W : Nat → Nat → Prop)
    (hU : ∀ (t : Nat) (p : Client K ρ), progs[t]? = some p → p.Within (R t) (W t))
    (hD : ∀ t t' i, t ≠ t' → t < progs.length → t' < progs.length → W t i → ¬ R t' i)
    (sched : List Nat) :
    (∀ (t : Nat) (p : Client K ρ) (r : ρ), progs[t]? = some p →
      ((Sys.mk σ (progs.map (Client.task np2 w))).run sched).Result t r →
      ∃ τ, p.Runs np2 w σ τ r ∧ ∀ i, R t i →
        SameAt ((Sys.mk σ (progs.map (Client.task np2 w))).run sched).store τ i) ∧
    (∀ i, (∀ t, t < progs.length → ¬ W t i) →
      SameAt ((Sys.mk σ (progs.map (Client.task np2 w))).run sched).store σ i) := by
  obtain ⟨h1, h2⟩ := run_clients np2 w σ progs R W hU hD sched
  refine ⟨fun t p r hp hr => ?_, h2⟩
  obtain ⟨a, b⟩ := h1 t p hp
  have hrun := client_runs np2 w σ p
  have hret : (after (sched.count t) σ (p.task np2 w)).2 = .ret r := Option.some.inj (a.symm.trans hr)
  have hal := alone_after (sched.count t) σ (p.task np2 w)
  rw [hret] at hal
  rw [← hal] at hrun
  exact ⟨_, hrun, b⟩

/-- C112: and a thread that gets enough turns finishes, whatever the other threads do. -/
theorem C112_finishes (np2 : Bool) (w : World K) (σ : Store K) (progs : List (Client K ρ))
    (R W : Nat → Nat → Prop)
    (hU : ∀ (t : Nat) (p : Client K ρ), progs[t]? = some p → p.Within (R t) (W t))
    (hD : ∀ t t' i, t ≠ t' → t < progs.length → t' < progs.length → W t i → ¬ R t' i)
    (t : Nat) (ht : t < progs.length) :
    ∃ N r, ∀ sched : List Nat, N ≤ sched.count t →
      ((Sys.mk σ (progs.map (Client.task np2 w))).run sched).Result t r := by
  obtain ⟨N, hN⟩ := after_ends σ ((progs[t]).task np2 w)
  refine ⟨N, (((progs[t]).task np2 w).alone σ).2, fun sched hs => ?_⟩
  obtain ⟨h1, -⟩ := run_clients np2 w σ progs R W hU hD sched
  have := (h1 t progs[t] (List.getElem?_eq_getElem ht)).1
  rw [hN _ hs] at this
  exact this

/-! ### C113 -/

omit [DecidableEq K] in
/-- C113: a call that is stopped at any point (an interrupt, a fatal error in numpy's loop, a thread
that is looked at from outside) and that is not an in-place operation has changed nothing. -/
theorem C113_reads (np2 : Bool) (w : World K) (σ : Store K) (c : Call K) (hc : ∀ j, ¬ c.Changes j)
    (n : Nat) : (after n σ (c.task np2 w)).1 = σ :=
  Store.ext_at fun i => (uses_call np2 w c (R := fun _ => True) (W := fun _ => False)
    (fun _ _ => trivial) (fun j hj => hc j hj)).after n σ i id

omit [DecidableEq K] in
/-- C113: a program stopped at any point has changed no quantity other than those its in-place
operations work on. -/
theorem C113_others (np2 : Bool) (w : World K) (σ : Store K) (p : Client K ρ) (R W : Nat → Prop)
    (hp : p.Within R W) (n i : Nat) (hi : ¬ W i) : SameAt (after n σ (p.task np2 w)).1 σ i :=
  (uses_client np2 w hp).after n σ i hi

/-- C113: `x += y`, `x -= y` and `x %= y` (and every in-place operator under numpy 2) stopped at any
point have changed no units and no shape, and every element of `x` has its old value or the value it
has in the result. -/
theorem C113_inplace (np2 : Bool) (w : World K) (σ : Store K) (op : IOp) (i : Nat) (y : Ref K)
    (hop : np2 = true ∨ op = .add ∨ op = .sub ∨ op = .mod) (n : Nat) :
    let τ := (after n σ ((Call.inplace op i y).task np2 w)).1
    τ.shape = σ.shape ∧ τ.dim = σ.dim ∧ (∀ j, j ≠ i → SameAt τ σ j) ∧
      ∀ x, NDArr.InB (σ.shape i) x → (τ.mag i).elem x = (σ.mag i).elem x ∨
        ∃ res, binary w op (σ.quantity i) (y.value σ) = .ok res ∧
          (τ.mag i).elem x = res.mag.elem x := by
  intro τ
  have hsc : np2 = true ∨ scales op = true := hop.imp id (by rintro (rfl | rfl | rfl) <;> rfl)
  have h := always_inplace np2 σ w op i y hsc
  have h' : Always _ σ ((Call.inplace op i y).task np2 w) := h.bind (Always.ret h.alone)
  rcases h' n with e | ⟨res, h1, h2, h3, h4, h5⟩
  · have e' : τ = σ := e
    rw [e']
    exact ⟨rfl, rfl, fun j _ => .refl _ _, fun x _ => .inl rfl⟩
  · refine ⟨h2, h3, fun j hj => ⟨congrFun h2 j, h4 j hj, congrFun h3 j⟩, fun x hx => ?_⟩
    have hm := NDArr.mem_indices.2 hx
    have e1 : (τ.mag i).elem x = τ.elem i x := if_pos (by rw [show τ.shape i = σ.shape i from congrFun h2 i]; exact hm)
    have e2 : (σ.mag i).elem x = σ.elem i x := if_pos hm
    rw [e1, e2]
    exact (h5 x).imp id fun h => ⟨res, h1, h.2⟩

/-- C113: `x[key] = y` stopped at any point has changed no units and no shape, and every element of
`x` has its old value or a value that is assigned to it. -/
theorem C113_setitem (np2 : Bool) (w : World K) (σ : Store K) (i : Nat) (k : Key) (y : Ref K) (n : Nat) :
    let τ := (after n σ ((Call.setitem i k y).task np2 w)).1
    τ.shape = σ.shape ∧ τ.dim = σ.dim ∧ (∀ j, j ≠ i → SameAt τ σ j) ∧
      ∀ p, τ.elem i p = σ.elem i p ∨
        ∃ m t sel a x, assignedMag w (σ.dim i) (y.value σ) = .ok m ∧ k (σ.shape i) = .ok (t, sel) ∧
          Heap.castTo t m = .ok a ∧ NDArr.InB t x ∧ sel x = p ∧ τ.elem i p = a.elem x := by
  intro τ
  have h := always_setitem σ w i k y
  have h' : Always _ σ ((Call.setitem i k y).task np2 w) := h.bind (Always.ret h.alone)
  rcases h' n with e | ⟨m, t, sel, a, h1, h2, h3, h4, h5, h6, h7⟩
  · have e' : τ = σ := e
    rw [e']
    exact ⟨rfl, rfl, fun j _ => .refl _ _, fun x => .inl rfl⟩
  · refine ⟨h4, h5, fun j hj => ⟨congrFun h4 j, h6 j hj, congrFun h5 j⟩, fun p => ?_⟩
    exact (h7 p).imp id fun ⟨x, hx, hs, he⟩ =>
      ⟨m, t, sel, a, x, h1, h2, h3, NDArr.mem_indices.1 hx, hs, he⟩

/-- C115: `x.units = u` stopped at any point: either it is complete, or `x` still has its old units and
every element has its old value or the converted one. -/
theorem C115_units_partial (np2 : Bool) (w : World K) (σ : Store K) (i : Nat) (d : Dim) (n : Nat) :
    let τ := (after n σ ((Call.setUnits i d).task np2 w)).1
    τ.shape = σ.shape ∧ (∀ j, j ≠ i → SameAt τ σ j) ∧
      ((τ.dim i = σ.dim i ∧ ∀ x, NDArr.InB (σ.shape i) x → (τ.mag i).elem x = (σ.mag i).elem x ∨
          (τ.mag i).elem x = ((σ.quantity i).setUnits w d).2.mag.elem x) ∨
        (τ.dim i = d ∧ (τ.mag i).Same ((σ.quantity i).setUnits w d).2.mag)) := by
  intro τ
  have h := always_setUnits σ w i d
  have h' : Always _ σ ((Call.setUnits i d).task np2 w) := h.bind (Always.ret h.alone)
  have hset : w.deq (σ.dim i) d = false → ∀ cf, w.convFactor (σ.dim i) d = .ok cf →
      ((σ.quantity i).setUnits w d).2 = ⟨(σ.mag i).map (fun x => x * cf), d⟩ := by
    intro hd cf hcf
    unfold Quantity.setUnits
    rw [if_neg (show ¬ w.deq (σ.quantity i).dim d = true by
      rw [show (σ.quantity i).dim = σ.dim i from rfl, hd]; simp)]
    rw [show (σ.quantity i).dim = σ.dim i from rfl, hcf]
    rfl
  rcases hd : w.deq (σ.dim i) d with _ | _
  · rcases h' n with e | ⟨cf, hcf, ⟨h2, h3, h4, h5⟩ | e⟩
    · have e' : τ = σ := e
      rw [e']
      exact ⟨rfl, fun j _ => .refl _ _, .inl ⟨rfl, fun x _ => .inl rfl⟩⟩
    · refine ⟨h2, fun j hj => ⟨congrFun h2 j, h4 j hj, congrFun h3 j⟩, .inl ⟨congrFun h3 i, fun x hx => ?_⟩⟩
      have hm := NDArr.mem_indices.2 hx
      have e1 : (τ.mag i).elem x = τ.elem i x :=
        if_pos (by rw [show τ.shape i = σ.shape i from congrFun h2 i]; exact hm)
      have e2 : (σ.mag i).elem x = σ.elem i x := if_pos hm
      rw [hset hd cf hcf]
      simp only [NDArr.map]
      rw [e1, e2]
      exact (h5 x).imp id fun h => h.2
    · have e' : τ = _ := e
      rw [e', hset hd cf hcf]
      refine ⟨rfl, fun j hj => ⟨rfl, ?_, ?_⟩, .inr ⟨by simp [Store.setDim], rfl, fun x hx => ?_⟩⟩
      · simp [Store.setElems, Store.setDim, Function.update_of_ne hj]
      · simp [Store.setElems, Store.setDim, Function.update_of_ne hj]
      · have hx' : x ∈ NDArr.indices (σ.shape i) := NDArr.mem_indices.2 hx
        simp only [Store.mag, Store.setElems, Store.setDim, NDArr.map, hx', if_true,
          Function.update_self]
  · have hp : τ = σ := by
      have : Always (fun υ => υ = σ) σ ((Call.setUnits i d).task np2 w) := by
        have hs : Always (fun υ => υ = σ) σ (setUnits w i d) := by
          unfold setUnits
          refine Always.getDim rfl ?_
          rw [if_pos hd]
          exact Always.ret rfl
        exact hs.bind (Always.ret hs.alone)
      exact this n
    rw [hp]
    exact ⟨rfl, fun j _ => .refl _ _, .inl ⟨rfl, fun x _ => .inl rfl⟩⟩

end

/-! ### Concrete programs -/

/-- One shared quantity: `q = 1000 m`. -/
noncomputable def exStore : Store ℝ := ⟨fun _ => [], fun _ _ => 1000, fun _ => dM⟩

/-- `q.units = 'km'` -/
noncomputable def exSetter : Client ℝ (Py (Val ℝ)) := .call (.setUnits 0 dKm) .done

/-- `q.rescale('km')` -/
noncomputable def exReader : Client ℝ (Py (Val ℝ)) := .call (.rescale 0 dKm) .done

theorem bind_assoc' {α β γ : Type*} (p : Task ℝ α) (f : α → Task ℝ β) (g : β → Task ℝ γ) :
    (p.bind f).bind g = p.bind fun a => (f a).bind g := by
  induction p with
  | ret a => rfl
  | getDim i f ih => simp only [Task.bind, ih]
  | getShape i f ih => simp only [Task.bind, ih]
  | getElem i x f ih => simp only [Task.bind, ih]
  | setElem i x v t ih => simp only [Task.bind, ih]
  | setDim i d t ih => simp only [Task.bind, ih]

theorem after_add {α : Type*} (m n : Nat) (σ : Store ℝ) (p : Task ℝ α) :
    after (m + n) σ p = after n (after m σ p).1 (after m σ p).2 := by
  induction m generalizing σ p with
  | zero => rw [Nat.zero_add]; rfl
  | succ m ih =>
    rw [show m + 1 + n = (m + n) + 1 by omega]
    exact ih _ _

theorem run_two_left {α : Type*} (σ : Store ℝ) (p q : Task ℝ α) (n : Nat) (l : List Nat) :
    (Sys.mk σ [p, q]).run (List.replicate n 0 ++ l) =
      (Sys.mk (after n σ p).1 [(after n σ p).2, q]).run l := by
  induction n generalizing σ p with
  | zero => rfl
  | succ n ih => exact ih _ _

theorem run_two_right {α : Type*} (σ : Store ℝ) (p q : Task ℝ α) (n : Nat) (l : List Nat) :
    (Sys.mk σ [p, q]).run (List.replicate n 1 ++ l) =
      (Sys.mk (after n σ q).1 [p, (after n σ q).2]).run l := by
  induction n generalizing σ q with
  | zero => rfl
  | succ n ih => exact ih _ _

/-- `q.units = 'km'` after both loads of the units. -/
noncomputable def exConverting : Task ℝ (Py PUnit.{1}) := .getShape 0 fun s =>
  (forEach (NDArr.indices s) fun x => .getElem 0 x fun a =>
    .setElem 0 x (a * (1 / 1000)) (.ret (⟨⟩ : PUnit.{1}))).bind fun _ => .setDim 0 dKm (.ret (.ok ⟨⟩))

theorem exSetter_loads {α : Type*} (σ : Store ℝ) (hd : σ.dim 0 = dM) (g : Py PUnit.{1} → Task ℝ α) :
    after 2 σ ((setUnits exWorld 0 dKm).bind g) = (σ, exConverting.bind g) := by
  show after 1 σ (Task.bind (if exWorld.deq (σ.dim 0) dKm then _ else _) g) = _
  rw [hd, if_neg (by rw [ex_deq_m_km]; simp)]
  simp only [after, Task.step, Task.bind, hd, ex_convFactor_m_km]
  rfl

theorem exReader_loads {α : Type*} (σ : Store ℝ) (hd : σ.dim 0 = dM)
    (g : Py (Quantity ℝ) → Task ℝ α) :
    after 2 σ ((rescale exWorld 0 dKm).bind g) =
      (σ, ((readMag 0).bind fun m => .ret (.ok ⟨m.map (fun x => 1 / 1000 * x), dKm⟩)).bind g) := by
  show after 1 σ (Task.bind (if exWorld.deq (σ.dim 0) dKm then _ else _) g) = _
  rw [hd, if_neg (by rw [ex_deq_m_km]; simp)]
  simp only [after, Task.step, Task.bind, hd, ex_convFactor_m_km]

/-- `q`, multiplied but not relabelled. -/
noncomputable def exStore' : Store ℝ := exStore.setElem 0 [] (1000 * (1 / 1000))

theorem exSetter_multiplied {α : Type*} (g : Py PUnit.{1} → Task ℝ α) :
    after 5 exStore ((setUnits exWorld 0 dKm).bind g) =
      (exStore', (Task.setDim 0 dKm (.ret (.ok ⟨⟩))).bind g) := by
  rw [show (5 : Nat) = 2 + 3 from rfl, after_add, exSetter_loads exStore rfl g]
  rfl

/-- C115: `q.units = 'km'` on `q = 1000 m`, interrupted after the multiplication, leaves `q = 1 m`. -/
theorem C115_units_false (np2 : Bool) : ∃ n,
    (after n exStore ((Call.setUnits 0 dKm).task np2 exWorld)).1.dim 0 = dM ∧
    (after n exStore ((Call.setUnits 0 dKm).task np2 exWorld)).1.elem 0 [] = 1 := by
  refine ⟨5, ?_⟩
  rw [show (Call.setUnits 0 dKm : Call ℝ).task np2 exWorld =
    (setUnits exWorld 0 dKm).bind fun x => .ret (x.map fun _ => .none) from rfl, exSetter_multiplied]
  refine ⟨rfl, ?_⟩
  show (exStore.setElem 0 [] (1000 * (1 / 1000))).elem 0 [] = 1
  simp [Store.setElem]

/-- C115: before numpy 2, `q *= 2 s` on `q = 1000 m`, interrupted before the multiplication, leaves
`q = 1000 m*s`. -/
theorem C115_imul_false : ∃ n,
    (after n exStore ((Call.inplace .mul 0 (.own ⟨NDArr.scalar 2, dS⟩)).task false exWorld)).1.dim 0 =
      Dim.mul dM dS ∧
    (after n exStore ((Call.inplace .mul 0 (.own ⟨NDArr.scalar 2, dS⟩)).task false exWorld)).1.elem 0 [] =
      1000 := ⟨3, rfl, rfl⟩

/-- C114: a thread that reads `q` while another one stores new units does not get the old or the new
quantity: `q.rescale('km')` returns `0.001 km` for a `q` that is `1000 m` before and `1 km` afterwards. -/
theorem C114_torn_false (np2 : Bool) : ∃ sched q,
    ((Sys.mk exStore [exSetter.task np2 exWorld, exReader.task np2 exWorld]).run sched).Result 1
      (.ok (.quantity q)) ∧ q.dim = dKm ∧ q.mag.elem [] = 1 / 1000 := by
  refine ⟨List.replicate 5 0 ++ (List.replicate 4 1 ++ []), 
    ⟨NDArr.map (fun x => 1 / 1000 * x) ⟨[], Function.update (fun _ => 0) [] (exStore'.elem 0 [])⟩, dKm⟩, ?_, rfl, ?_⟩
  · rw [run_two_left]
    rw [show exSetter.task np2 exWorld = ((setUnits exWorld 0 dKm).bind
      fun x => .ret (x.map fun _ => .none)).bind fun v => .ret v from rfl, bind_assoc',
      exSetter_multiplied, run_two_right]
    rw [show exReader.task np2 exWorld = ((rescale exWorld 0 dKm).bind
      fun x => .ret (x.map .quantity)).bind fun v => .ret v from rfl, bind_assoc']
    rw [show (4 : Nat) = 2 + 2 from rfl, after_add, exReader_loads exStore' rfl]
    rfl
  · simp [exStore', Store.setElem, NDArr.map]

/-- C114: two threads that both store the new units: `q` is `1000 m` before and `0.001 km` afterwards. -/
theorem C114_setters_false (np2 : Bool) : ∃ sched r,
    let s := (Sys.mk exStore [exSetter.task np2 exWorld, exSetter.task np2 exWorld]).run sched
    s.Result 0 r ∧ s.Result 1 r ∧ s.store.dim 0 = dKm ∧ s.store.elem 0 [] = 1 / 1000 := by
  refine ⟨List.replicate 2 0 ++ (List.replicate 2 1 ++ (List.replicate 4 0 ++ (List.replicate 4 1 ++ []))),
    .ok .none, ?_⟩
  rw [show exSetter.task np2 exWorld = ((setUnits exWorld 0 dKm).bind
      fun x => .ret (x.map fun _ => .none)).bind fun v => .ret v from rfl, bind_assoc',
    run_two_left, exSetter_loads exStore rfl, run_two_right, exSetter_loads exStore rfl, run_two_left,
    run_two_right]
  refine ⟨rfl, rfl, rfl, ?_⟩
  show (((exStore.setElem 0 [] (1000 * (1 / 1000))).setDim 0 dKm).setElem 0 []
    ((exStore.setElem 0 [] (1000 * (1 / 1000))).elem 0 [] * (1 / 1000))).elem 0 [] = _
  simp [Store.setElem, Store.setDim]

/-- The hypotheses of C112: two threads that read the shared quantity 0, and each works in place on a
quantity of its own. -/
noncomputable def exProgs : List (Client ℝ (Py (Val ℝ))) :=
  [.call (.inplace .add 1 (.obj 0)) .done, .call (.setUnits 2 dKm) fun _ => .call (.rescale 0 dKm) .done]

example : ∀ (t : Nat) (p : Client ℝ (Py (Val ℝ))), exProgs[t]? = some p →
    p.Within (fun i => i = 0 ∨ i = t + 1) (fun i => i = t + 1) := by
  intro t p hp
  match t, hp with
  | 0, hp =>
    cases hp
    exact .call (fun j hj => hj.elim .inr .inl) (fun j hj => hj) fun v => .done v
  | 1, hp =>
    cases hp
    exact .call (fun j hj => .inr hj) (fun j hj => hj) fun v =>
      .call (fun j hj => .inl hj) (fun j hj => hj.elim) fun v => .done v
  | t + 2, hp => exact absurd hp (by simp [exProgs])

example : ∀ t t' i : Nat, t ≠ t' → t < exProgs.length → t' < exProgs.length → i = t + 1 →
    ¬ (i = 0 ∨ i = t' + 1) := by
  intro t t' i h _ _ hi
  omega

/-- The hypothesis of `C113_reads`: `q + 1 km`. -/
example : ∀ j, ¬ (Call.binop .add 0 (.own ⟨NDArr.scalar 1, dKm⟩) : Call ℝ).Changes j := fun _ h => h

/-- `q *= 2 s` under numpy 2 does store something. -/
example : ∃ n, (after n exStore ((Call.inplace .mul 0 (.own ⟨NDArr.scalar 2, dS⟩)).task true exWorld)).1.elem 0 [] =
    1000 * 2 := ⟨3, rfl⟩

end PQ.Shared
