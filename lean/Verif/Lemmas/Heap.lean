import Verif.Spec.Memory
import Verif.Lemmas.NDArr

/-! # Memory: primitive steps and their invariants -/

namespace PQ

variable {K : Type _}

open NDArr

/-! ## Row-major positions -/

theorem ravel_lt : ∀ {s i : List Nat}, InB s i → ravel s i < s.prod
  | [], _, h => by
      cases h; simp [ravel]
  | n :: s, _, .cons (a := j) (l₁ := r) hj h => by
      have := ravel_lt h
      simp only [ravel, List.prod_cons]
      calc j * s.prod + ravel s r < j * s.prod + s.prod := by omega
        _ = (j + 1) * s.prod := by ring
        _ ≤ n * s.prod := Nat.mul_le_mul_right _ hj

theorem ravel_inj : ∀ {s i j : List Nat}, InB s i → InB s j → ravel s i = ravel s j → i = j
  | [], _, _, hi, hj, _ => by cases hi; cases hj; rfl
  | n :: s, _, _, .cons (a := a) (l₁ := r) ha h, .cons (a := b) (l₁ := t) hb h', e => by
      have h1 := ravel_lt h
      have h2 := ravel_lt h'
      simp only [ravel] at e
      have hab : a = b := by
        rcases Nat.lt_trichotomy a b with hlt | heq | hgt
        · have : (a + 1) * s.prod ≤ b * s.prod := Nat.mul_le_mul_right _ hlt
          have : a * s.prod + s.prod ≤ b * s.prod := by linarith [this, Nat.add_mul a 1 s.prod]
          omega
        · exact heq
        · have : (b + 1) * s.prod ≤ a * s.prod := Nat.mul_le_mul_right _ hgt
          have : b * s.prod + s.prod ≤ a * s.prod := by linarith [this, Nat.add_mul b 1 s.prod]
          omega
      subst hab
      have : ravel s r = ravel s t := by omega
      rw [ravel_inj h h' this]

theorem indices_length (s : List Nat) : (indices s).length = s.prod := by
  have := toList_length (⟨s, fun _ => ()⟩ : NDArr Unit)
  simpa [toList, size] using this

theorem getElem?_flatMap_range {α : Type _} (f : Nat → List α) (m : Nat) :
    ∀ (n j r : Nat), (∀ k, (f k).length = m) → j < n → r < m →
      ((List.range n).flatMap f)[j * m + r]? = (f j)[r]? := by
  intro n
  induction n with
  | zero => intro j r _ hj; omega
  | succ n ih =>
    intro j r hf hj hr
    rw [List.range_succ, List.flatMap_append]
    have hl : ((List.range n).flatMap f).length = n * m := by
      simp [List.length_flatMap, hf]
    rcases Nat.lt_or_ge j n with hlt | hge
    · rw [List.getElem?_append_left]
      · exact ih j r hf hlt hr
      · rw [hl]
        have : (j + 1) * m ≤ n * m := Nat.mul_le_mul_right _ hlt
        have : j * m + m ≤ n * m := by linarith [Nat.add_mul j 1 m]
        omega
    · have : j = n := by omega
      subst this
      rw [List.getElem?_append_right (by rw [hl]; omega), hl]
      simp

theorem indices_ravel : ∀ {s i : List Nat}, InB s i → (indices s)[ravel s i]? = some i
  | [], _, h => by cases h; rfl
  | n :: s, _, .cons (a := j) (l₁ := r) hj h => by
      simp only [indices, ravel]
      rw [getElem?_flatMap_range (fun j => (indices s).map (fun r => j :: r)) s.prod n j (ravel s r)
        (by intro k; simp [indices_length]) hj (ravel_lt h)]
      simp [indices_ravel h]

theorem indices_nodup (s : List Nat) : (indices s).Nodup := by
  induction s with
  | nil => simp [indices]
  | cons n s ih =>
    simp only [indices]
    rw [List.nodup_flatMap]
    refine ⟨fun j _ => ih.map (fun a b h => by simpa using h), ?_⟩
    refine List.Pairwise.imp ?_ (List.nodup_range (n := n))
    intro a b hab
    simp only [Function.onFun]
    intro x hx hy
    simp only [List.mem_map] at hx hy
    obtain ⟨_, _, rfl⟩ := hx
    obtain ⟨_, _, h⟩ := hy
    simp at h
    exact hab h.1.symm

/-! ## Writing cells -/

theorem foldl_update_of_notMem {β : Type _} (addr : β → Nat) (val : β → K) :
    ∀ (l : List β) (mem : Nat → K) (a : Nat), (∀ i ∈ l, addr i ≠ a) →
      (l.foldl (fun mem i => Function.update mem (addr i) (val i)) mem) a = mem a
  | [], _, _, _ => rfl
  | i :: l, mem, a, h => by
      rw [List.foldl_cons, foldl_update_of_notMem addr val l _ a (fun j hj => h j (by simp [hj]))]
      exact Function.update_of_ne (Ne.symm (h i (by simp))) _ _

theorem foldl_update_of_mem {β : Type _} (addr : β → Nat) (val : β → K) :
    ∀ (l : List β) (mem : Nat → K) (i : β), l.Nodup → (∀ i ∈ l, ∀ j ∈ l, addr i = addr j → i = j) →
      i ∈ l → (l.foldl (fun mem i => Function.update mem (addr i) (val i)) mem) (addr i) = val i
  | j :: l, mem, i, hnd, hinj, hi => by
      rw [List.foldl_cons]
      rcases List.mem_cons.1 hi with rfl | hi'
      · rw [foldl_update_of_notMem]
        · simp
        · intro k hk e
          have := hinj k (by simp [hk]) i (by simp) e
          subst this
          exact (List.nodup_cons.1 hnd).1 hk
      · exact foldl_update_of_mem addr val l _ i (List.nodup_cons.1 hnd).2
          (fun a ha b hb => hinj a (by simp [ha]) b (by simp [hb])) hi'

namespace Heap

/-- Object `o` sits in the heap well: its cells are allocated and no cell is shown twice. -/
structure ObjOK (h : Heap K) (o : Obj) : Prop where
  bound : ∀ i, InB o.shape i → o.addr i < h.next
  inj : ∀ i j, InB o.shape i → InB o.shape j → o.addr i = o.addr j → i = j

theorem store_mem_of_not_cell (h : Heap K) (o : Obj) (m : NDArr K) (a : Nat) (ha : ¬ o.Cell a) :
    (h.store o m).mem a = h.mem a := by
  unfold store
  apply foldl_update_of_notMem
  intro i hi e
  exact ha ⟨i, mem_indices.1 hi, e⟩

theorem store_mem_cell (h : Heap K) (o : Obj) (m : NDArr K)
    (hinj : ∀ i j, InB o.shape i → InB o.shape j → o.addr i = o.addr j → i = j) (i : List Nat)
    (hi : InB o.shape i) : (h.store o m).mem (o.addr i) = m.elem i := by
  unfold store
  exact foldl_update_of_mem o.addr m.elem (indices o.shape) h.mem i (indices_nodup _)
    (fun a ha b hb => hinj a b (mem_indices.1 ha) (mem_indices.1 hb)) (mem_indices.2 hi)

theorem storeSel_mem_of_not (h : Heap K) (o : Obj) (s : List Nat) (sel : List Nat → List Nat)
    (m : NDArr K) (a : Nat) (ha : ∀ i, InB s i → o.addr (sel i) ≠ a) :
    (h.storeSel o s sel m).mem a = h.mem a := by
  unfold storeSel
  apply foldl_update_of_notMem (fun i => o.addr (sel i))
  intro i hi e
  exact ha i (mem_indices.1 hi) e

theorem storeSel_mem (h : Heap K) (o : Obj) (s : List Nat) (sel : List Nat → List Nat)
    (m : NDArr K) (hinj : ∀ i j, InB s i → InB s j → o.addr (sel i) = o.addr (sel j) → i = j)
    (i : List Nat) (hi : InB s i) :
    (h.storeSel o s sel m).mem (o.addr (sel i)) = m.elem i := by
  unfold storeSel
  exact foldl_update_of_mem (fun i => o.addr (sel i)) m.elem (indices s) h.mem i (indices_nodup _)
    (fun a ha b hb => hinj a b (mem_indices.1 ha) (mem_indices.1 hb)) (mem_indices.2 hi)

/-! ## Primitive steps -/

/-- The steps every command is made of; the label is the object worked on. -/
inductive Prim [One K] (h : Heap K) : Option Nat → Heap K → Prop
  | alloc (a : NDArr K) (kind : AKind) (wr : Bool)
      (hu : ∀ u, kind = .unit u → wr = false ∧ a.shape = [] ∧ a.elem [] = 1) :
      Prim h none (h.alloc a kind wr).2
  | view (i : Nat) (o : Obj) (kind : AKind) (s : List Nat) (sel : List Nat → List Nat)
      (ho : h.objs[i]? = some o) (hk : ∀ u, kind ≠ .unit u)
      (hs : ∀ j, InB s j → InB o.shape (sel j))
      (hinj : ∀ j k, InB s j → InB s k → sel j = sel k → j = k) :
      Prim h (some i) (h.pushView i o kind s sel).2
  | write (i : Nat) (o : Obj) (mem : Nat → K) (ho : h.objs[i]? = some o) (hw : o.writeable = true)
      (hm : ∀ a, ¬ o.Cell a → mem a = h.mem a) : Prim h (some i) ⟨mem, h.next, h.objs⟩
  | setDim (i : Nat) (o : Obj) (d d' : Dim) (ho : h.objs[i]? = some o) (hk : o.kind = .quantity d) :
      Prim h (some i) (h.setDim i o d')

/-- Any number of primitive steps on objects satisfying `H`. -/
inductive Prims [One K] (H : Nat → Prop) : Heap K → Heap K → Prop
  | refl (h : Heap K) : Prims H h h
  | step {h h' h'' : Heap K} (l : Option Nat) : Prims H h h' → Prim h' l h'' →
      (∀ i, l = some i → H i) → Prims H h h''

variable [One K]

theorem Prims.single {H : Nat → Prop} {h h' : Heap K} (l : Option Nat) (p : Prim h l h')
    (hl : ∀ i, l = some i → H i) : Prims H h h' := .step l (.refl h) p hl

theorem Prims.trans {H : Nat → Prop} {h h' h'' : Heap K} (p : Prims H h h') (q : Prims H h' h'') :
    Prims H h h'' := by
  induction q with
  | refl => exact p
  | step l _ s hl ih => exact .step l ih s hl

theorem Prims.mono {H H' : Nat → Prop} {h h' : Heap K} (hh : ∀ i, H i → H' i) (p : Prims H h h') :
    Prims H' h h' := by
  induction p with
  | refl => exact .refl _
  | step l _ s hl ih => exact .step l ih s (fun i hi => hh i (hl i hi))

/-! ## What primitive steps keep -/

/-- The parts of an object that never change. -/
structure Stable (o o' : Obj) : Prop where
  shape : o'.shape = o.shape
  addr : o'.addr = o.addr
  owns : o'.owns = o.owns
  base : o'.base = o.base
  writeable : o'.writeable = o.writeable
  kind : o'.kind = o.kind ∨ ∃ d d', o.kind = .quantity d ∧ o'.kind = .quantity d'

theorem Stable.rfl' (o : Obj) : Stable o o := ⟨rfl, rfl, rfl, rfl, rfl, .inl rfl⟩

theorem Stable.trans {a b c : Obj} (h : Stable a b) (k : Stable b c) : Stable a c := by
  refine ⟨k.shape.trans h.shape, k.addr.trans h.addr, k.owns.trans h.owns, k.base.trans h.base,
    k.writeable.trans h.writeable, ?_⟩
  rcases h.kind with e | ⟨d, d', e, e'⟩
  · rcases k.kind with f | ⟨d, d', f, f'⟩
    · exact .inl (f.trans e)
    · exact .inr ⟨d, d', e ▸ f, f'⟩
  · rcases k.kind with f | ⟨d2, d2', f, f'⟩
    · exact .inr ⟨d, d', e, f.trans e'⟩
    · exact .inr ⟨d, d2', e, f'⟩

theorem Stable.isQuantity {a b : Obj} (h : Stable a b) : b.kind.isQuantity = a.kind.isQuantity := by
  rcases h.kind with e | ⟨d, d', e, e'⟩
  · rw [e]
  · rw [e, e']; rfl

theorem Stable.cell {a b : Obj} (h : Stable a b) (x : Nat) : b.Cell x ↔ a.Cell x := by
  unfold Obj.Cell; rw [h.shape, h.addr]

omit [One K] in
theorem push_get_old (h : Heap K) (o : Obj) (i : Nat) (p : Obj) (hp : h.objs[i]? = some p) :
    (h.push o).2.objs[i]? = some p := by
  have hi : i < h.objs.length := (List.getElem?_eq_some_iff.1 hp).1
  simp only [push]
  rw [List.getElem?_append_left hi]; exact hp

omit [One K] in
theorem push_get_cases (h : Heap K) (o : Obj) (i : Nat) (p : Obj)
    (hp : (h.push o).2.objs[i]? = some p) :
    h.objs[i]? = some p ∨ (i = h.objs.length ∧ p = o) := by
  simp only [push] at hp
  rcases Nat.lt_or_ge i h.objs.length with hi | hi
  · rw [List.getElem?_append_left hi] at hp; exact .inl hp
  · rw [List.getElem?_append_right hi] at hp
    right
    have : i - h.objs.length = 0 := by
      by_contra hne
      have : ¬ (i - h.objs.length) < [o].length := by simp; omega
      rw [List.getElem?_eq_none (by omega)] at hp
      exact absurd hp (by simp)
    rw [this] at hp
    simp at hp
    exact ⟨by omega, hp.symm⟩

omit [One K] in
theorem push_get_new (h : Heap K) (o : Obj) : (h.push o).2.objs[(h.push o).1]? = some o := by
  simp [push]

end Heap
end PQ
