import Verif.Props.Elements
import Verif.Props.Conversion

/-!
# Property C97: building quantities
-/

namespace PQ

open NDArr

section arrays
variable {K : Type _} [Zero K]

theorem asArrays_forall : ∀ (l : List (Nested (Operand K))) (as : List (NDArr K)),
    asArrays l = .ok as ↔ List.Forall₂ (fun n a => asArray n = .ok a) l as
  | [], as => by
      rw [asArrays]
      constructor
      · intro h; cases h; exact .nil
      · intro h; cases h; rfl
  | x :: xs, as => by
      rw [asArrays]
      constructor
      · intro h
        split at h
        · cases h
        · rename_i a ha
          split at h
          · cases h
          · rename_i as' has
            cases h
            exact .cons ha ((asArrays_forall xs as').1 has)
      · intro h
        cases h with
        | cons h1 h2 => rw [h1, (asArrays_forall xs _).2 h2]

theorem stack_ok {l : List (NDArr K)} {a : NDArr K} (h : stack l = .ok a) :
    (l = [] ∧ a.shape = [0]) ∨ ∃ s, l ≠ [] ∧ (∀ b ∈ l, b.shape = s) ∧ a.shape = l.length :: s ∧
      ∀ k r b, l[k]? = some b → a.elem (k :: r) = b.elem r := by
  unfold stack at h
  split at h
  · cases h; exact .inl ⟨rfl, rfl⟩
  · rename_i b t
    split at h
    · rename_i hs
      cases h
      refine .inr ⟨b.shape, by simp, fun c hc => ?_, rfl, fun k r c hc => ?_⟩
      · simpa using List.all_eq_true.1 hs c hc
      · simp only [hc]
    · cases h

theorem stack_returns {l : List (NDArr K)} {s : List Nat} (h : ∀ b ∈ l, b.shape = s) : ∃ a, stack l = .ok a := by
  unfold stack
  split
  · exact ⟨_, rfl⟩
  · rename_i b t
    rw [if_pos]
    · exact ⟨_, rfl⟩
    · rw [List.all_eq_true]
      intro c hc
      simp [h c hc, h b (by simp)]

theorem inB_cons {n : Nat} {s i : List Nat} (h : InB (n :: s) i) : ∃ k r, i = k :: r ∧ k < n ∧ InB s r := by
  cases h with
  | cons h1 h2 => exact ⟨_, _, rfl, h1, h2⟩

/-- What `np.asarray` of nested lists is. -/
theorem asArray_spec (n : Nested (Operand K)) (a : NDArr K) (h : asArray n = .ok a) :
    n.HasShape a.shape ∧ (∀ i, InB a.shape i → ∃ x, n.ElemAt i x (a.elem i)) ∧
      ∀ i x c, n.ElemAt i x c → InB a.shape i ∧ a.elem i = c := by
  cases n with
  | leaf x =>
    rw [asArray] at h
    cases h
    refine ⟨.leaf x, fun i hi => ⟨x, [], i, rfl, by rw [Nested.get], hi, rfl⟩, ?_⟩
    rintro i y c ⟨p, j, rfl, hp, hj, rfl⟩
    cases p with
    | nil => rw [Nested.get] at hp; cases hp; exact ⟨hj, rfl⟩
    | cons k p => rw [Nested.get] at hp; cases hp
  | list l =>
    rw [asArray] at h
    split at h
    · cases h
    · rename_i as has
      have hf := (asArrays_forall l as).1 has
      have hlen := hf.length_eq
      have hget : ∀ (k : Nat) (m : Nested (Operand K)), l[k]? = some m → ∃ b, as[k]? = some b ∧ asArray m = .ok b := by
        intro k m hm
        obtain ⟨hk, rfl⟩ := List.getElem?_eq_some_iff.1 hm
        exact ⟨as[k], by rw [List.getElem?_eq_getElem], hf.get hk (by omega)⟩
      have ih : ∀ m ∈ l, ∀ b, asArray m = .ok b → m.HasShape b.shape ∧
          (∀ i, InB b.shape i → ∃ x, m.ElemAt i x (b.elem i)) ∧
          ∀ i x c, m.ElemAt i x c → InB b.shape i ∧ b.elem i = c :=
        fun m _ b hb => asArray_spec m b hb
      have hdown : ∀ k p (x : Operand K), (Nested.list l).get (k :: p) = some (.leaf x) →
          ∃ m, l[k]? = some m ∧ m.get p = some (.leaf x) := by
        intro k p x hx
        rw [Nested.get] at hx
        split at hx
        · cases hx
        · exact ⟨_, ‹_›, hx⟩
      rcases stack_ok h with ⟨rfl, ha⟩ | ⟨s, hne, hs, ha, he⟩
      · have hl : l = [] := List.length_eq_zero_iff.1 (by simpa using hlen)
        subst hl
        refine ⟨ha ▸ .empty, fun i hi => ?_, ?_⟩
        · rw [ha] at hi
          obtain ⟨k, r, -, hk, -⟩ := inB_cons hi
          omega
        · rintro i y c ⟨p, j, rfl, hp, hj, rfl⟩
          cases p with
          | nil => rw [Nested.get] at hp; cases hp
          | cons k p =>
            obtain ⟨m, hm, -⟩ := hdown k p y hp
            simp at hm
      · refine ⟨?_, fun i hi => ?_, ?_⟩
        · rw [ha, ← hlen]
          refine .list l s (fun hl => hne (List.length_eq_zero_iff.1 (by rw [← hlen, hl]; rfl))) (fun m hm => ?_)
          obtain ⟨k, hk, rfl⟩ := List.mem_iff_getElem.1 hm
          obtain ⟨b, hb, hmb⟩ := hget k l[k] (by simp)
          rw [← hs b (List.mem_of_getElem? hb)]
          exact (ih _ hm b hmb).1
        · rw [ha] at hi
          obtain ⟨k, r, rfl, hk, hr⟩ := inB_cons hi
          have hk' : k < l.length := by omega
          obtain ⟨b, hb, hmb⟩ := hget k l[k] (by simp)
          have hbs := hs b (List.mem_of_getElem? hb)
          obtain ⟨x, p, j, hp, hx, hj, hxe⟩ := (ih _ (List.getElem_mem hk') b hmb).2.1 r (by rw [hbs]; exact hr)
          refine ⟨x, k :: p, j, by rw [hp]; rfl, ?_, hj, ?_⟩
          · rw [Nested.get]
            simp only [List.getElem?_eq_getElem hk', hx]
          · rw [hxe, he k r b hb]
        · rintro i y c ⟨p, j, rfl, hp, hj, rfl⟩
          cases p with
          | nil => rw [Nested.get] at hp; cases hp
          | cons k p =>
            obtain ⟨m, hm, hmx⟩ := hdown k p y hp
            obtain ⟨b, hb, hmb⟩ := hget k m hm
            have hk := (List.getElem?_eq_some_iff.1 hb).1
            obtain ⟨h1, h2⟩ := (ih m (List.mem_of_getElem? hm) b hmb).2.2 (p ++ j) y _ ⟨p, j, rfl, hmx, hj, rfl⟩
            rw [ha, List.cons_append]
            refine ⟨.cons hk ?_, ?_⟩
            · rw [← hs b (List.mem_of_getElem? hb)]; exact h1
            · rw [he k _ b hb]; exact h2
termination_by sizeOf n
decreasing_by
  have := List.sizeOf_lt_of_mem ‹_ ∈ l›
  subst_vars
  simp only [Nested.list.sizeOf_spec]
  omega

/-- Regular nested lists are exactly those `np.asarray` accepts; otherwise it raises `ValueError`. -/
theorem asArray_returns (n : Nested (Operand K)) (s : List Nat) (h : n.HasShape s) :
    ∃ a, asArray n = .ok a ∧ a.shape = s := by
  induction h with
  | leaf x => exact ⟨x.arr, by rw [asArray], rfl⟩
  | empty => exact ⟨⟨[0], fun _ => 0⟩, by rw [asArray, asArrays]; rfl, rfl⟩
  | list l s hne hl ih =>
    have : ∃ as, asArrays l = .ok as ∧ as.length = l.length ∧ ∀ b ∈ as, b.shape = s := by
      clear hne hl
      induction l with
      | nil => exact ⟨[], by rw [asArrays], rfl, by simp⟩
      | cons m l ihl =>
        obtain ⟨a, ha, has⟩ := ih m (by simp)
        obtain ⟨as, h1, h2, h3⟩ := ihl (fun m hm => ih m (by simp [hm]))
        refine ⟨a :: as, by rw [asArrays, ha, h1], by simp [h2], ?_⟩
        intro b hb
        rcases List.mem_cons.1 hb with rfl | hb
        · exact has
        · exact h3 b hb
    obtain ⟨as, h1, h2, h3⟩ := this
    obtain ⟨a, ha⟩ := stack_returns h3
    refine ⟨a, by rw [asArray, h1]; exact ha, ?_⟩
    rcases stack_ok ha with ⟨rfl, -⟩ | ⟨s', hne', hs', hsh, -⟩
    · exact absurd (List.length_eq_zero_iff.1 (by rw [← h2]; rfl)) hne
    · rw [hsh, h2]
      obtain ⟨b, hb⟩ := List.exists_mem_of_ne_nil _ hne'
      rw [← h3 b hb, hs' b hb]

theorem asArray_error (n : Nested (Operand K)) (e : PyErr) (h : asArray n = .error e) : e = .valueError := by
  cases n with
  | leaf x => rw [asArray] at h; cases h
  | list l =>
    rw [asArray] at h
    have ih : ∀ m ∈ l, ∀ e, asArray m = .error e → e = .valueError := fun m _ e he => asArray_error m e he
    split at h
    · rename_i e' he
      cases h
      have : ∀ l' : List (Nested (Operand K)), (∀ m ∈ l', m ∈ l) → ∀ e, asArrays l' = .error e → e = .valueError := by
        intro l'
        induction l' with
        | nil => intro _ e he; rw [asArrays] at he; cases he
        | cons m t iht =>
          intro hm e he
          rw [asArrays] at he
          split at he
          · rename_i e'' he'
            cases he
            exact ih m (hm m (by simp)) _ he'
          · split at he
            · rename_i e'' he'
              cases he
              exact iht (fun m' h' => hm m' (by simp [h'])) _ he'
            · cases he
      exact this l (fun _ h => h) _ he
    · unfold stack at h
      split at h
      · cases h
      · split at h
        · cases h
        · cases h; rfl
termination_by sizeOf n
decreasing_by
  have := List.sizeOf_lt_of_mem ‹_ ∈ l›
  subst_vars
  simp only [Nested.list.sizeOf_spec]
  omega

end arrays

/-! ## Arrays and nested lists -/

section lists
variable {K : Type _} [Zero K] [One K] [Mul K] [Div K] [Neg K] [RPow K] [RatCast K] [DecidableEq K]
variable {P : List Char → Py PyAST} {F : PyOps K} {w : World K}

private theorem new_list {n : Nested (Operand K)} (hn : ∀ q, n ≠ .leaf (.quantity q)) (u : UnitsArg K) :
    Quantity.new P F w (.nested n) u =
      match asArray n with
      | .error e => .error e
      | .ok a =>
        match validateDimensionality P F w u with
        | .error e => .error e
        | .ok d => .ok ⟨a, d⟩ := by
  unfold Quantity.new
  split
  · rename_i h; cases h
  · rename_i q h; cases h; exact absurd rfl (hn q)
  · rename_i h; cases h; rfl

/-- C97: `Quantity(data, units)` for numbers, arrays and nested lists: the units are those asked for, the shape is
that of the nested lists, and the element at an index is the number found at that index. -/
theorem C97_data (n : Nested (Operand K)) (hn : ∀ q, n ≠ .leaf (.quantity q)) (u : UnitsArg K) (r : Quantity K)
    (h : Quantity.new P F w (.nested n) u = .ok r) :
    validateDimensionality P F w u = .ok r.dim ∧ n.HasShape r.mag.shape ∧
    (∀ i, InB r.mag.shape i → ∃ x, n.ElemAt i x (r.mag.elem i)) ∧
    (∀ i x c, n.ElemAt i x c → InB r.mag.shape i ∧ r.mag.elem i = c) := by
  rw [new_list hn] at h
  split at h
  · cases h
  · rename_i a ha
    split at h
    · cases h
    · rename_i d hd
      cases h
      exact ⟨hd, asArray_spec n a ha⟩

/-- C97: it succeeds exactly when the lists are regular and the units are valid; lists that are not regular are a
`ValueError`. -/
theorem C97_data_returns_iff (n : Nested (Operand K)) (hn : ∀ q, n ≠ .leaf (.quantity q)) (u : UnitsArg K) :
    (Returns (Quantity.new P F w (.nested n) u) ↔
      (∃ s, n.HasShape s) ∧ Returns (validateDimensionality P F w u)) ∧
    ((¬ ∃ s, n.HasShape s) → Quantity.new P F w (.nested n) u = .error .valueError) := by
  rw [new_list hn]
  rcases ha : asArray n with e | a
  · have hno : ¬ ∃ s, n.HasShape s := by
      rintro ⟨s, hs⟩
      obtain ⟨a, h1, -⟩ := asArray_returns n s hs
      rw [ha] at h1; cases h1
    refine ⟨⟨fun h => absurd h (not_returns_error _), fun h => absurd h.1 hno⟩, fun _ => ?_⟩
    rw [asArray_error n e ha]
  · have hyes : ∃ s, n.HasShape s := ⟨_, (asArray_spec n a ha).1⟩
    refine ⟨?_, fun h => absurd hyes h⟩
    simp only
    rcases validateDimensionality P F w u with e | d
    · exact ⟨fun h => absurd h (not_returns_error _), fun h => absurd h.2 (not_returns_error _)⟩
    · exact ⟨fun _ => ⟨hyes, returns_ok _⟩, fun _ => returns_ok _⟩

private theorem new_no_units {q : Quantity K} {u : UnitsArg K} (hu : u = .str [] ∨ u = .dim []) :
    q.newFromQuantity P F w u = .ok q := by
  have ht : u.truth = .ok false := by rcases hu with rfl | rfl <;> rfl
  unfold Quantity.newFromQuantity
  simp only [ht]

/-- C97: without units asked for (an empty string or dimensionality), a quantity is taken as it is. -/
theorem C97_no_units (q : Quantity K) (u : UnitsArg K) (hu : u = .str [] ∨ u = .dim []) :
    Quantity.new P F w (.nested (.leaf (.quantity q))) u = .ok q := by
  unfold Quantity.new
  exact new_no_units hu

/-- C97: a quantity cannot be expressed in units given as an array with no or several elements: `ValueError`. -/
theorem C97_array_units (q p : Quantity K) (hp : p.mag.toList.length ≠ 1) :
    Quantity.new P F w (.nested (.leaf (.quantity q))) (.quantity p) = .error .valueError ∧
    ∀ k, Quantity.new P F w (.unit k) (.quantity p) = .error .valueError := by
  have ht : (UnitsArg.quantity p).truth = .error .valueError := by
    unfold UnitsArg.truth
    simp only
    split
    · rename_i x hx; rw [hx] at hp; exact absurd rfl hp
    · rfl
  have hn : ∀ q' : Quantity K, q'.newFromQuantity P F w (.quantity p) = .error .valueError := by
    intro q'
    unfold Quantity.newFromQuantity
    simp only [ht]
  exact ⟨hn q, fun k => hn _⟩

example : (⟨⟨[2], fun _ => (1 : ℚ)⟩, []⟩ : Quantity ℚ).mag.toList.length ≠ 1 := by decide

end lists

/-! ## Quantities and units -/

section values
variable {K : Type _} [Field K] [LinearOrder K] [IsStrictOrderedRing K] [RPow K] [LawfulRPow K]
variable {P : List Char → Py PyAST} {F : PyOps K} {h : Hasher} {w : World K}

/-- Units are asked for: not an empty string or dimensionality. -/
private theorem new_quantity {q : Quantity K} {u : UnitsArg K} {d : Dim}
    (hu : u.truth = .ok true) (hd : validateDimensionality P F w u = .ok d) :
    q.newFromQuantity P F w u = q.rescale w d := by
  unfold Quantity.newFromQuantity Quantity.rescaleTo
  simp only [hu, hd]

/-- C97: `Quantity(q, units)` for a quantity `q` and units that are asked for: the same physical values expressed in
those units if they are compatible with `q`'s, otherwise `ValueError`. -/
theorem C97_quantity (hw : Reachable h w) (q : Quantity K) (u : UnitsArg K) (d : Dim)
    (hu : u.truth = .ok true) (hd : validateDimensionality P F w u = .ok d)
    (hq : DimOK w q.dim) (hdo : DimOK w d) (hs : HashSafe w q.dim d) :
    (Compatible w q.dim d → ∃ r, Quantity.new P F w (.nested (.leaf (.quantity q))) u = .ok r ∧
      SameContent r.dim d ∧ r.mag.shape = q.mag.shape ∧ ∀ v : Valuation w, v.phys r = v.phys q) ∧
    (¬ Compatible w q.dim d →
      Quantity.new P F w (.nested (.leaf (.quantity q))) u = .error .valueError) := by
  have e : Quantity.new P F w (.nested (.leaf (.quantity q))) u = q.rescale w d := new_quantity hu hd
  rw [e]
  refine ⟨fun hc => ?_, (rescale_eq_error_iff hw.wf hq hdo hs).2⟩
  obtain ⟨r, hr⟩ := (rescale_returns hw.wf hq hdo hs).2 hc
  obtain ⟨h1, h2, h3⟩ := C09_rescale_preserves_value hw q r d hq hdo hs hr
  exact ⟨r, hr, h3, h2, h1⟩

/-- C97: `Quantity(unit)` is 1 in that unit; `Quantity(unit, units)` is the size of the unit in those units. -/
theorem C97_unit (hw : Reachable h w) (k : UKey) (u : UnitsArg K) (d : Dim)
    (hu : u.truth = .ok true) (hd : validateDimensionality P F w u = .ok d)
    (hk : DimOK w (unitDim k)) (hdo : DimOK w d) (hs : HashSafe w (unitDim k) d) :
    Quantity.new P F w (.unit k) (.str []) = .ok ⟨NDArr.scalar 1, unitDim k⟩ ∧
    (Compatible w (unitDim k) d → ∃ c, Returns (Quantity.new P F w (.unit k) u) ∧
      (∀ r, Quantity.new P F w (.unit k) u = .ok r → SameContent r.dim d ∧ r.mag.shape = [] ∧ r.mag.elem [] = c) ∧
      ∀ v : Valuation w, v.val k = c * v.size d) ∧
    (¬ Compatible w (unitDim k) d → Quantity.new P F w (.unit k) u = .error .valueError) := by
  have e : Quantity.new P F w (.unit k) u = (Quantity.ofUnit k).rescale w d := new_quantity hu hd
  have hs' : HashSafe w (Quantity.ofUnit (K := K) k).dim d := hs
  refine ⟨new_no_units (P := P) (F := F) (w := w) (.inl rfl), fun hc => ?_, fun hc => ?_⟩
  · rw [e]
    obtain ⟨r, hr⟩ := (rescale_returns (q := Quantity.ofUnit k) hw.wf hk hdo hs').2 hc
    obtain ⟨h1, h2, -, -, cf, -, h5, h6⟩ := rescale_ok (q := Quantity.ofUnit k) hw.wf hk hdo hs' hr
    rw [hr]
    refine ⟨cf * 1, returns_ok _, fun r' hr' => ?_, fun v => ?_⟩
    · cases hr'
      exact ⟨h2, h1, by rw [h5]; rfl⟩
    · rw [mul_one, ← h6 v]
      show v.val k = dsize v.val (unitDim k)
      unfold unitDim dsize
      split
      · rename_i hc; simp [v.dimless k hc]
      · simp [LawfulRPow.rpow_one]
  · rw [e]
    exact (rescale_eq_error_iff (q := Quantity.ofUnit k) hw.wf hk hdo hs').2 hc

/-- C97 (partial): lists of quantities keep their physical values if all these quantities are in the units asked
for already.  Otherwise their units are dropped: `C97_list_false`. -/
theorem C97_list_partial (n : Nested (Operand K)) (hn : ∀ q, n ≠ .leaf (.quantity q))
    (u : UnitsArg K) (r : Quantity K) (hr : Quantity.new P F w (.nested n) u = .ok r) (hrd : DimOK w r.dim)
    (hx : ∀ i x c, n.ElemAt i x c → ∃ q, x = .quantity q ∧ DimOK w q.dim ∧ SameContent q.dim r.dim)
    (v : Valuation w) (i : List Nat) (q : Quantity K) (c : K) (hi : n.ElemAt i (.quantity q) c) :
    (v.phys r).elem i = c * v.size q.dim := by
  obtain ⟨-, -, -, h4⟩ := C97_data n hn u r hr
  obtain ⟨q', hq', h1, h2⟩ := hx i _ c hi
  cases hq'
  show r.mag.elem i * v.size r.dim = _
  rw [(h4 i _ c hi).2]
  congr 1
  exact (dsize_same v.val h1.canon.nodup hrd.canon.nodup h2).symm

end values

/-! ## `tolist` and back -/

section back
variable {K : Type _}

theorem asDataList_map : ∀ l : List (Nested (Quantity K)), Nested.asDataList l = l.map Nested.asData
  | [] => by rw [Nested.asDataList]; rfl
  | n :: l => by rw [Nested.asDataList, asDataList_map l]; rfl

theorem asData_nest (d : Dim) (n : Nat) (s : List Nat) (f : List Nat → K) :
    (Quantity.tolistEntry d (nest (n :: s) f)).asData =
      .list ((List.range n).map (fun i => (Quantity.tolistEntry d (nest s (fun r => f (i :: r)))).asData)) := by
  rw [nest, Quantity.tolistEntry, Nested.asData, asDataList_map, tolistAux_map, List.map_map, List.map_map]
  rfl

theorem asData_hasShape (d : Dim) : ∀ (s : List Nat) (f : List Nat → K), 0 ∉ s.dropLast →
    (Quantity.tolistEntry d (nest s f)).asData.HasShape s
  | [], f, _ => by
      rw [nest, Quantity.tolistEntry, Nested.asData]
      exact .leaf _
  | n :: s, f, hs => by
      rw [asData_nest]
      rcases Nat.eq_zero_or_pos n with rfl | hn
      · cases s with
        | nil => exact .empty
        | cons m s => simp [List.dropLast] at hs
      · have hs' : 0 ∉ s.dropLast := by
          cases s with
          | nil => simp
          | cons m s => intro h0; exact hs (by simp only [List.dropLast, List.mem_cons]; exact .inr h0)
        have := Nested.HasShape.list ((List.range n).map
            (fun i => (Quantity.tolistEntry d (nest s (fun r => f (i :: r)))).asData)) s
          (by simp; omega) (by
            intro m hm
            obtain ⟨i, -, rfl⟩ := List.mem_map.1 hm
            exact asData_hasShape d s _ hs')
        simpa using this

theorem asData_get (d : Dim) : ∀ (s i : List Nat) (f : List Nat → K), InB s i →
    (Quantity.tolistEntry d (nest s f)).asData.get i = some (.leaf (.quantity ⟨NDArr.scalar (f i), d⟩))
  | [], i, f, h => by
      cases h
      rw [nest, Quantity.tolistEntry, Nested.asData, Nested.get]
      rfl
  | n :: s, i, f, h => by
      obtain ⟨k, r, rfl, hk, hr⟩ := inB_cons h
      rw [asData_nest, Nested.get]
      simp only [List.getElem?_map, List.getElem?_range hk, Option.map_some]
      exact asData_get d s r _ hr

variable [Zero K] [One K] [Mul K] [Div K] [Neg K] [RPow K] [RatCast K] [DecidableEq K]
variable {P : List Char → Py PyAST} {F : PyOps K} {w : World K}

/-- C97: `Quantity(q.tolist(), q.units)` is `q` again (unless an axis of length 0 is followed by another, where
`tolist` forgets the other). -/
theorem C97_tolist_back (q : Quantity K) (hq : 0 ∉ q.mag.shape.dropLast) :
    ∃ r, Quantity.new P F w (.nested q.tolist.asData) (.dim q.dim) = .ok r ∧ r.dim = q.dim ∧ r.mag.Same q.mag := by
  rw [tolist_eq]
  rcases hsh : q.mag.shape with _ | ⟨n, s⟩
  · rw [nest, Quantity.tolistEntry, Nested.asData]
    have e : Quantity.new P F w (.nested (.leaf (.quantity (Quantity.ofNumber q.dim (q.mag.elem []))))) (.dim q.dim)
        = .ok (Quantity.ofNumber q.dim (q.mag.elem [])) := by
      show Quantity.newFromQuantity P F w _ _ = _
      rcases hd : q.dim with _ | ⟨a, t⟩
      · rfl
      · show Quantity.rescale w _ (a :: t) = _
        unfold Quantity.rescale
        exact if_pos (deq_self w _)
    refine ⟨_, e, rfl, ?_, fun i hi => ?_⟩
    · rw [hsh]; rfl
    · cases hi; rfl
  · rw [← hsh]
    have hn : ∀ q', (Quantity.tolistEntry q.dim (nest q.mag.shape q.mag.elem)).asData ≠ .leaf (.quantity q') := by
      intro q'
      rw [hsh, asData_nest]
      simp
    have hS := asData_hasShape q.dim q.mag.shape q.mag.elem hq
    obtain ⟨r, hr⟩ := ((C97_data_returns_iff (P := P) (F := F) (w := w) _ hn (.dim q.dim)).1).2
      ⟨⟨_, hS⟩, returns_ok _⟩
    obtain ⟨a, ha, has⟩ := asArray_returns _ _ hS
    rw [new_list hn, ha] at hr
    have hr' : r = ⟨a, q.dim⟩ := by cases hr; rfl
    subst hr'
    refine ⟨⟨a, q.dim⟩, ?_, rfl, has, fun i hi => ?_⟩
    · rw [new_list hn, ha]; rfl
    · rw [has] at hi
      exact ((asArray_spec _ a ha).2.2 i _ _ ⟨i, [], by simp, asData_get q.dim _ i _ hi, .nil, rfl⟩).2

end back

/-! ## Examples -/

/-- `[1*km, 1*m]` -/
noncomputable def exMixed : Nested (Operand ℝ) :=
  .list [.leaf (.quantity ⟨NDArr.scalar 1, dKm⟩), .leaf (.quantity ⟨NDArr.scalar 1, dM⟩)]

/-- C97 is false of lists of quantities in other units: `Quantity([1*km, 1*m], m)` is [1, 1] m. -/
theorem C97_list_false (P : List Char → Py PyAST) (F : PyOps ℝ) :
    ∃ r, Quantity.new P F exWorld (.nested exMixed) (.dim dM) = .ok r ∧ r.dim = dM ∧ r.mag.toList = [1, 1] ∧
      exMixed.ElemAt [0] (.quantity ⟨NDArr.scalar 1, dKm⟩) 1 := by
  refine ⟨⟨_, dM⟩, rfl, rfl, rfl, [0], [], rfl, ?_, .nil, rfl⟩
  rw [exMixed, Nested.get]
  simp only [List.getElem?_cons_zero]
  rw [Nested.get]

/-- C97 is false of the empty dimensionality: `Quantity(5*m, Dimensionality())` and `Quantity(5*m, '')` are 5 m,
where `(5*m).rescale('')` raises. -/
theorem C97_dimensionless_false (P : List Char → Py PyAST) (F : PyOps ℝ) :
    Quantity.new P F exWorld (.nested (.leaf (.quantity ⟨NDArr.scalar 5, dM⟩))) (.dim []) = .ok ⟨NDArr.scalar 5, dM⟩ ∧
    ¬ Compatible exWorld dM [] := by
  refine ⟨C97_no_units _ _ (.inr rfl), ?_⟩
  rw [compatible_iff exWorld_wf (ex_dimOK _ (by simp)) (DimOK.nil _), exRef_m]
  intro h
  have := h uM
  simp [Dict.get?_cons, uM, World.refUnits] at this

/-- A regular nested list of plain numbers: `[[1, 2], [3, 4]]`. -/
example (P : List Char → Py PyAST) (F : PyOps ℝ) : ∃ r : Quantity ℝ, Quantity.new P F exWorld (.nested (.list
    [.list [.leaf (.array (NDArr.scalar 1)), .leaf (.array (NDArr.scalar 2))],
     .list [.leaf (.array (NDArr.scalar 3)), .leaf (.array (NDArr.scalar 4))]])) (.dim dKm) = .ok r ∧
    r.dim = dKm ∧ r.mag.shape = [2, 2] ∧ r.mag.toList = [1, 2, 3, 4] :=
  ⟨_, rfl, rfl, rfl, rfl⟩

/-- `[1, [2]]` is refused. -/
example (P : List Char → Py PyAST) (F : PyOps ℝ) : Quantity.new P F exWorld (.nested (.list
    [.leaf (.array (NDArr.scalar 1)), .list [.leaf (.array (NDArr.scalar 2))]])) (.dim dKm) = .error .valueError :=
  rfl

/-- `Quantity(3*km, m)` -/
example (P : List Char → Py PyAST) (F : PyOps ℝ) : ∃ r, Quantity.new P F exWorld
    (.nested (.leaf (.quantity ⟨NDArr.scalar 3, dKm⟩))) (.dim dM) = .ok r ∧ SameContent r.dim dM := by
  obtain ⟨r, h1, h2, -⟩ := (C97_quantity (P := P) (F := F) exWorld_reachable ⟨NDArr.scalar 3, dKm⟩ (.dim dM) dM rfl rfl
    (ex_dimOK dKm (by simp)) (ex_dimOK dM (by simp)) ex_safe_km_m).1 ex_compat
  exact ⟨r, h1, h2⟩

end PQ
