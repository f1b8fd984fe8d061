import Verif.Lemmas.Dict
import Verif.Spec.Exponents
import Mathlib.Algebra.Order.Ring.Rat
import Mathlib.Tactic.Ring
import Mathlib.Tactic.Linarith

/-! # Lemmas about `Dim` -/

namespace PQ

open Dict

theorem SameContent.refl (a : Dim) : SameContent a a := fun _ => rfl
theorem SameContent.symm {a b : Dim} (h : SameContent a b) : SameContent b a := fun u => (h u).symm
theorem SameContent.trans {a b c : Dim} (h : SameContent a b) (h' : SameContent b c) :
    SameContent a c := fun u => (h u).trans (h' u)

theorem Canon.nil : Canon [] := ⟨by simp [Dict.Nodup], by simp⟩

theorem expo_eq {a b : Dim} (h : SameContent a b) (u : UKey) : expo a u = expo b u := by
  simp [expo, h u]

theorem Canon.get?_ne_zero {d : Dim} (h : Canon d) {u : UKey} {e : ℚ} (hg : get? d u = some e) :
    e ≠ 0 := h.nonzero _ (mem_of_get? hg)

theorem expo_of_get? {d : Dim} {u : UKey} {e : ℚ} (hg : get? d u = some e) : expo d u = e := by
  simp [expo, hg]

theorem Canon.get?_eq {d : Dim} (h : Canon d) (u : UKey) :
    get? d u = if expo d u = 0 then none else some (expo d u) := by
  rcases hg : get? d u with _ | e
  · simp [expo, hg]
  · simp [expo, hg, h.get?_ne_zero hg]

/-- Canonical dimensionalities are determined by their exponents. -/
theorem Canon.sameContent {a b : Dim} (ha : Canon a) (hb : Canon b) (h : ∀ u, expo a u = expo b u) :
    SameContent a b := by
  intro u; rw [ha.get?_eq, hb.get?_eq, h u]

theorem Canon.perm {a b : Dim} (ha : Canon a) (hb : Canon b) (h : ∀ u, expo a u = expo b u) :
    a.Perm b := Dict.perm_of_get?_eq ha.nodup hb.nodup (ha.sameContent hb h)

theorem Canon.eq_nil {a : Dim} (ha : Canon a) (h : ∀ u, expo a u = 0) : a = [] :=
  (ha.perm Canon.nil (by simpa [expo] using h)).eq_nil

theorem Canon.of_perm {a b : Dim} (ha : Canon a) (h : a.Perm b) : Canon b :=
  ⟨(h.map Prod.fst).nodup_iff.1 ha.nodup, fun kv hk => ha.nonzero kv (h.mem_iff.2 hk)⟩

theorem expo_cons (kv : UKey × ℚ) (d : Dim) (u : UKey) :
    expo (kv :: d) u = if kv.1 = u then kv.2 else expo d u := by
  obtain ⟨k, e⟩ := kv
  simp only [expo, get?_cons]; split <;> simp

@[simp] theorem expo_nil (u : UKey) : expo [] u = 0 := rfl

theorem expo_set (d : Dim) (k : UKey) (v : ℚ) (u : UKey) :
    expo (Dict.set d k v) u = if k = u then v else expo d u := by
  simp only [expo, get?_set]; split <;> simp

/-! ### multiplication -/

theorem expo_mulStep {d : Dim} (hd : Nodup d) (kv : UKey × ℚ) (u : UKey) :
    expo (Dim.mulStep d kv) u = expo d u + if kv.1 = u then kv.2 else 0 := by
  unfold Dim.mulStep
  rcases hg : get? d kv.1 with _ | e
  · simp only [expo_set]
    by_cases h : kv.1 = u
    · subst h; simp [expo, hg]
    · simp [h]
  · simp only
    by_cases h0 : e + kv.2 = 0
    · simp only [h0, if_true]
      rw [expo, get?_pop (nodup_set hd _ _)]
      by_cases h : kv.1 = u
      · subst h; simp [expo, hg, h0]
      · simp [h, get?_set, expo]
    · simp only [h0, if_false, expo_set]
      by_cases h : kv.1 = u
      · subst h; simp [expo, hg]
      · simp [h]

theorem nodup_mulStep {d : Dim} (hd : Nodup d) (kv : UKey × ℚ) : Nodup (Dim.mulStep d kv) := by
  unfold Dim.mulStep
  rcases hg : get? d kv.1 with _ | e
  · exact nodup_set hd _ _
  · simp only; split
    · exact nodup_pop (nodup_set hd _ _) _
    · exact nodup_set hd _ _

theorem canon_mulStep {d : Dim} (hd : Canon d) {kv : UKey × ℚ} (hk : kv.2 ≠ 0) :
    Canon (Dim.mulStep d kv) := by
  refine ⟨nodup_mulStep hd.nodup kv, ?_⟩
  unfold Dim.mulStep
  rcases hg : get? d kv.1 with _ | e
  · intro x hx
    rcases mem_set hx with rfl | hx
    · exact hk
    · exact hd.nonzero x hx
  · simp only
    split
    · rename_i h0
      rintro ⟨x, y⟩ hx rfl
      have hnd := nodup_pop (nodup_set hd.nodup kv.1 (e + kv.2)) kv.1
      have := get?_of_mem hnd hx
      rw [get?_pop (nodup_set hd.nodup _ _)] at this
      by_cases h : kv.1 = x
      · simp [h] at this
      · simp only [h, if_false, get?_set] at this
        exact hd.get?_ne_zero this rfl
    · rename_i h0
      intro x hx
      rcases mem_set hx with rfl | hx
      · exact h0
      · exact hd.nonzero x hx

theorem nodup_mul {a : Dim} (ha : Nodup a) (b : Dim) : Nodup (Dim.mul a b) := by
  unfold Dim.mul
  induction b generalizing a with
  | nil => simpa
  | cons kv b ih => exact ih (nodup_mulStep ha kv)

theorem canon_mul {a b : Dim} (ha : Canon a) (hb : ∀ kv ∈ b, kv.2 ≠ 0) : Canon (Dim.mul a b) := by
  unfold Dim.mul
  induction b generalizing a with
  | nil => simpa
  | cons kv b ih =>
    exact ih (canon_mulStep ha (hb kv (by simp))) (fun x hx => hb x (by simp [hx]))

theorem expo_mul {a b : Dim} (ha : Nodup a) (hb : Nodup b) (u : UKey) :
    expo (Dim.mul a b) u = expo a u + expo b u := by
  unfold Dim.mul
  induction b generalizing a with
  | nil => simp
  | cons kv b ih =>
    have hb' := hb
    simp only [Dict.Nodup, List.map_cons, List.nodup_cons] at hb'
    rw [List.foldl_cons, ih (nodup_mulStep ha kv) hb'.2, expo_mulStep ha, expo_cons]
    by_cases h : kv.1 = u
    · subst h
      have h0 : expo b kv.1 = 0 := by
        simp [expo, (get?_eq_none_iff b kv.1).2 hb'.1]
      simp [h0]
    · simp [h]

/-! ### division -/

theorem divStep_eq (d : Dim) (kv : UKey × ℚ) :
    Dim.divStep d kv = Dim.mulStep d (kv.1, -kv.2) := by
  unfold Dim.divStep Dim.mulStep
  rcases get? d kv.1 with _ | e <;> simp [sub_eq_add_neg]

/-- Negating all exponents. -/
def negDim (d : Dim) : Dim := d.map (fun kv => (kv.1, -kv.2))

theorem div_eq_mul (a b : Dim) : Dim.div a b = Dim.mul a (negDim b) := by
  unfold Dim.div Dim.mul negDim
  rw [List.foldl_map]
  congr 1
  funext d kv; exact divStep_eq d kv

theorem map_keys (d : Dim) (f : ℚ → ℚ) :
    (d.map (fun kv => (kv.1, f kv.2))).map Prod.fst = d.map Prod.fst := by
  simp [List.map_map, Function.comp_def]

theorem get?_mapVal (d : Dim) (f : ℚ → ℚ) (u : UKey) :
    get? (d.map (fun kv => (kv.1, f kv.2))) u = (get? d u).map f := by
  induction d with
  | nil => rfl
  | cons a d ih =>
    obtain ⟨k, e⟩ := a
    simp only [List.map_cons, get?_cons, ih]; split <;> simp

theorem nodup_mapVal {d : Dim} (h : Nodup d) (f : ℚ → ℚ) :
    Nodup (d.map (fun kv => (kv.1, f kv.2)) : Dim) := by
  simpa [Dict.Nodup, List.map_map, Function.comp_def] using h

theorem expo_negDim (d : Dim) (u : UKey) : expo (negDim d) u = - expo d u := by
  unfold negDim expo
  rw [get?_mapVal d (fun x => -x)]
  rcases get? d u with _ | e <;> simp

theorem nodup_div {a : Dim} (ha : Nodup a) (b : Dim) : Nodup (Dim.div a b) := by
  rw [div_eq_mul]; exact nodup_mul ha _

theorem canon_div {a b : Dim} (ha : Canon a) (hb : ∀ kv ∈ b, kv.2 ≠ 0) : Canon (Dim.div a b) := by
  rw [div_eq_mul]
  refine canon_mul ha ?_
  intro kv hk
  simp only [negDim, List.mem_map] at hk
  obtain ⟨x, hx, rfl⟩ := hk
  simpa using hb x hx

theorem expo_div {a b : Dim} (ha : Nodup a) (hb : Nodup b) (u : UKey) :
    expo (Dim.div a b) u = expo a u - expo b u := by
  rw [div_eq_mul, expo_mul ha (show Nodup (negDim b) from nodup_mapVal hb (fun x => -x)), expo_negDim, sub_eq_add_neg]

/-! ### power -/

theorem nodup_pow {a : Dim} (ha : Nodup a) (p : ℚ) : Nodup (Dim.pow a p) := by
  unfold Dim.pow; split
  · simp [Dict.Nodup]
  · exact nodup_mapVal ha (fun x => x * p)

theorem canon_pow {a : Dim} (ha : Canon a) (p : ℚ) : Canon (Dim.pow a p) := by
  refine ⟨nodup_pow ha.nodup p, ?_⟩
  unfold Dim.pow
  split
  · simp
  · rename_i hp
    intro kv hk
    simp only [List.mem_map] at hk
    obtain ⟨x, hx, rfl⟩ := hk
    simpa using ⟨ha.nonzero x hx, hp⟩

theorem expo_pow (a : Dim) (p : ℚ) (u : UKey) : expo (Dim.pow a p) u = expo a u * p := by
  unfold Dim.pow
  split
  · rename_i h; simp [h]
  · unfold expo
    rw [get?_mapVal a (fun x => x * p)]
    rcases get? a u with _ | e <;> simp

/-! ### hash -/

theorem foldl_xor_perm {α : Type _} (f : α → BitVec 64) (b : BitVec 64) {l l' : List α}
    (h : l.Perm l') :
    l.foldl (fun r x => r ^^^ f x) b = l'.foldl (fun r x => r ^^^ f x) b := by
  induction h generalizing b with
  | nil => rfl
  | cons x _ ih => exact ih _
  | swap x y l =>
    simp only [List.foldl_cons]
    congr 1
    rw [BitVec.xor_assoc, BitVec.xor_comm (f y), ← BitVec.xor_assoc]
  | trans _ _ ih1 ih2 => rw [ih1, ih2]

theorem sortedItems_perm (ord : UKey → Nat × Nat) (d : Dim) : (Dim.sortedItems ord d).Perm d :=
  List.mergeSort_perm _ _

/-- The hash does not need the sorting. -/
theorem rawHash_eq (H : Hasher) (ord : UKey → Nat × Nat) (d : Dim) :
    Dim.rawHash H ord d = d.foldl (fun r kv => r ^^^ H.item kv.1 (hashedExponent kv.2)) H.base :=
  foldl_xor_perm (fun kv : UKey × ℚ => H.item kv.1 (hashedExponent kv.2)) _ (sortedItems_perm ord d)

theorem hash_perm (H : Hasher) (o o' : UKey → Nat × Nat) {a b : Dim} (h : a.Perm b) :
    Dim.hash H o a = Dim.hash H o' b := by
  unfold Dim.hash
  rw [rawHash_eq, rawHash_eq,
    foldl_xor_perm (fun kv : UKey × ℚ => H.item kv.1 (hashedExponent kv.2)) _ h]

theorem deq_of_same (H : Hasher) (o : UKey → Nat × Nat) {a b : Dim} (ha : Nodup a) (hb : Nodup b)
    (h : SameContent a b) : Dim.eq H o a b = true := by
  simp [Dim.eq, hash_perm H o o (perm_of_get?_eq ha hb h)]

theorem deq_refl (H : Hasher) (o : UKey → Nat × Nat) (a : Dim) : Dim.eq H o a a = true := by
  simp [Dim.eq]

theorem ne_eq_not_eq (H : Hasher) (o : UKey → Nat × Nat) (a b : Dim) :
    Dim.ne H o a b = !Dim.eq H o a b := rfl

end PQ
