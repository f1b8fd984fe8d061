import Verif.Model.Dict
import Mathlib.Data.List.Nodup
import Mathlib.Data.List.Perm.Basic

/-! # Lemmas about `Dict` -/

namespace PQ
namespace Dict

variable {κ ν : Type _} [DecidableEq κ]

@[simp] theorem get?_nil (k : κ) : get? ([] : Dict κ ν) k = none := rfl

theorem get?_cons (k' : κ) (v : ν) (d : Dict κ ν) (k : κ) :
    get? ((k', v) :: d) k = if k' = k then some v else get? d k := rfl

theorem get?_set (d : Dict κ ν) (k : κ) (v : ν) (k' : κ) :
    get? (set d k v) k' = if k = k' then some v else get? d k' := by
  induction d with
  | nil => simp [set, get?_cons]
  | cons h d ih =>
    obtain ⟨a, b⟩ := h
    by_cases h1 : a = k
    · subst h1; by_cases h2 : a = k' <;> simp [set, get?_cons, h2]
    · by_cases h2 : a = k'
      · subst h2; simp [set, get?_cons, h1, Ne.symm h1]
      · simp [set, get?_cons, h1, h2, ih]

theorem get?_eq_none_iff (d : Dict κ ν) (k : κ) : get? d k = none ↔ k ∉ d.map Prod.fst := by
  induction d with
  | nil => simp
  | cons h d ih =>
    obtain ⟨a, b⟩ := h
    by_cases h1 : a = k
    · simp [get?_cons, h1]
    · simp [get?_cons, h1, ih, Ne.symm h1]

theorem mem_of_get? {d : Dict κ ν} {k : κ} {v : ν} (h : get? d k = some v) : (k, v) ∈ d := by
  induction d with
  | nil => simp at h
  | cons a d ih =>
    obtain ⟨a, b⟩ := a
    by_cases h1 : a = k
    · simp [get?_cons, h1] at h; simp [h1, h]
    · simp [get?_cons, h1] at h; exact List.mem_cons_of_mem _ (ih h)

theorem get?_of_mem {d : Dict κ ν} (hd : Nodup d) {k : κ} {v : ν} (h : (k, v) ∈ d) :
    get? d k = some v := by
  induction d with
  | nil => simp at h
  | cons a d ih =>
    obtain ⟨a, b⟩ := a
    simp only [Nodup, List.map_cons, List.nodup_cons] at hd
    rcases List.mem_cons.1 h with h1 | h1
    · simp only [Prod.mk.injEq] at h1; simp [get?_cons, h1.1, h1.2]
    · have : a ≠ k := by
        rintro rfl; exact hd.1 (List.mem_map_of_mem (f := Prod.fst) h1)
      simp [get?_cons, this, ih hd.2 h1]

theorem mem_keys_set (d : Dict κ ν) (k : κ) (v : ν) (x : κ) :
    x ∈ (set d k v).map Prod.fst ↔ x = k ∨ x ∈ d.map Prod.fst := by
  induction d with
  | nil => simp [set]
  | cons a d ih =>
    obtain ⟨a, b⟩ := a
    by_cases h1 : a = k
    · subst h1; simp [set]
    · simp only [set, h1, if_false, List.map_cons, List.mem_cons, ih]; tauto

theorem nodup_set {d : Dict κ ν} (hd : Nodup d) (k : κ) (v : ν) : Nodup (set d k v) := by
  induction d with
  | nil => simp [set, Nodup]
  | cons a d ih =>
    obtain ⟨a, b⟩ := a
    simp only [Nodup, List.map_cons, List.nodup_cons] at hd
    by_cases h1 : a = k
    · subst h1; simpa [set, Nodup] using hd
    · simp only [Nodup, set, h1, if_false, List.map_cons, List.nodup_cons]
      exact ⟨by rw [mem_keys_set]; tauto, ih hd.2⟩

theorem mem_set {d : Dict κ ν} {k : κ} {v : ν} {x : κ × ν} (h : x ∈ set d k v) :
    x = (k, v) ∨ x ∈ d := by
  induction d with
  | nil => simpa [set] using h
  | cons a d ih =>
    obtain ⟨a, b⟩ := a
    by_cases h1 : a = k
    · subst h1; simp only [set, if_true, List.mem_cons] at h; simp only [List.mem_cons]; tauto
    · simp only [set, h1, if_false, List.mem_cons] at h ⊢
      rcases h with h | h
      · tauto
      · rcases ih h with h | h <;> tauto

theorem pop_sublist (d : Dict κ ν) (k : κ) : (pop d k).Sublist d := by
  induction d with
  | nil => simp [pop]
  | cons a d ih =>
    obtain ⟨a, b⟩ := a
    by_cases h1 : a = k
    · simp [pop, h1]
    · simp only [pop, h1, if_false]; exact ih.cons_cons _

theorem nodup_pop {d : Dict κ ν} (hd : Nodup d) (k : κ) : Nodup (pop d k) :=
  List.Nodup.sublist ((pop_sublist d k).map _) hd

theorem get?_pop {d : Dict κ ν} (hd : Nodup d) (k k' : κ) :
    get? (pop d k) k' = if k = k' then none else get? d k' := by
  induction d with
  | nil => simp [pop]
  | cons a d ih =>
    obtain ⟨a, b⟩ := a
    simp only [Nodup, List.map_cons, List.nodup_cons] at hd
    by_cases h1 : a = k
    · subst h1
      by_cases h2 : a = k'
      · subst h2; simpa [pop, get?_eq_none_iff] using hd.1
      · simp [pop, get?_cons, h2]
    · by_cases h2 : a = k'
      · subst h2; simp [pop, get?_cons, h1, Ne.symm h1]
      · simp [pop, get?_cons, h1, h2, ih hd.2]

theorem length_pop_of_get? {d : Dict κ ν} {k : κ} {v : ν} (h : get? d k = some v) :
    (pop d k).length + 1 = d.length := by
  induction d with
  | nil => simp at h
  | cons a d ih =>
    obtain ⟨a, b⟩ := a
    by_cases h1 : a = k
    · simp [pop, h1]
    · simp only [get?_cons, h1, if_false] at h; simp [pop, h1, ih h]

theorem length_set_of_get? {d : Dict κ ν} {k : κ} {v v' : ν} (h : get? d k = some v) :
    (set d k v').length = d.length := by
  induction d with
  | nil => simp at h
  | cons a d ih =>
    obtain ⟨a, b⟩ := a
    by_cases h1 : a = k
    · simp [set, h1]
    · simp only [get?_cons, h1, if_false] at h; simp [set, h1, ih h]

/-- Two dicts with the same lookups are permutations of each other. -/
theorem perm_of_get?_eq {a b : Dict κ ν} (ha : Nodup a) (hb : Nodup b)
    (h : ∀ k, get? a k = get? b k) : a.Perm b := by
  refine (List.perm_ext_iff_of_nodup ha.of_map hb.of_map).2 ?_
  rintro ⟨k, v⟩
  constructor
  · intro hm; exact mem_of_get? ((h k) ▸ get?_of_mem ha hm)
  · intro hm; exact mem_of_get? ((h k).symm ▸ get?_of_mem hb hm)

theorem get?_perm {a b : Dict κ ν} (ha : Nodup a) (h : a.Perm b) (k : κ) : get? a k = get? b k := by
  have hb : Nodup b := (h.map Prod.fst).nodup_iff.1 ha
  rcases hk : get? b k with _ | v
  · rw [get?_eq_none_iff] at hk ⊢
    rwa [(h.map Prod.fst).mem_iff]
  · exact get?_of_mem ha (h.mem_iff.2 (mem_of_get? hk))

end Dict
end PQ
