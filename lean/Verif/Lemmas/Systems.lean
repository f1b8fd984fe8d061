import Verif.Lemmas.ShippedExample

/-!
# The rows that `set_default_units(system=...)` refers to
-/

namespace PQ.Shipped

/-- Label, row and unit. -/
def systemRows : List (String × Nat × UKey) :=
  [("A", 186, ⟨.current, "ampere"⟩), ("m", 34, ⟨.length, "meter"⟩), ("kg", 130, ⟨.mass, "kilogram"⟩),
   ("cd", 242, ⟨.luminousIntensity, "candela"⟩), ("mol", 88, ⟨.substance, "mole"⟩),
   ("degK", 249, ⟨.temperature, "Kelvin"⟩), ("s", 1, ⟨.time, "second"⟩),
   ("cm", 37, ⟨.length, "centimeter"⟩), ("g", 131, ⟨.mass, "gram"⟩)]

theorem systemRows_check : systemRows.all (fun t => (table[t.2.1]?).any (fun r =>
    decide (r.key = t.2.2) && (r.labels.contains t.1 && r.positive))) = true := by decide +kernel

theorem systemRows_get {l : String} {i : Nat} {u : UKey} (hm : (l, i, u) ∈ systemRows) :
    ∃ r, r ∈ saneTable ∧ r.key = u ∧ l ∈ r.labels := by
  have h := List.all_eq_true.1 systemRows_check _ hm
  simp only at h
  rcases ht : table[i]? with _ | r
  · rw [ht] at h; simp at h
  · rw [ht] at h
    simp only [Option.any_some, Bool.and_eq_true, decide_eq_true_eq, List.contains_eq_mem] at h
    exact ⟨r, List.mem_filter.2 ⟨List.mem_of_getElem? ht, h.2.2⟩, h.1, h.2.1⟩

end PQ.Shipped
