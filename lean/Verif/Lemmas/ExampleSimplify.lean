import Verif.Lemmas.Example
import Verif.Lemmas.Simplified

/-! # The example world meets the hypotheses about default units -/

namespace PQ

open Dict World

theorem exDefaults (c : UClass) : exWorld.defaults c =
    (match c with | .length => some dM | .time => some dS | _ => none) := by
  cases c <;> rfl

theorem ex_goodDefaults : GoodDefaults exWorld := by
  intro c d h
  rw [exDefaults] at h
  cases c <;> simp only [Option.some.injEq, reduceCtorEq] at h
  · subst h
    exact ⟨ex_dimOK _ (by simp), uM, rfl, by rw [exKeys]; simp, exConv_m, compatible_refl _ _⟩
  · subst h
    exact ⟨ex_dimOK _ (by simp), uS, rfl, by rw [exKeys]; simp, exConv_s, compatible_refl _ _⟩

theorem ex_defaultsSafe : DefaultsSafe exWorld := by
  intro u d hk h
  rw [exDefaults] at h
  rw [exKeys] at hk
  simp only [List.mem_cons, List.not_mem_nil, or_false] at hk
  rcases hk with rfl | rfl | rfl | rfl | rfl <;>
    simp only [uM, uKm, uS, uHz, Option.some.injEq, reduceCtorEq] at h
  · subst h; exact HashSafe.refl _ _
  · subst h; exact ex_safe_km_m
  · subst h; exact HashSafe.refl _ _

theorem ex_meets_m : MeetsDefault exWorld uM :=
  ⟨rfl, dM, rfl, compatible_refl _ _⟩

theorem ex_meets_km : MeetsDefault exWorld uKm :=
  ⟨rfl, dM, rfl, ex_compat⟩

theorem ex_meets_s : MeetsDefault exWorld uS :=
  ⟨rfl, dS, rfl, compatible_refl _ _⟩

theorem ex_simplifies_hz : Simplifies exWorld uHz := by
  refine Or.inr ⟨rfl, _, rfl, ?_⟩
  have : ∀ kv ∈ (exWorld.unitRef uHz).dim, kv = (uS, -1) := by decide +kernel
  intro kv hkv
  rw [this kv hkv]
  exact ex_meets_s

theorem ex_default_simplifies (u : UKey) (hu : IsDefaultUnit exWorld u) : Simplifies exWorld u := by
  obtain ⟨c, d, h, hm⟩ := hu
  rw [exDefaults] at h
  cases c <;> simp only [Option.some.injEq, reduceCtorEq] at h
  · subst h
    simp only [dM, List.map_cons, List.map_nil, List.mem_singleton] at hm
    subst hm; exact Or.inl ex_meets_m
  · subst h
    simp only [dS, List.map_cons, List.map_nil, List.mem_singleton] at hm
    subst hm; exact Or.inl ex_meets_s

end PQ
