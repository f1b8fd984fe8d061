import Verif.Lemmas.ShippedErrors

/-!
# Rounding errors when a shipped unit is simplified

The kernel checks the numbers against the tables.
-/

namespace PQ.Shipped

/-- Rounding errors made in multiplying together the base units a unit consists of, given twice their exponents. -/
def simpErr (x : List Int) : Nat := (x.map (fun e => if e = 0 then 0 else 4 * e.natAbs + 2)).sum

/-- Those in the value of each row and in simplifying it are at most `b` in total. -/
def simpFrom (b : Nat) : List Row → List (Nat × Nat) → List (List Int) → Bool
  | [], _, _ => true
  | r :: rs, t :: ts, x :: xs =>
    Nat.ble (t.1 + (t.2 + (if r.cls.irreducible then 8 else simpErr x + 1))) b && simpFrom b rs ts xs
  | _, _, _ => false

theorem table_simp : simpFrom 263 table rowErrs dims = true := by decide +kernel

theorem unit_simp : simpFrom 148 unitTable rowErrs dims = true := by decide +kernel

theorem base_errs : baseRows.all (fun j => decide ((rowErrs[j]?).getD (0, 0) = (0, 0))) = true := by decide +kernel

end PQ.Shipped
