import Verif.Lemmas.ShippedCheck

/-!
# Rounding errors in the shipped table

`rowErrs` is generated by `tools/gen_errors.py`; the kernel checks it against the table.
-/

namespace PQ.Shipped

/-- Division rounding up. -/
def cdiv (a d : Nat) : Nat := (a + d - 1) / d

/-- Rounding errors in the number of a definition. -/
def Expr.magErr : Expr → Nat
  | .num _ _ => 1
  | .pi => 1
  | .unit _ => 0
  | .mul a b => a.magErr + b.magErr + 1
  | .div a b => a.magErr + b.magErr + 1
  | .pow a n d => cdiv (n.natAbs * a.magErr) d + 1
  | .add a b => Nat.max a.magErr b.magErr + 1
  | .quantity _ _ _ => 1

/-- Those in its unit, given those of the rows. -/
def Expr.dimErr (ts : List (Nat × Nat)) : Expr → Nat
  | .num _ _ => 0
  | .pi => 0
  | .unit i => ((ts[i]?).getD (0, 0)).1
  | .mul a b => a.dimErr ts + b.dimErr ts
  | .div a b => a.dimErr ts + b.dimErr ts
  | .pow a n d => cdiv (n.natAbs * a.dimErr ts) d
  | .add a _ => a.dimErr ts
  | .quantity _ _ u => u.dimErr ts

/-- Those made when its unit is expressed in base units. -/
def Expr.refErr (ts : List (Nat × Nat)) : Expr → Nat
  | .num _ _ => 0
  | .pi => 0
  | .unit i => ((ts[i]?).getD (0, 0)).2 + 2
  | .mul a b => a.refErr ts + b.refErr ts
  | .div a b => a.refErr ts + b.refErr ts
  | .pow a n d => cdiv (Nat.max n.natAbs d * a.refErr ts) d
  | .add a _ => a.refErr ts
  | .quantity _ _ u => u.refErr ts

/-- The rows' errors are at most those listed. -/
def errFrom (ts : List (Nat × Nat)) : List Row → List (Nat × Nat) → Bool
  | [], [] => true
  | r :: rs, x :: xs =>
    (match r.definition with
      | none => true
      | some e => Nat.ble (e.magErr + e.dimErr ts) x.1 && Nat.ble (1 + e.refErr ts) x.2) && errFrom ts rs xs
  | _, _ => false

/-- For each row: rounding errors in its value, and in its stored reference. -/
def rowErrs : List (Nat × Nat) := [
  (0, 0), (0, 0), (2, 3), (4, 6), (2, 3), (4, 6), (6, 9), (8, 12), (10, 15), (12, 18), (2, 3), (4, 6),
  (6, 9), (8, 12), (10, 15), (2, 3), (4, 6), (2, 3), (8, 12), (10, 15), (12, 18), (14, 21), (10, 15), (8, 12),
  (8, 12), (8, 12), (8, 12), (8, 12), (8, 12), (8, 12), (4, 6), (4, 6), (6, 9), (8, 12), (0, 0), (2, 3),
  (2, 3), (2, 3), (2, 3), (4, 6), (6, 9), (8, 12), (8, 12), (10, 15), (4, 6), (6, 9), (8, 12), (8, 12),
  (6, 9), (2, 3), (4, 6), (2, 3), (2, 3), (6, 6), (8, 9), (4, 3), (6, 6), (6, 6), (6, 6), (6, 6),
  (6, 6), (6, 6), (6, 9), (8, 12), (4, 6), (4, 7), (2, 3), (4, 6), (6, 9), (6, 6), (6, 6), (8, 9),
  (10, 12), (8, 9), (6, 9), (6, 9), (6, 9), (6, 9), (5, 11), (3, 5), (3, 5), (3, 5), (3, 5), (5, 8),
  (3, 5), (3, 5), (15, 17), (10, 21), (0, 0), (2, 3), (4, 6), (3, 7), (5, 10), (5, 10), (7, 13), (9, 16),
  (7, 16), (1, 7), (21, 34), (10, 19), (18, 31), (15, 25), (17, 28), (15, 25), (19, 31), (21, 34), (17, 28), (19, 31),
  (21, 34), (23, 37), (25, 40), (5, 10), (5, 10), (7, 13), (9, 16), (11, 19), (13, 22), (15, 25), (17, 28), (27, 43),
  (29, 46), (17, 28), (27, 43), (19, 31), (4, 12), (6, 15), (8, 18), (2, 3), (2, 3), (2, 3), (0, 0), (2, 3),
  (4, 6), (4, 6), (2, 3), (4, 6), (6, 9), (6, 9), (4, 6), (4, 6), (2, 3), (8, 12), (2, 3), (8, 12),
  (10, 15), (2, 3), (8, 12), (6, 9), (8, 12), (4, 6), (4, 6), (4, 6), (5, 8), (5, 8), (5, 8), (3, 9),
  (5, 12), (7, 15), (5, 12), (5, 12), (9, 18), (7, 15), (11, 21), (7, 15), (9, 18), (9, 18), (4, 14), (10, 23),
  (6, 17), (6, 17), (8, 20), (8, 20), (10, 23), (12, 26), (8, 20), (6, 17), (6, 17), (6, 17), (6, 17), (10, 27),
  (12, 30), (14, 33), (16, 36), (6, 17), (3, 5), (7, 14), (0, 0), (2, 3), (4, 6), (6, 9), (8, 12), (2, 3),
  (11, 31), (12, 36), (2, 3), (8, 6), (1, 5), (3, 8), (3, 8), (6, 24), (8, 27), (8, 27), (8, 27), (8, 34),
  (10, 37), (12, 40), (14, 43), (16, 46), (18, 49), (7, 29), (9, 32), (11, 35), (7, 29), (9, 32), (11, 35), (13, 38),
  (15, 41), (7, 29), (9, 36), (8, 34), (10, 37), (10, 37), (9, 32), (9, 32), (8, 27), (3, 8), (3, 8), (3, 8),
  (3, 8), (11, 39), (11, 39), (9, 32), (7, 5), (10, 37), (10, 37), (9, 32), (9, 32), (8, 27), (9, 32), (11, 16),
  (21, 33), (15, 26), (0, 0), (1, 3), (3, 6), (5, 9), (7, 12), (9, 14), (3, 8), (0, 0), (2, 3), (2, 3),
  (2, 3), (2, 3), (2, 3), (2, 3), (2, 3), (2, 3), (2, 3), (2, 3), (2, 3), (2, 3), (2, 3), (2, 3),
  (2, 3), (2, 3), (2, 3), (2, 3), (2, 3), (2, 3), (2, 3), (0, 3), (2, 6), (5, 19), (7, 22), (7, 22),
  (9, 25), (19, 34), (13, 28), (9, 25), (7, 22), (7, 22), (13, 28), (8, 28), (10, 31), (28, 58), (0, 0), (2, 3),
  (4, 6), (6, 9), (8, 12), (10, 15), (12, 18), (14, 21), (16, 24), (18, 27), (1, 5), (4, 6), (6, 9), (8, 12),
  (10, 15), (12, 18), (14, 21), (16, 24), (18, 27), (17, 30), (9, 18), (9, 18), (9, 18), (9, 18), (5, 16), (7, 19),
  (7, 19), (9, 22), (11, 25), (7, 19), (9, 22), (9, 22), (11, 25), (13, 28), (7, 19), (11, 22), (9, 22), (17, 31),
  (19, 37), (7, 16), (20, 38), (20, 38), (22, 41), (14, 29), (14, 29), (14, 29), (16, 32), (12, 26), (16, 32), (2, 3),
  (4, 6), (4, 6), (5, 19), (7, 22), (7, 22), (4, 10), (8, 21), (10, 24), (4, 7), (8, 21), (1, 3), (5, 17),
  (11, 26), (3, 6), (1, 5), (1, 3), (1, 3), (1, 3), (1, 13), (1, 3), (12, 60), (17, 85), (5, 19), (2, 8),
  (2, 14), (1, 3), (2, 10), (7, 29), (7, 31), (7, 35), (7, 27), (2, 12), (5, 17), (4, 12), (1, 3), (1, 3),
  (14, 55), (10, 39), (23, 93), (1, 3), (1, 7), (9, 39), (1, 3), (1, 5), (5, 17), (1, 3), (1, 5), (5, 17),
  (11, 26), (7, 20), (7, 20), (7, 20), (2, 6), (1, 3), (5, 17), (1, 3), (1, 3), (3, 6), (7, 20), (2, 6),
  (1, 3), (5, 17), (1, 3), (1, 3), (3, 6), (7, 20), (3, 6), (7, 20), (3, 6), (7, 20), (3, 6), (7, 20),
  (3, 6), (7, 20), (1, 3), (1, 3), (1, 3), (14, 55), (5, 17), (11, 26), (3, 6), (1, 5), (1, 3), (1, 3),
  (1, 3), (1, 3), (1, 3), (1, 3), (1, 3), (8, 32), (9, 39), (4, 16), (2, 8), (5, 19), (2, 10), (1, 3),
  (1, 3), (1, 3), (1, 3), (2, 10), (1, 3), (10, 41), (15, 50), (14, 55), (1, 3), (5, 17), (1, 5), (14, 55),
  (11, 44), (10, 41), (10, 41), (5, 17), (11, 26), (3, 6), (1, 5), (1, 3), (1, 3), (1, 3), (1, 3), (1, 3),
  (1, 3), (1, 3), (1, 3), (1, 3), (1, 3), (1, 3), (1, 3), (1, 3), (1, 3), (3, 6), (7, 20), (2, 6),
  (1, 3), (5, 17), (1, 3), (1, 3), (7, 20), (7, 20), (7, 20), (7, 20), (7, 20), (1, 3), (10, 41), (15, 50),
  (14, 55), (5, 17), (11, 26), (3, 6), (1, 5), (1, 3), (1, 3), (1, 3), (1, 3), (1, 3), (1, 3), (1, 1),
  (5, 1), (1, 3), (1, 3), (1, 3), (1, 3), (14, 55), (1, 3), (5, 17), (11, 26), (3, 6), (1, 5), (1, 3),
  (1, 3), (1, 3), (1, 3), (1, 3), (1, 3), (1, 3), (5, 19), (5, 17), (1, 3), (1, 3), (1, 7), (1, 3),
  (1, 5), (7, 22), (11, 26), (14, 33), (1, 3), (1, 3), (1, 3), (1, 3), (10, 41), (15, 50), (14, 55), (5, 17),
  (11, 26), (3, 6), (1, 5), (1, 3), (1, 3), (1, 3), (1, 3), (1, 3), (1, 3), (1, 3), (1, 3), (1, 3),
  (1, 3), (1, 3), (1, 3), (1, 3), (2, 10), (1, 3), (10, 41), (15, 50), (14, 55), (1, 3), (10, 41), (15, 50),
  (14, 55), (14, 55), (16, 58), (10, 41), (10, 41), (15, 50), (5, 17), (11, 26), (3, 6), (1, 5), (1, 3), (1, 3),
  (1, 3), (1, 3), (1, 3), (1, 3), (1, 3), (1, 3), (1, 3), (5, 21), (5, 21), (5, 19), (5, 19), (1, 7),
  (1, 7), (1, 3), (1, 3), (1, 3), (1, 3), (1, 3), (2, 6), (7, 20), (5, 17), (8, 32), (8, 32), (8, 32),
  (25, 57), (1, 3), (1, 3), (6, 26), (11, 39), (8, 32), (8, 32), (8, 32), (37, 85), (1, 3), (1, 3), (1, 5),
  (6, 34), (8, 32), (2, 8), (1, 5), (7, 22), (7, 22), (21, 43), (13, 29), (1, 3), (5, 17), (1, 3), (1, 3),
  (2, 6), (5, 17), (1, 3), (1, 3), (2, 6), (1, 3), (1, 3), (1, 3), (2, 6), (1, 3), (5, 17), (1, 3),
  (2, 6), (1, 3), (5, 17), (1, 3), (1, 3), (1, 7), (5, 21), (5, 19), (7, 22), (2, 8), (1, 5), (1, 5),
  (1, 9), (1, 9), (1, 9), (1, 3), (1, 3), (1, 3), (5, 17), (11, 26), (3, 6), (1, 5), (1, 3), (1, 3),
  (1, 3), (1, 3), (1, 3), (1, 3), (14, 55), (5, 17), (11, 26), (3, 6), (1, 5), (1, 3), (1, 3), (1, 3),
  (1, 3), (1, 3), (1, 3), (1, 3), (1, 3), (1, 3), (1, 3), (1, 3), (1, 3), (1, 3)]

theorem table_errs : errFrom rowErrs table rowErrs = true := by decide +kernel

/-- The largest numbers among the units, and among all rows. -/
theorem errs_units : (rowErrs.take nUnits).all (fun t => Nat.ble (t.1 + t.2) 86) = true := by decide +kernel

theorem errs_all : rowErrs.all (fun t => Nat.ble (t.1 + t.2) 122) = true := by decide +kernel

end PQ.Shipped
