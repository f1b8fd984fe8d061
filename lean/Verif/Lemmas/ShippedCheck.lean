import Verif.Model.ShippedTable
import Verif.Lemmas.Shipped

/-!
# The table passes the checks

Each check is a computation on the whole table, done by the kernel.
-/

namespace PQ.Shipped

open World Dict

/-- The labels of a row. -/
def Row.labels (r : Row) : List String :=
  match r.cls with
  | .compound | .constant => []
  | .dimensionless => [r.name]
  | _ => r.name :: (match r.symbol with | some s => s :: r.aliases | none => r.aliases)

/-- Number of a class. -/
def classNo : UClass → Nat
  | .unitQuantity => 0 | .mass => 1 | .length => 2 | .time => 3 | .current => 4 | .luminousIntensity => 5
  | .substance => 6 | .temperature => 7 | .information => 8 | .currency => 9 | .compound => 10
  | .dimensionless => 11 | .constant => 12

/-- Class with a number. -/
def classAt : Nat → UClass
  | 0 => .unitQuantity | 1 => .mass | 2 => .length | 3 => .time | 4 => .current | 5 => .luminousIntensity
  | 6 => .substance | 7 => .temperature | 8 => .information | 9 => .currency | 10 => .compound
  | 11 => .dimensionless | _ => .constant

/-- The key with these codes. -/
def decodeKey (k : Nat × List Nat) : UKey := ⟨classAt k.1, decodeStr k.2⟩

set_option maxRecDepth 100000

theorem labels_eq : table.flatMap Row.labels = labelCodes.map decodeStr := by rfl

theorem keys_eq : table.map Row.key = keyCodes.map decodeKey := by rfl

theorem labelCodes_valid :
    labelCodes.all (fun ns => ns.all (fun n => Nat.blt n 55296)) = true := by decide +kernel

theorem labelCodes_nonempty : labelCodes.all (fun ns => !ns.isEmpty) = true := by decide +kernel

theorem labelCodes_nodup : nodupQ 60 (labelCodes.map packNat) = true := by decide +kernel

theorem keyCodes_valid :
    keyCodes.all (fun k => Nat.blt k.1 13 && k.2.all (fun n => Nat.blt n 55296)) = true := by decide +kernel

theorem keyCodes_nodup : nodupQ 60 (keyCodes.map (fun k => packNat ((k.1 + 1) :: k.2))) = true := by
  decide +kernel

/-- References to rows before `n` only. -/
def Expr.refs (n : Nat) : Expr → Bool
  | .num _ _ => true
  | .pi => true
  | .unit i => Nat.blt i n
  | .mul a b => a.refs n && b.refs n
  | .div a b => a.refs n && b.refs n
  | .pow a _ _ => a.refs n
  | .add a b => a.refs n && b.refs n
  | .quantity _ _ u => u.refs n

/-- Built from positive numbers. -/
def Expr.positive : Expr → Bool
  | .num p q => decide (0 < p) && Nat.blt 0 q
  | .pi => true
  | .unit _ => true
  | .mul a b => a.positive && b.positive
  | .div a b => a.positive && b.positive
  | .pow a _ _ => a.positive
  | .add a b => a.positive && b.positive
  | .quantity p q _ => decide (0 < p) && Nat.blt 0 q

/-- A row with a positive value. -/
def Row.positive (r : Row) : Bool :=
  match r.definition with
  | none => true
  | some e => e.positive

/-- Each row refers to earlier rows only, and `Dimensionless` has no definition; rows are numbered
from `n`. -/
def refsFrom (bound : Nat) : Nat → List Row → Bool
  | _, [] => true
  | n, r :: rs =>
    (match r.definition with
      | none => true
      | some e => e.refs n && e.refs bound && !(decide (r.cls = .dimensionless))) && refsFrom bound (n + 1) rs

/-- Number of units (rows that are not constants). -/
def nUnits : Nat := 346

theorem unitTable_length : unitTable.length = nUnits := by decide +kernel

theorem table_refs : refsFrom nUnits 0 table = true := by decide +kernel

theorem units_positive : unitTable.all Row.positive = true := by decide +kernel

/-- The number of constants whose value is not positive. -/
theorem negative_count : (constTable.filter (fun r => !r.positive)).length = 31 := by decide +kernel

theorem const_class : constTable.all (fun r => decide (r.cls = .constant)) = true := by decide +kernel

/-! ## Exponents -/

/-- Twice the exponents of an expression in the base units, given those of the rows. -/
def Expr.expo (ds : List (List Int)) : Expr → Option (List Int)
  | .num _ _ => some (List.replicate 8 0)
  | .pi => some (List.replicate 8 0)
  | .unit i => ds[i]?
  | .mul a b => match a.expo ds, b.expo ds with
    | some x, some y => some (List.zipWith (· + ·) x y)
    | _, _ => none
  | .div a b => match a.expo ds, b.expo ds with
    | some x, some y => some (List.zipWith (· - ·) x y)
    | _, _ => none
  | .pow a n d => match a.expo ds with
    | some x => if Nat.blt 0 d && x.all (fun e => decide (e * n % d = 0)) then
        some (x.map (fun e => e * n / d)) else none
    | none => none
  | .add a b => match a.expo ds, b.expo ds with
    | some x, some y => if x = y then some x else none
    | _, _ => none
  | .quantity _ _ u => u.expo ds

/-- Row `n`, `n + 1`, ... have the exponents listed. -/
def expoFrom (ds : List (List Int)) : Nat → List Row → List (List Int) → Bool
  | _, [], [] => true
  | n, r :: rs, x :: xs =>
    decide (x.length = 8) &&
    (match r.definition with
      | none =>
        if r.cls = .dimensionless then decide (x = List.replicate 8 0)
        else decide (n ∈ baseRows) && decide (x = baseRows.map (fun j => if j = n then 2 else 0))
      | some e => decide (e.expo ds = some x)) && expoFrom ds (n + 1) rs xs
  | _, _, _ => false

theorem table_expo : expoFrom dims 0 table dims = true := by decide +kernel

/-- Class of the base unit in each column. -/
def baseClasses : List UClass := [.time, .length, .substance, .mass, .current, .luminousIntensity, .temperature, .information]

/-- Row of `statampere`. -/
def statampereRow : Nat := 193

/-- Base-class rows have the dimension of their class. -/
def classFrom : Nat → List Row → List (List Int) → Bool
  | _, [], [] => true
  | n, r :: rs, x :: xs =>
    (!r.cls.irreducible || Nat.beq n statampereRow || decide (x = baseClasses.map (fun c => if c = r.cls then 2 else 0)))
      && classFrom (n + 1) rs xs
  | _, _, _ => false

theorem table_class : classFrom 0 table dims = true := by decide +kernel

end PQ.Shipped
