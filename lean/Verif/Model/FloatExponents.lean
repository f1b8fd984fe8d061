import Verif.Model.Dimensionality
import Mathlib.Data.Int.Log
import Mathlib.Data.Rat.Floor

/-!
# Exponents as Python numbers

`Model/Dimensionality.lean` takes exponents to be exact rationals.  In the code an exponent is a Python
number: an `int` (exact, of any size) or a `float` (an IEEE double; `numpy.float64` behaves alike), and
`dimensionality.py` 121, 132, 144, 155, 172, 184 compute with them by `+=`, `-=` and `*=`.  This file models the unit
algebra again with such numbers.

Simplifications.  A `float` is a finite number: there is no upper bound on its size, so overflow
to `inf` and `OverflowError` do not occur, and there are no NaNs; the two zeros are not told apart
(`-0.0 == 0` and both have the same hash).  Underflow is modelled.  Fixed-width numpy integers are not modelled.
-/

namespace PQ

/-- The integer nearest to `x`, of two equally near ones the even one (IEEE 754 roundTiesToEven, the
rounding of Python's `float` operations; called from `dimensionality.py` 121, 144, 172). -/
def roundHalfEven (x : ℚ) : ℤ :=
  if x - ⌊x⌋ < 1 / 2 then ⌊x⌋
  else if 1 / 2 < x - ⌊x⌋ then ⌊x⌋ + 1
  else if ⌊x⌋ % 2 = 0 then ⌊x⌋ else ⌊x⌋ + 1

/-- The exponent of the last place of a double near `x`: 53 binary digits, but nothing below `2^-1074`
(`float` arithmetic in `dimensionality.py` 121, 144, 172). -/
def lastPlace (x : ℚ) : ℤ := max (Int.log 2 |x| - 52) (-1074)

/-- The result of a `float` operation whose exact value is `x` (`dimensionality.py` 121, 144, 172). -/
def toDouble (x : ℚ) : ℚ := (roundHalfEven (x / 2 ^ lastPlace x) : ℚ) * 2 ^ lastPlace x

/-- A Python number used as an exponent (`dimensionality.py` 121, 144, 172). -/
inductive PyExp
  | int (n : ℤ)
  | flt (x : ℚ)
  deriving DecidableEq, Repr

namespace PyExp

/-- The number itself. -/
def val : PyExp → ℚ
  | int n => n
  | flt x => x

/-- `float(x)`, applied to an `int` that meets a `float` in an operation (`dimensionality.py` 121, 144, 172). -/
def toFloat : PyExp → ℚ
  | int n => toDouble n
  | flt x => x

/-- `x + y` (`dimensionality.py` 121). -/
def add : PyExp → PyExp → PyExp
  | int a, int b => int (a + b)
  | a, b => flt (toDouble (a.toFloat + b.toFloat))

/-- `x - y` (`dimensionality.py` 65, 144). -/
def sub : PyExp → PyExp → PyExp
  | int a, int b => int (a - b)
  | a, b => flt (toDouble (a.toFloat - b.toFloat))

/-- `x * y` (`dimensionality.py` 172). -/
def mul : PyExp → PyExp → PyExp
  | int a, int b => int (a * b)
  | a, b => flt (toDouble (a.toFloat * b.toFloat))

/-- `-x` (`dimensionality.py` 149). -/
def neg : PyExp → PyExp
  | int a => int (-a)
  | flt x => flt (-x)

end PyExp

/-- A `Dimensionality` whose exponents are Python numbers (`dimensionality.py` 24). -/
abbrev NDim := Dict UKey PyExp

namespace NDim

/-- One iteration of the loop of `__mul__` (`dimensionality.py` 120-126). -/
def mulStep (new : NDim) (kv : UKey × PyExp) : NDim :=
  match Dict.get? new kv.1 with
  | some e =>
      let new := Dict.set new kv.1 (e.add kv.2)
      if (e.add kv.2).val = 0 then Dict.pop new kv.1 else new
  | none => Dict.set new kv.1 kv.2

/-- `Dimensionality.__mul__` (`dimensionality.py` 117-127). -/
def mul (self other : NDim) : NDim := other.foldl mulStep self

/-- One iteration of the loop of `__truediv__` (`dimensionality.py` 143-149). -/
def divStep (new : NDim) (kv : UKey × PyExp) : NDim :=
  match Dict.get? new kv.1 with
  | some e =>
      let new := Dict.set new kv.1 (e.sub kv.2)
      if (e.sub kv.2).val = 0 then Dict.pop new kv.1 else new
  | none => Dict.set new kv.1 kv.2.neg

/-- `Dimensionality.__truediv__` (`dimensionality.py` 140-150). -/
def div (self other : NDim) : NDim := other.foldl divStep self

/-- `Dimensionality.__pow__` for a scalar exponent (`dimensionality.py` 163-173): there is no test for
exponents that become zero. -/
def pow (self : NDim) (p : PyExp) : NDim :=
  if p.val = 0 then [] else self.map (fun kv => (kv.1, kv.2.mul p))

/-- The exponent as hashed, `dimensionality.py` 62-66: `val -= 1` for negative values, in the arithmetic
of the number. -/
def hashed (v : PyExp) : PyExp := if v.val < 0 then v.sub (.int 1) else v

/-- `Dimensionality.__hash__` (`dimensionality.py` 59-67), with CPython's replacement of a returned `-1`
by `-2`; an `int` and a `float` of the same value hash alike. -/
def hash (H : Hasher) (ord : UKey → Nat × Nat) (d : NDim) : BitVec 64 :=
  let r := (d.mergeSort (fun a b => orderLE (ord a.1) (ord b.1))).foldl
    (fun res kv => res ^^^ H.item kv.1 (hashed kv.2).val) H.base
  if r = -1#64 then -2#64 else r

/-- `Dimensionality.__eq__` (`dimensionality.py` 197-198). -/
def eq (H : Hasher) (ord : UKey → Nat × Nat) (a b : NDim) : Bool := hash H ord a == hash H ord b

/-- `Dimensionality.__add__` with a `Dimensionality` (`dimensionality.py` 69-78). -/
def add (H : Hasher) (ord : UKey → Nat × Nat) (a b : NDim) : Py NDim :=
  if eq H ord a b then .ok a else .error .valueError

/-- The dimensionality with its exponents as exact numbers: what `Model/Dimensionality.lean` works on. -/
def exact (d : NDim) : Dim := d.map (fun kv => (kv.1, kv.2.val))

end NDim
end PQ
