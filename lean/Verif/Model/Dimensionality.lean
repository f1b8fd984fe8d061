import Verif.Model.Py
import Verif.Model.Dict
import Mathlib.Data.Rat.Defs
import Mathlib.Data.Int.GCD
import Mathlib.Algebra.Order.Ring.Rat
import Mathlib.Algebra.Order.Group.Unbundled.Abs
import Mathlib.Algebra.Order.Group.Abs

/-!
# `quantities/dimensionality.py`, class `Dimensionality`

A `Dimensionality` is a `dict` from unit objects to exponents.

Simplifications.
* Exponents are exact rationals (Python: `int`, `float`, or numpy scalars).
* A unit object used as a dict key is represented by the pair (class, name) which is what
  `UnitQuantity.__hash__` hashes (`unitquantity.py` 85-86).  Python additionally compares the two
  units with `==` when the hashes agree, which for two units of the same class and name is always
  true (see `Model/World.lean`, `construct`).
-/

namespace PQ

/-- The concrete unit classes of `quantities/unitquantity.py` (lines 23, 326-371, 409, 444). -/
inductive UClass
  | unitQuantity
  | mass | length | time | current | luminousIntensity | substance | temperature | information
  | currency
  | compound
  | dimensionless
  | constant
  deriving DecidableEq, Repr

/-- `issubclass(cls, IrreducibleUnit)` (`unitquantity.py` 326-368). -/
def UClass.irreducible : UClass → Bool
  | .mass | .length | .time | .current | .luminousIntensity | .substance | .temperature
  | .information | .currency => true
  | _ => false

/-- `cls._primary_order` (`unitquantity.py` 25, 328-368, 373, 411, 446). -/
def UClass.primaryOrder : UClass → Nat
  | .unitQuantity => 90
  | .mass => 1 | .length => 2 | .time => 3 | .current => 4 | .luminousIntensity => 5
  | .substance => 6 | .temperature => 7 | .information => 8 | .currency => 9
  | .compound => 99
  | .dimensionless => 100
  | .constant => 0

/-- Identity of a unit as a dict key: `hash((type(self), self._name))`, `unitquantity.py` 85-86. -/
structure UKey where
  cls : UClass
  name : String
  deriving DecidableEq, Repr

/-- A `Dimensionality` (`dimensionality.py` 24): a dict from units to exponents. -/
abbrev Dim := Dict UKey ℚ

/-! ## Python hashing -/

/-- `sys.hash_info.modulus` on 64-bit CPython. -/
def pyHashModulus : Nat := 2 ^ 61 - 1

/-- CPython's numeric hash of the rational number `q` (the rule that makes `int`, `float` and numpy
scalars of equal value hash equally; Python library reference, "Hashing of numeric types"):
`|num| * den⁻¹ mod (2^61-1)`, negated for negative numbers, `-1` replaced by `-2`, and
`hash(inf) = 314159` when the denominator is a multiple of the modulus.
The modular inverse is written with Bézout coefficients instead of `pow(n, P-2, P)`. -/
def pyHashNum (q : ℚ) : Int :=
  let a : Int :=
    if q.den % pyHashModulus = 0 then 314159
    else ((q.num.natAbs : Int) * (Nat.gcdA q.den pyHashModulus)) % (pyHashModulus : Int)
  let s : Int := if q.num < 0 then -a else a
  if s = -1 then -2 else s

/-- What the interpreter's randomised hashing provides: the hash of a unit object and the hash of a
2-tuple as a function of the hashes of its components (CPython `tuplehash`), plus
`hash(unit_registry['dimensionless'])`.  Nothing is assumed about these functions. -/
structure Hasher where
  base : BitVec 64
  key : UKey → Int
  pair : Int → Int → BitVec 64

/-- `dimensionality.py` 62-66: the exponent as hashed: `val -= 1` for negative values. -/
def hashedExponent (val : ℚ) : ℚ := if val < 0 then val - 1 else val

/-- `hash((key, val))` in `dimensionality.py` 66. -/
def Hasher.item (H : Hasher) (u : UKey) (val : ℚ) : BitVec 64 :=
  H.pair (H.key u) (pyHashNum val)

/-- `sorted(self.keys(), key=attrgetter('format_order'))` (`dimensionality.py` 61): a stable sort
by the pair (primary, secondary), compared lexicographically. -/
def orderLE (a b : Nat × Nat) : Bool := a.1 < b.1 || (a.1 == b.1 && a.2 ≤ b.2)

namespace Dim

/-- The items of `d` in `format_order`. -/
def sortedItems (ord : UKey → Nat × Nat) (d : Dim) : List (UKey × ℚ) :=
  d.mergeSort (fun a b => orderLE (ord a.1) (ord b.1))

/-- The value returned by `Dimensionality.__hash__` (`dimensionality.py` 59-67). -/
def rawHash (H : Hasher) (ord : UKey → Nat × Nat) (d : Dim) : BitVec 64 :=
  (sortedItems ord d).foldl (fun res kv => res ^^^ H.item kv.1 (hashedExponent kv.2)) H.base

/-- Builtin `hash(d)`: CPython replaces a returned `-1` by `-2`. -/
def hash (H : Hasher) (ord : UKey → Nat × Nat) (d : Dim) : BitVec 64 :=
  let r := rawHash H ord d
  if r = -1#64 then -2#64 else r

/-- `Dimensionality.__eq__` (`dimensionality.py` 197-198): compares hashes only. -/
def eq (H : Hasher) (ord : UKey → Nat × Nat) (a b : Dim) : Bool := hash H ord a == hash H ord b

/-- `Dimensionality.__ne__` (`dimensionality.py` 200-201). -/
def ne (H : Hasher) (ord : UKey → Nat × Nat) (a b : Dim) : Bool := hash H ord a != hash H ord b

/-- One iteration of the loop of `__mul__`/`__imul__` (`dimensionality.py` 120-126 / 131-137). -/
def mulStep (new : Dim) (kv : UKey × ℚ) : Dim :=
  match Dict.get? new kv.1 with
  | some e =>
      let new := Dict.set new kv.1 (e + kv.2)
      if e + kv.2 = 0 then Dict.pop new kv.1 else new
  | none => Dict.set new kv.1 kv.2

/-- `Dimensionality.__mul__` (`dimensionality.py` 117-127). -/
def mul (self other : Dim) : Dim := other.foldl mulStep self

/-- One iteration of the loop of `__truediv__`/`__itruediv__` (`dimensionality.py` 143-149 /
154-160). -/
def divStep (new : Dim) (kv : UKey × ℚ) : Dim :=
  match Dict.get? new kv.1 with
  | some e =>
      let new := Dict.set new kv.1 (e - kv.2)
      if e - kv.2 = 0 then Dict.pop new kv.1 else new
  | none => Dict.set new kv.1 (-kv.2)

/-- `Dimensionality.__truediv__` (`dimensionality.py` 140-150). -/
def div (self other : Dim) : Dim := other.foldl divStep self

/-- `Dimensionality.__pow__` for a scalar exponent (`dimensionality.py` 163-173).  A non-scalar
exponent raises `TypeError`; that branch is `powArg`. -/
def pow (self : Dim) (p : ℚ) : Dim :=
  if p = 0 then [] else self.map (fun kv => (kv.1, kv.2 * p))

/-- The argument of a dunder method: a `Dimensionality`, a scalar, or anything else. -/
inductive Arg
  | dim (d : Dim)
  | scalar (p : ℚ)
  | other

/-- `Dimensionality.__add__`/`__radd__` (`dimensionality.py` 69-80, with `assert_isinstance`, `dimensionality.py` 15-21). -/
def add (H : Hasher) (ord : UKey → Nat × Nat) (self : Dim) : Arg → Py Dim
  | .dim other => if eq H ord self other then .ok self else .error .valueError
  | _ => .error .typeError

/-- `Dimensionality.__sub__`/`__rsub__` (`dimensionality.py` 93-104). -/
def sub (H : Hasher) (ord : UKey → Nat × Nat) (self : Dim) : Arg → Py Dim
  | .dim other => if eq H ord self other then .ok self else .error .valueError
  | _ => .error .typeError

/-- `Dimensionality.__mul__` with its argument check (`dimensionality.py` 118). -/
def mulArg (self : Dim) : Arg → Py Dim
  | .dim other => .ok (mul self other)
  | _ => .error .typeError

/-- `Dimensionality.__truediv__` with its argument check (`dimensionality.py` 141). -/
def divArg (self : Dim) : Arg → Py Dim
  | .dim other => .ok (div self other)
  | _ => .error .typeError

/-- `Dimensionality.__pow__` with its argument check (`dimensionality.py` 164-167). -/
def powArg (self : Dim) : Arg → Py Dim
  | .scalar p => .ok (pow self p)
  | _ => .error .typeError

/-! ### In-place operators

The in-place operators mutate `self`.  When `other` is a different object the loop reads `other`
unchanged, so the new contents of `self` are a fold exactly as above.  When `other is self`
(`d *= d`, `d /= d`) the loop iterates over the dict it is mutating, and CPython's dict iterator
raises `RuntimeError` as soon as it is resumed after a size change. -/

/-- New contents of `self` after `self *= other`, `other` a different object
(`dimensionality.py` 129-138). -/
def imul (self other : Dim) : Dim := other.foldl mulStep self

/-- New contents of `self` after `self /= other`, `other` a different object
(`dimensionality.py` 152-161). -/
def itruediv (self other : Dim) : Dim := other.foldl divStep self

/-- New contents of `self` after `self **= p` (`dimensionality.py` 175-185). -/
def ipow (self : Dim) (p : ℚ) : Dim :=
  if p = 0 then [] else self.map (fun kv => (kv.1, kv.2 * p))

/-- Iterating over `d.items()` while `step` mutates `d` itself: `size0` is the size recorded when
the iterator was created, `i` the position of the next entry.  Resuming the iterator after the size
changed raises `RuntimeError` (CPython `dictiter_iternextitem`). Returns the exception, if any, and
the contents of the dict at the end. -/
def liveLoop (step : Dim → UKey × ℚ → Dim) (size0 : Nat) : Nat → Nat → Dim → Option PyErr × Dim
  | 0, _, d => (if d.length = size0 then none else some .runtimeError, d)
  | fuel + 1, i, d =>
    if d.length = size0 then
      match d[i]? with
      | none => (none, d)
      | some kv => liveLoop step size0 fuel (i + 1) (step d kv)
    else (some .runtimeError, d)

/-- `d *= d` (`dimensionality.py` 129-138 with `other is self`). -/
def imulSelf (d : Dim) : Option PyErr × Dim := liveLoop mulStep d.length d.length 0 d

/-- `d /= d` (`dimensionality.py` 152-161 with `other is self`). -/
def itruedivSelf (d : Dim) : Option PyErr × Dim := liveLoop divStep d.length d.length 0 d

/-- `Dimensionality.copy` (`dimensionality.py` 217-218). -/
def copy (d : Dim) : Dim := d

/-- `sum(abs(i) for i in self.values())`, the body of `ndims` (`dimensionality.py` 31) applied to an
already simplified dimensionality. -/
def absSum (d : Dim) : ℚ := (d.map (fun kv => |kv.2|)).sum

end Dim
end PQ
