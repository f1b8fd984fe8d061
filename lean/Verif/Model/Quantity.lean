import Verif.Model.World

/-!
# `quantities/quantity.py`: class `Quantity`, and `p_dict` of `quantities/dimensionality.py`

Value semantics: here a `Quantity` is its magnitude array and its dimensionality.  Memory sharing
(views, in-place operations seen through aliases) is modelled in `Model/Heap.lean`; `dtype`s in
`Model/DType.lean`.  Numbers are exact (see `Model/World.lean`); nan/inf and rounding are not
modelled.
-/

namespace PQ

/-- A `Quantity` (`quantity.py` 113): magnitude and dimensionality. -/
structure Quantity (K : Type _) where
  mag : NDArr K
  dim : Dim

/-- An operand of an arithmetic operator: a `Quantity` (unit objects are quantities of magnitude 1)
or a plain number/array. -/
inductive Operand (K : Type _)
  | quantity (q : Quantity K)
  | array (a : NDArr K)

/-- Exponent of `**`: values and, if it is a `Quantity`, its dimensionality.  Exponents live in the
exact rationals like the exponents stored in a `Dimensionality`. -/
structure ExpArg where
  vals : NDArr ℚ
  dim : Option Dim

/-- `np.floor` on magnitudes. -/
class PyFloor (K : Type _) where
  pfloor : K → K

export PyFloor (pfloor)

/-- `np.floor_divide` on one pair of numbers. -/
def floorDivK {K : Type _} [Div K] [PyFloor K] (a b : K) : K := pfloor (a / b)

/-- `np.remainder` on one pair of numbers. -/
def modK {K : Type _} [Div K] [Mul K] [Sub K] [PyFloor K] (a b : K) : K := a - b * pfloor (a / b)

variable {K : Type _}

namespace Operand

/-- The magnitude array of an operand. -/
def arr : Operand K → NDArr K
  | quantity q => q.mag
  | array a => a

/-- `np.asanyarray(other)`, viewed as a `Quantity` if it is not one (`quantity.py` 59-61): a plain
array becomes dimensionless (`__array_finalize__`, 294-295). -/
def toQuantity : Operand K → Quantity K
  | quantity q => q
  | array a => ⟨a, []⟩

end Operand

/-- `np.asarray(x).any()`. -/
def NDArr.anyNonzero [Zero K] [DecidableEq K] (a : NDArr K) : Bool :=
  a.toList.any (fun x => decide (x ≠ 0))

/-! ## `p_dict`: the dimensionality of a ufunc's result -/

/-- `_d_multiply` (`dimensionality.py` 223-230). -/
def dMultiply : Operand K → Operand K → Py Dim
  | .quantity q1, .quantity q2 => .ok (Dim.mul q1.dim q2.dim)
  | .quantity q1, .array _ => .ok q1.dim
  | .array _, .quantity q2 => .ok q2.dim
  | .array _, .array _ => .error .attributeError

/-- `_d_divide` (`dimensionality.py` 234-241). -/
def dDivide : Operand K → Operand K → Py Dim
  | .quantity q1, .quantity q2 => .ok (Dim.div q1.dim q2.dim)
  | .quantity q1, .array _ => .ok q1.dim
  | .array _, .quantity q2 => .ok (Dim.pow q2.dim (-1))
  | .array _, .array _ => .error .attributeError

/-- `_d_check_uniform` (`dimensionality.py` 246-273).  When one operand is not a quantity and the
check fails, building the message evaluates `.units` of the non-quantity, so the exception that
reaches the caller is `AttributeError`, not the intended `ValueError` (lines 269-273). -/
def dCheckUniform [Zero K] [DecidableEq K] (w : World K) : Operand K → Operand K → Py Dim
  | .quantity q1, .quantity q2 => if w.deq q1.dim q2.dim then .ok q1.dim else .error .valueError
  | .quantity q1, .array a =>
      if q1.dim.isEmpty || !a.anyNonzero then .ok q1.dim else .error .attributeError
  | .array a, .quantity q2 =>
      if q2.dim.isEmpty || !a.anyNonzero then .ok q2.dim else .error .attributeError
  | .array _, .array _ => .error .typeError

/-- `_d_arctan2` (`dimensionality.py` 290-298). -/
def dArctan2 (w : World K) : Operand K → Operand K → Py Dim
  | .quantity q1, .quantity q2 => if w.deq q1.dim q2.dim then .ok [] else .error .valueError
  | _, _ => .error .attributeError

/-- The common value of a non-empty exponent array, `min() == max()`; both raise `ValueError` on an
empty array. -/
def uniformExp (e : NDArr ℚ) : Py ℚ :=
  match e.toList with
  | [] => .error .valueError
  | p :: ps => if ps.all (fun x => decide (x = p)) then .ok p else .error .valueError

/-- `bool(getattr(x, 'dimensionality', None))`. -/
def hasDims (d : Option Dim) : Bool :=
  match d with
  | some d => !d.isEmpty
  | none => false

/-- `_d_power` (`dimensionality.py` 302-312).  The uniformity test comes before the base is
inspected. -/
def dPower (q1 : Operand K) (e : ExpArg) : Py Dim :=
  if hasDims e.dim then .error .valueError
  else
    match uniformExp e.vals with
    | .error err => .error err
    | .ok p =>
      match q1 with
      | .quantity q => .ok (Dim.pow q.dim p)
      | .array _ => .ok []

/-- `_d_dimensionless` (`dimensionality.py` 367-370). -/
def dDimensionless : Operand K → Py Dim
  | .quantity q => if q.dim.isEmpty then .ok [] else .error .valueError
  | .array _ => .ok []

/-- `unit_registry['...'].dimensionality` for a label that is itself a unit name. -/
def World.labelDim (w : World K) (label : String) : Py Dim :=
  match Dict.get? w.registry label with
  | some u => .ok (unitDim u)
  | none => .error .lookupError

section eqUnits
variable [One K] [Mul K] [Div K] [RPow K] [DecidableEq K]

/-- `q1.units == unit_registry[label]` (`dimensionality.py` 349, 359, 383).  The unit's class is a
subclass of `Quantity`, so its reflected `__eq__` runs: the left operand is rescaled. -/
def World.unitsEqLabel (w : World K) (q : Quantity K) (label : String) : Py Bool :=
  match w.labelDim label with
  | .ok d => .ok (w.eqS ⟨1, d⟩ ⟨1, q.dim⟩)
  | .error e => .error e

/-- `_d_radians`, `_d_degrees` (`dimensionality.py` 347-364): `expected` are the required units,
`result` the label of the result's units. -/
def dAngle (w : World K) (expected result : String) : Operand K → Py Dim
  | .quantity q =>
    match w.unitsEqLabel q expected with
    | .ok true => w.labelDim result
    | .ok false => .error .valueError
    | .error e => .error e
  | .array _ => .error .attributeError

/-- `_d_trig` (`dimensionality.py` 381-388). -/
def dTrig (w : World K) : Operand K → Py Dim
  | .quantity q =>
    match w.unitsEqLabel q "radian" with
    | .ok true => .ok []
    | .ok false => .error .valueError
    | .error e => .error e
  | .array _ => .error .attributeError

end eqUnits

/-- `_d_arctrig` (`dimensionality.py` 396-399). -/
def dArctrig (w : World K) : Operand K → Py Dim
  | .quantity q => if q.dim.isEmpty then w.labelDim "radian" else .error .valueError
  | .array _ => w.labelDim "radian"

/-- Unary ufuncs, grouped by their `p_dict` entry. -/
inductive UF1
  | square | reciprocal | sqrt
  | fabs | absolute | conjugate | negative | onesLike | rint | floor | fix | ceil
  | radians | degrees
  | log | log10 | log2 | log1p | exp | exp2 | expm1
  | sin | sinh | cos | cosh | tan | tanh
  | arcsin | arcsinh | arccos | arccosh | arctan | arctanh
  | isnan | isinf | isfinite
  | other
  deriving DecidableEq

/-- Binary ufuncs, grouped by their `p_dict` entry (`power` is separate: `dPower`). -/
inductive UF2
  | multiply | cross | divide | trueDivide | floorDivide
  | add | subtract | mod | fmod | remainder | hypot
  | equal | notEqual | less | lessEqual | greater | greaterEqual | maximum | minimum
  | arctan2
  | logaddexp | logaddexp2
  | other
  deriving DecidableEq

/-- What `__array_prepare__` does with the result of a ufunc: leave the plain array alone, or attach
units. -/
inductive Wrapped
  | plain
  | units (d : Dim)

/-- `__array_prepare__` for unary ufuncs (`quantity.py` 306-318) with the `p_dict` table
(`dimensionality.py` 315-405). -/
def ufunc1Dim [One K] [Mul K] [Div K] [RPow K] [DecidableEq K] (w : World K) (f : UF1)
    (x : Operand K) : Py Wrapped :=
  let qdim (k : Dim → Dim) : Py Wrapped :=
    match x with
    | .quantity q => .ok (.units (k q.dim))
    | .array _ => .error .attributeError
  match f with
  | .isnan | .isinf | .isfinite => .ok .plain
  | .square => qdim (Dim.pow · 2)
  | .reciprocal => qdim (Dim.pow · (-1))
  | .sqrt => qdim (Dim.pow · (1/2))
  | .fabs | .absolute | .conjugate | .negative | .onesLike | .rint | .floor | .fix | .ceil =>
      qdim id
  | .radians => (dAngle w "degree" "radian" x).map .units
  | .degrees => (dAngle w "radian" "degree" x).map .units
  | .log | .log10 | .log2 | .log1p | .exp | .exp2 | .expm1 => (dDimensionless x).map .units
  | .sin | .sinh | .cos | .cosh | .tan | .tanh => (dTrig w x).map .units
  | .arcsin | .arcsinh | .arccos | .arccosh | .arctan | .arctanh => (dArctrig w x).map .units
  | .other => .error .valueError

/-- `__array_prepare__` for binary ufuncs (`quantity.py` 306-318) with the `p_dict` table
(`dimensionality.py` 231-300, 378-379).  For `logaddexp` the second operand lands in the unused
parameter `out` of `_d_dimensionless`. -/
def ufunc2Dim [Zero K] [DecidableEq K] (w : World K) (f : UF2) (x y : Operand K) : Py Dim :=
  match f with
  | .multiply | .cross => dMultiply x y
  | .divide | .trueDivide | .floorDivide => dDivide x y
  | .add | .subtract | .mod | .fmod | .remainder | .hypot
  | .equal | .notEqual | .less | .lessEqual | .greater | .greaterEqual | .maximum | .minimum =>
      dCheckUniform w x y
  | .arctan2 => dArctan2 w x y
  | .logaddexp | .logaddexp2 => dDimensionless x
  | .other => .error .valueError

/-- A binary ufunc applied to at least one quantity, giving a quantity: numpy computes the elements
with broadcasting, `__array_prepare__` attaches the dimensionality. -/
def applyUF2 [Zero K] [DecidableEq K] (w : World K) (f : UF2) (g : K → K → K) (x y : Operand K) :
    Py (Quantity K) :=
  match ufunc2Dim w f x y with
  | .error e => .error e
  | .ok d =>
    match NDArr.bin g x.arr y.arr with
    | .error e => .error e
    | .ok m => .ok ⟨m, d⟩

/-- A unary ufunc applied to a quantity, for the ufuncs whose result is a quantity. -/
def applyUF1 [One K] [Mul K] [Div K] [RPow K] [DecidableEq K] (w : World K) (f : UF1) (g : K → K)
    (x : Quantity K) : Py (Quantity K) :=
  match ufunc1Dim w f (.quantity x) with
  | .error e => .error e
  | .ok .plain => .error .typeError
  | .ok (.units d) => .ok ⟨x.mag.map g, d⟩

namespace Quantity

/-- `1.0` in the units of `self` (`Quantity.units`, `quantity.py` 183-185). -/
def units [One K] (q : Quantity K) : Quantity K := ⟨NDArr.scalar 1, q.dim⟩

/-- A unit object seen as a `Quantity` (`unit.view(Quantity)`). -/
def ofUnit [One K] (u : UKey) : Quantity K := ⟨NDArr.scalar 1, unitDim u⟩

section conv
variable [One K] [Mul K] [Div K] [RPow K]

/-- `Quantity._reference` (`quantity.py` 138-144). -/
def reference (w : World K) (q : Quantity K) : Quantity K :=
  let rq := w.refUnits q.dim
  ⟨q.mag.map (fun x => rq.mag * x), rq.dim⟩

/-- `Quantity.rescale` after `validate_dimensionality` (`quantity.py` 223-241).  With equal
dimensionalities the magnitude is untouched (`astype`), otherwise every element is multiplied by the
conversion factor and the result carries the requested dimensionality. -/
def rescale (w : World K) (q : Quantity K) (toD : Dim) : Py (Quantity K) :=
  if w.deq q.dim toD then .ok q
  else
    match w.convFactor q.dim toD with
    | .ok cf => .ok ⟨q.mag.map (fun x => cf * x), toD⟩
    | .error .assertionError => .error .valueError
    | .error e => .error e

/-- The `units` setter on an array that owns its memory and is writeable (`quantity.py` 186-210):
the object's new state, or an exception and the unchanged object. -/
def setUnits (w : World K) (q : Quantity K) (toD : Dim) : Option PyErr × Quantity K :=
  if w.deq q.dim toD then (none, q)
  else
    match w.convFactor q.dim toD with
    | .ok cf => (none, ⟨q.mag.map (fun x => x * cf), toD⟩)
    | .error .assertionError => (some .valueError, q)
    | .error e => (some e, q)

/-- `scale_other_units` (`quantity.py` 56-65). -/
def scaleOther (w : World K) (self : Quantity K) (other : Operand K) : Py (Quantity K) :=
  let o := other.toQuantity
  if w.dne o.dim self.dim then o.rescale w self.dim else .ok o

variable [Zero K] [DecidableEq K]

/-- `Quantity.__add__` (`quantity.py` 336-339). -/
def add [Add K] (w : World K) (self : Quantity K) (other : Operand K) : Py (Quantity K) :=
  match scaleOther w self other with
  | .error e => .error e
  | .ok o => applyUF2 w .add (· + ·) (.quantity self) (.quantity o)

/-- `Quantity.__radd__` (`quantity.py` 341-344): `np.add(other, self)`. -/
def radd [Add K] (w : World K) (self : Quantity K) (other : Operand K) : Py (Quantity K) :=
  match scaleOther w self other with
  | .error e => .error e
  | .ok o => applyUF2 w .add (· + ·) (.quantity o) (.quantity self)

/-- `Quantity.__sub__` (`quantity.py` 352-355). -/
def sub [Sub K] (w : World K) (self : Quantity K) (other : Operand K) : Py (Quantity K) :=
  match scaleOther w self other with
  | .error e => .error e
  | .ok o => applyUF2 w .subtract (· - ·) (.quantity self) (.quantity o)

/-- `Quantity.__rsub__` (`quantity.py` 357-360): `np.subtract(other, self)`. -/
def rsub [Sub K] (w : World K) (self : Quantity K) (other : Operand K) : Py (Quantity K) :=
  match scaleOther w self other with
  | .error e => .error e
  | .ok o => applyUF2 w .subtract (· - ·) (.quantity o) (.quantity self)

/-- `Quantity.__mod__` (`quantity.py` 368-371). -/
def mod [Sub K] [PyFloor K] (w : World K) (self : Quantity K) (other : Operand K) :
    Py (Quantity K) :=
  match scaleOther w self other with
  | .error e => .error e
  | .ok o => applyUF2 w .remainder modK (.quantity self) (.quantity o)

/-- `Quantity.__mul__` (`np.ndarray.__mul__`). -/
def mul (w : World K) (self : Quantity K) (other : Operand K) : Py (Quantity K) :=
  applyUF2 w .multiply (· * ·) (.quantity self) other

/-- `Quantity.__rmul__` (`quantity.py` 383-385). -/
def rmul (w : World K) (self : Quantity K) (other : Operand K) : Py (Quantity K) :=
  applyUF2 w .multiply (· * ·) other (.quantity self)

/-- `Quantity.__truediv__` (`np.ndarray.__truediv__`). -/
def truediv (w : World K) (self : Quantity K) (other : Operand K) : Py (Quantity K) :=
  applyUF2 w .trueDivide (· / ·) (.quantity self) other

/-- `Quantity.__rtruediv__` (`quantity.py` 393-395). -/
def rtruediv (w : World K) (self : Quantity K) (other : Operand K) : Py (Quantity K) :=
  applyUF2 w .trueDivide (· / ·) other (.quantity self)

/-- `Quantity.__floordiv__` (`np.ndarray.__floordiv__`): no rescaling of the operands. -/
def floordiv [PyFloor K] (w : World K) (self : Quantity K) (other : Operand K) :
    Py (Quantity K) :=
  applyUF2 w .floorDivide floorDivK (.quantity self) other

omit [One K] [Mul K] [Div K] [Zero K] [DecidableEq K] in
/-- `Quantity.__pow__` (`quantity.py` 398-401): `check_uniform` (78-89) then `np.power`. -/
def pow (self : Quantity K) (e : ExpArg) : Py (Quantity K) :=
  if hasDims e.dim then .error .valueError
  else
    match uniformExp e.vals with
    | .error err => .error err
    | .ok _ =>
      match dPower (.quantity self) e with
      | .error err => .error err
      | .ok d =>
        match NDArr.bin (fun x p => rpow x p) self.mag e.vals with
        | .error err => .error err
        | .ok m => .ok ⟨m, d⟩

/-- `other ** self` (`np.ndarray.__rpow__`, also of a unit object, `unitquantity.py` 221-223; i.e. `np.power(other, self)`) where `self`, the
exponent, is a quantity. -/
def rpowOp (base : NDArr K) (e : ExpArg) : Py (Quantity K) :=
  match dPower (.array base) e with
  | .error err => .error err
  | .ok d =>
    match NDArr.bin (fun x p => rpow x p) base e.vals with
    | .error err => .error err
    | .ok m => .ok ⟨m, d⟩

/-- `-q` (`np.negative`). -/
def neg [Neg K] (w : World K) (q : Quantity K) : Py (Quantity K) := applyUF1 w .negative (- ·) q

/-! ### Comparisons -/

/-- `wrap_comparison` (`quantity.py` 102-110): the array that is compared with `self.magnitude`. -/
def wrapComparison (w : World K) (self : Quantity K) (other : Operand K) : Py (NDArr K) :=
  match other with
  | .array a => .ok a
  | .quantity o =>
    if w.dne o.dim self.dim then
      match o.rescale w self.dim with
      | .ok o' => .ok o'.mag
      | .error e => .error e
    else .ok o.mag

/-- `__lt__`, `__le__`, `__ge__`, `__gt__` (`quantity.py` 454-462, 482-490) for the comparison `r`
of two numbers. -/
def compare (r : K → K → Bool) (w : World K) (self : Quantity K) (other : Operand K) :
    Py (NDArr Bool) :=
  match wrapComparison w self other with
  | .error e => .error e
  | .ok m => NDArr.bin r self.mag m

/-- `Quantity.__lt__`. -/
def lt [LT K] [DecidableLT K] (w : World K) (self : Quantity K) (other : Operand K) :
    Py (NDArr Bool) := compare (fun a b => decide (a < b)) w self other

/-- `Quantity.__le__`. -/
def le [LE K] [DecidableLE K] (w : World K) (self : Quantity K) (other : Operand K) :
    Py (NDArr Bool) := compare (fun a b => decide (a ≤ b)) w self other

/-- `Quantity.__gt__`. -/
def gt [LT K] [DecidableLT K] (w : World K) (self : Quantity K) (other : Operand K) :
    Py (NDArr Bool) := compare (fun a b => decide (b < a)) w self other

/-- `Quantity.__ge__`. -/
def ge [LE K] [DecidableLE K] (w : World K) (self : Quantity K) (other : Operand K) :
    Py (NDArr Bool) := compare (fun a b => decide (b ≤ a)) w self other

/-- `Quantity.__eq__` (`quantity.py` 464-471): `rescale` raising `ValueError` gives an all-`False`
array of the shape of `self`. -/
def eq (w : World K) (self : Quantity K) (other : Operand K) : Py (NDArr Bool) :=
  match other with
  | .array a => NDArr.bin (fun x y => decide (x = y)) self.mag a
  | .quantity o =>
    match o.rescale w self.dim with
    | .ok o' => NDArr.bin (fun x y => decide (x = y)) self.mag o'.mag
    | .error .valueError => .ok ⟨self.mag.shape, fun _ => false⟩
    | .error e => .error e

/-- `Quantity.__ne__` (`quantity.py` 473-480). -/
def ne (w : World K) (self : Quantity K) (other : Operand K) : Py (NDArr Bool) :=
  match other with
  | .array a => NDArr.bin (fun x y => decide (x ≠ y)) self.mag a
  | .quantity o =>
    match o.rescale w self.dim with
    | .ok o' => NDArr.bin (fun x y => decide (x ≠ y)) self.mag o'.mag
    | .error .valueError => .ok ⟨self.mag.shape, fun _ => true⟩
    | .error e => .error e

end conv
end Quantity

/-! ## `simplified` -/

section simplified
variable [One K] [Mul K] [Div K] [RPow K]

mutual
/-- `unit.simplified` (`unitquantity.py` 114-116: `self._reference.simplified`; `IrreducibleUnit`
`unitquantity.py` 305-312: `self.view(Quantity).rescale(self.get_default_unit())`).  `fuel` is the interpreter's
recursion limit. A unit without definition that is not irreducible is its own reference, so the
property calls itself until the limit is hit. A class without default unit cannot have an instance;
`rescale(None)` would then look for a preferred unit and raise `Exception`. -/
def unitSimplified (w : World K) : Nat → UKey → Py (SQ K)
  | 0, _ => .error .recursionError
  | fuel + 1, u =>
    if u.cls.irreducible then
      match w.defaults u.cls with
      | some dflt => w.rescaleS ⟨1, unitDim u⟩ dflt
      | none => .error .exception
    else
      match w.convRef u with
      | none => unitSimplified w fuel u
      | some r => scalarSimplified w fuel r

/-- `Quantity.simplified` of a scalar (`quantity.py` 176-181). -/
def scalarSimplified (w : World K) : Nat → SQ K → Py (SQ K)
  | 0, _ => .error .recursionError
  | fuel + 1, q =>
    match simplifiedLoop w fuel ⟨1, []⟩ q.dim with
    | .ok rq => .ok ⟨rq.mag * q.mag, rq.dim⟩
    | .error e => .error e

/-- The loop `rq = rq * u.simplified**d` (`quantity.py` 179-180). -/
def simplifiedLoop (w : World K) : Nat → SQ K → List (UKey × ℚ) → Py (SQ K)
  | _, rq, [] => .ok rq
  | fuel, rq, (u, d) :: rest =>
    match unitSimplified w fuel u with
    | .error e => .error e
    | .ok s =>
      simplifiedLoop w fuel ⟨rq.mag * rpow s.mag d, Dim.mul rq.dim (Dim.pow s.dim d)⟩ rest
end

/-- `Quantity.simplified` (`quantity.py` 176-181) with recursion limit `fuel`. -/
def Quantity.simplified (w : World K) (fuel : Nat) (q : Quantity K) : Py (Quantity K) :=
  match simplifiedLoop w fuel ⟨1, []⟩ q.dim with
  | .ok rq => .ok ⟨q.mag.map (fun x => rq.mag * x), rq.dim⟩
  | .error e => .error e

/-- `Dimensionality.simplified` (`dimensionality.py` 33-41). -/
def Dim.simplified (w : World K) (fuel : Nat) (d : Dim) : Py Dim :=
  if d.isEmpty then .ok d
  else
    match simplifiedLoop w fuel ⟨1, []⟩ d with
    | .ok rq => .ok rq.dim
    | .error e => .error e

/-- `Dimensionality.ndims` (`dimensionality.py` 29-31). -/
def Dim.ndims (w : World K) (fuel : Nat) (d : Dim) : Py ℚ :=
  (Dim.simplified w fuel d).map Dim.absSum

/-- Comparing the numbers of base dimensions; `other.ndims` is not evaluated if `self.ndims` raises. -/
def Dim.cmp (r : ℚ → ℚ → Bool) (w : World K) (fuel : Nat) (a b : Dim) : Py Bool :=
  match Dim.ndims w fuel a with
  | .error e => .error e
  | .ok x =>
    match Dim.ndims w fuel b with
    | .error e => .error e
    | .ok y => .ok (r x y)

/-- `Dimensionality.__gt__` (`dimensionality.py` 205-206). -/
def Dim.gt (w : World K) (fuel : Nat) (a b : Dim) : Py Bool := Dim.cmp (fun x y => decide (x > y)) w fuel a b
/-- `Dimensionality.__ge__` (`dimensionality.py` 208-209). -/
def Dim.ge (w : World K) (fuel : Nat) (a b : Dim) : Py Bool := Dim.cmp (fun x y => decide (x ≥ y)) w fuel a b
/-- `Dimensionality.__lt__` (`dimensionality.py` 211-212). -/
def Dim.lt (w : World K) (fuel : Nat) (a b : Dim) : Py Bool := Dim.cmp (fun x y => decide (x < y)) w fuel a b
/-- `Dimensionality.__le__` (`dimensionality.py` 214-215). -/
def Dim.le (w : World K) (fuel : Nat) (a b : Dim) : Py Bool := Dim.cmp (fun x y => decide (x ≤ y)) w fuel a b

/-- `Quantity.dimensionless_magnitude` (`quantity.py` 263-278). -/
def Quantity.dimensionlessMagnitude (w : World K) (q : Quantity K) : Py (NDArr K) :=
  (q.rescale w []).map Quantity.mag

end simplified
end PQ
