import Verif.Model.Quantity
import Mathlib.Logic.Function.Basic

/-!
# `dtype`s: what `quantity.py` does with integer and low-precision magnitudes

Numpy's part (promotion of dtypes, casts, the same-kind rule of in-place operations) is written down as
numpy documents it; how a number is rounded to a float of a given width, how an out-of-range number is cast
to an integer type and which type numpy 1 picks for a mixture of an array and a 0-d array are parameters
(`Numpy`).  Booleans, signed and unsigned integers and floats; complex numbers, long doubles, objects and
strings are left out.
-/

namespace PQ

/-- Widths of numpy's float types. -/
inductive FBits
  | f16 | f32 | f64
  deriving DecidableEq, Repr

/-- Widths of numpy's integer types. -/
inductive IBits
  | b8 | b16 | b32 | b64
  deriving DecidableEq, Repr

/-- numpy dtypes. -/
inductive DType
  | bool
  | int (b : IBits)
  | uint (b : IBits)
  | float (b : FBits)
  deriving DecidableEq, Repr

namespace FBits

/-- The wider of two float types. -/
def max : FBits → FBits → FBits
  | f64, _ => f64
  | _, f64 => f64
  | f32, _ => f32
  | _, f32 => f32
  | f16, f16 => f16

end FBits

namespace IBits

/-- Number of bits. -/
def bits : IBits → Nat
  | b8 => 8
  | b16 => 16
  | b32 => 32
  | b64 => 64

/-- The wider of two widths. -/
def max (a b : IBits) : IBits := if a.bits ≤ b.bits then b else a

/-- The float type numpy pairs with an integer type. -/
def toFloat : IBits → FBits
  | b8 => .f16
  | b16 => .f32
  | b32 => .f64
  | b64 => .f64

end IBits

namespace DType

/-- The signed type for a signed and an unsigned one (`np.promote_types`). -/
def intUint (a b : IBits) : DType :=
  if b.bits < a.bits then int a
  else
    match b with
    | .b8 => int .b16
    | .b16 => int .b32
    | .b32 => int .b64
    | .b64 => float .f64

/-- `np.promote_types`, `np.result_type` of dtypes. -/
def promote : DType → DType → DType
  | bool, t => t
  | t, bool => t
  | int a, int b => int (a.max b)
  | uint a, uint b => uint (a.max b)
  | int a, uint b => intUint a b
  | uint a, int b => intUint b a
  | float a, float b => float (a.max b)
  | float a, int b => float (a.max b.toFloat)
  | float a, uint b => float (a.max b.toFloat)
  | int a, float b => float (a.toFloat.max b)
  | uint a, float b => float (a.toFloat.max b)

/-- `np.dtype(t).kind in 'fc'`. -/
def isFloat : DType → Bool
  | float _ => true
  | _ => false

/-- Order of the kinds for `same_kind` casts: `b < u < i < f`. -/
def rank : DType → Nat
  | bool => 0
  | uint _ => 1
  | int _ => 2
  | float _ => 3

/-- Category for value-based promotion in numpy 1: booleans, integers, floats. -/
def category : DType → Nat
  | bool => 0
  | uint _ => 1
  | int _ => 1
  | float _ => 2

/-- `np.can_cast(a, b, 'same_kind')`. -/
def sameKind (a b : DType) : Bool := decide (a.rank ≤ b.rank)

end DType

/-- What is left open of numpy. -/
structure Numpy (K : Type _) where
  /-- numpy 2 (or later)? -/
  np2 : Bool
  /-- `np.asarray(x).astype(t)`, `casting='unsafe'` -/
  cast : DType → K → K
  /-- numpy 1: dtype of an array of the first dtype combined with a 0-d array of the second dtype and
  the given value, when the category of the latter is not higher -/
  weak : DType → DType → K → DType

/-- A `Quantity` with its dtype. -/
structure TQ (K : Type _) where
  mag : NDArr K
  dtype : DType
  dim : Dim

namespace TQ
variable {K : Type _}

/-- Forget the dtype. -/
def toQ (q : TQ K) : Quantity K := ⟨q.mag, q.dim⟩

end TQ

namespace Numpy
variable {K : Type _} (N : Numpy K)

/-- dtype in which numpy combines two operands: in numpy 1 a 0-d operand with an array of at least its
category is judged by its value. -/
def loop (a : NDArr K) (ta : DType) (b : NDArr K) (tb : DType) : DType :=
  if N.np2 || a.shape.isEmpty == b.shape.isEmpty then ta.promote tb
  else if a.shape.isEmpty then
    if ta.category > tb.category then ta.promote tb else N.weak tb ta (a.elem [])
  else
    if tb.category > ta.category then ta.promote tb else N.weak ta tb (b.elem [])

/-- One number of a numpy binary operation computed in dtype `t`: operands are cast, the result is
rounded. -/
def op1 (t : DType) (f : K → K → K) (x y : K) : K := N.cast t (f (N.cast t x) (N.cast t y))

section
variable [One K] [Mul K] [Div K] [RPow K]

/-- `Quantity.astype` on a `Quantity` (`quantity.py` 281-292). -/
def astype (t : DType) (q : TQ K) : TQ K := ⟨q.mag.map (N.cast t), t, q.dim⟩

/-- `astype` on a unit object (`quantity.py` 281-292): the view as a `Quantity` is not an instance of the
unit's class, so line 290 builds a new quantity with `dtype=self.dtype`, which for units is `'d'`
(`unitquantity.py` 47), whatever was asked for. -/
def unitAstype (t : DType) (u : UKey) : TQ K :=
  ⟨(NDArr.scalar (N.cast t 1)).map (N.cast (.float .f64)), .float .f64, unitDim u⟩

/-- The dtype of the conversion factor and its value (`quantity.py` 237-238). -/
def factor (t : DType) (cf : K) : DType × K :=
  match t with
  | .float b => (.float b, N.cast (.float b) cf)
  | _ => (.float .f64, cf)

/-- Second half of `rescale` (`quantity.py` 237-241): `cf*self.magnitude` with the final dtype. -/
def applyFactor (q : TQ K) (d : Dim) (t : DType) (cf : K) : TQ K :=
  let c := N.factor t cf
  let m := N.loop (NDArr.scalar c.2) c.1 q.mag q.dtype
  let r := t.promote m
  ⟨q.mag.map (fun x => N.cast r (N.op1 m (· * ·) c.2 x)), r, d⟩

/-- `Quantity.rescale(units, dtype)` after `validate_dimensionality` (`quantity.py` 223-241).  The unit
quantities of 228-229 hold 1 in every dtype, and their references are doubles, so the factor does not
depend on `dtype`. -/
def rescale (w : World K) (q : TQ K) (d : Dim) (dtype : Option DType) : Py (TQ K) :=
  let t := dtype.getD q.dtype
  if w.deq q.dim d then .ok (N.astype t q)
  else
    match w.convFactor q.dim d with
    | .ok cf => .ok (N.applyFactor q d t cf)
    | .error .assertionError => .error .valueError
    | .error e => .error e

/-- `scale_other_units` (`quantity.py` 56-65) for a quantity `other`. -/
def scaleOther (w : World K) (self other : TQ K) : Py (TQ K) :=
  if w.dne other.dim self.dim then
    N.rescale w other self.dim (some (self.dtype.promote other.dtype))
  else .ok other

/-- A numpy binary operation on the magnitudes. -/
def arrays (f : K → K → K) (a : NDArr K) (ta : DType) (b : NDArr K) (tb : DType) :
    Py (NDArr K × DType) :=
  let m := N.loop a ta b tb
  match NDArr.bin (N.op1 m f) a b with
  | .error e => .error e
  | .ok x => .ok (x, m)

/-- `Quantity.__add__` (`quantity.py` 336-339) on two quantities; `f` is addition (or, for 352-355,
subtraction).  The units of the result are those of the left operand (`_d_check_uniform`). -/
def addLike (f : K → K → K) (w : World K) (self other : TQ K) : Py (TQ K) :=
  match N.scaleOther w self other with
  | .error e => .error e
  | .ok o =>
    match N.arrays f self.mag self.dtype o.mag o.dtype with
    | .error e => .error e
    | .ok x => if w.deq self.dim o.dim then .ok ⟨x.1, x.2, self.dim⟩ else .error .valueError

/-- numpy's in-place operation into an array of dtype `ta`: the result must have the shape of the
target, and its dtype must be of the same kind (`UFuncTypeError`, a `TypeError`). -/
def inplace (f : K → K → K) (a : NDArr K) (ta : DType) (b : NDArr K) (tb : DType) : Py (NDArr K) :=
  match N.arrays f a ta b tb with
  | .error e => .error e
  | .ok x =>
    if x.1.shape ≠ a.shape then .error .valueError
    else if x.2.sameKind ta then .ok (x.1.map (N.cast ta))
    else .error .typeError

/-- `Quantity.__iadd__`, `__isub__` (`quantity.py` 346-350, 362-366): the quantity afterwards, or the
exception. -/
def iaddLike (f : K → K → K) (w : World K) (self other : TQ K) : Py (TQ K) :=
  match N.scaleOther w self other with
  | .error e => .error e
  | .ok o =>
    match N.inplace f self.mag self.dtype o.mag o.dtype with
    | .error e => .error e
    | .ok x => .ok ⟨x, self.dtype, self.dim⟩

/-- The `units` setter (`quantity.py` 184-210) on a writeable quantity that is not a view: `mag *= cf`
with a double `cf`. -/
def setUnits (w : World K) (q : TQ K) (d : Dim) : Py (TQ K) :=
  if w.deq q.dim d then .ok q
  else
    match w.convFactor q.dim d with
    | .ok cf =>
      match N.inplace (· * ·) q.mag q.dtype (NDArr.scalar cf) (.float .f64) with
      | .error e => .error e
      | .ok x => .ok ⟨x, q.dtype, d⟩
    | .error .assertionError => .error .valueError
    | .error e => .error e

/-- `Quantity.__setitem__` of one element (`quantity.py` 444-452): the value is converted with
`dtype='d'`, then stored in the array with numpy's unsafe cast. -/
def setitem (w : World K) (self : TQ K) (idx : List Nat) (value : TQ K) : Py (TQ K) :=
  if w.dne self.dim value.dim then
    match N.rescale w value self.dim (some (.float .f64)) with
    | .error e => .error e
    | .ok x => .ok ⟨⟨self.mag.shape, Function.update self.mag.elem idx (N.cast self.dtype (x.mag.elem []))⟩,
        self.dtype, self.dim⟩
  else .ok ⟨⟨self.mag.shape, Function.update self.mag.elem idx (N.cast self.dtype (value.mag.elem []))⟩,
        self.dtype, self.dim⟩

/-- `wrap_comparison` (`quantity.py` 102-110) and the comparison `f` of the numbers, computed in the
common dtype. -/
def compare (f : K → K → Bool) (w : World K) (self other : TQ K) : Py (NDArr Bool) :=
  let go (o : TQ K) : Py (NDArr Bool) :=
    let m := N.loop self.mag self.dtype o.mag o.dtype
    NDArr.bin (fun x y => f (N.cast m x) (N.cast m y)) self.mag o.mag
  if w.dne other.dim self.dim then
    match N.rescale w other self.dim none with
    | .error e => .error e
    | .ok o => go o
  else go other

end
end Numpy
end PQ
