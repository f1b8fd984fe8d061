import Verif.Model.Quantity
import Verif.Model.Reduce

/-!
# `quantities/uncertainquantity.py`

An uncertain quantity is a quantity with a second quantity, its `_uncertainty`.  Values only: the
sharing of the `_uncertainty` object between views and in-place operators are in
`Model/UncertainHeap.lean`; `dtype` is not modelled.  Division by a zero magnitude gives nan or inf in
numpy; in the model it is whatever `K` says, and the theorems that divide assume non-zero
magnitudes.
-/

namespace PQ

variable {K : Type _}

/-- What a subscript `a[key]` selects from an array of a given shape: the shape of the result and,
for every index of the result, the index it reads; or `IndexError`.  (Covers integers, slices,
ellipsis, integer and boolean arrays.) -/
def Key := List Nat → Py (List Nat × (List Nat → List Nat))

/-- `a[key]` on a plain array. -/
def NDArr.select (k : Key) (a : NDArr K) : Py (NDArr K) :=
  match k a.shape with
  | .error e => .error e
  | .ok (s, f) => .ok ⟨s, fun i => a.elem (f i)⟩

/-- `Quantity.__getitem__` (`quantity.py` 436-442). -/
def Quantity.getitem (k : Key) (q : Quantity K) : Py (Quantity K) :=
  match q.mag.select k with
  | .error e => .error e
  | .ok m => .ok ⟨m, q.dim⟩

/-- `UncertainQuantity` (`uncertainquantity.py` 12): the quantity and its `_uncertainty`. -/
structure UQ (K : Type _) where
  val : Quantity K
  unc : Quantity K

/-- The other operand of an operator of `UncertainQuantity`. -/
inductive UOperand (K : Type _)
  | uq (u : UQ K)
  | plain (o : Operand K)

/-- The other operand as `Quantity` methods see it. -/
def UOperand.op : UOperand K → Operand K
  | .uq u => .quantity u.val
  | .plain o => o

/-- A scalar exponent. -/
def expOf (p : ℚ) : ExpArg := ⟨NDArr.scalar p, none⟩

namespace UQ

/-- The uncertainty of a fresh array (`__array_finalize__`, `uncertainquantity.py` 79-88): zeros in
the given units. -/
def zeroUnc [Zero K] (m : NDArr K) (d : Dim) : Quantity K := ⟨m.map (fun _ => 0), d⟩

section
variable [One K] [Mul K] [Div K] [RPow K]

/-- The `uncertainty` property and its setter (`uncertainquantity.py` 53-66). -/
def setUncertainty (w : World K) (self : UQ K) (o : Operand K) : Py (UQ K) :=
  let u := o.toQuantity
  if self.val.mag.shape = u.mag.shape then
    if w.dne u.dim self.val.dim then
      match u.rescale w self.val.dim with
      | .error e => .error e
      | .ok u' => .ok ⟨self.val, u'⟩
    else .ok ⟨self.val, u⟩
  else .error .valueError

/-- `Quantity(o, units)` for the dimensionality `d` of `units` (`quantity.py` 118-131); empty units
are falsy, so a quantity then keeps its own. -/
def mkQuantity (w : World K) (o : Operand K) (d : Dim) : Py (Quantity K) :=
  match o with
  | .quantity q => if d.isEmpty then .ok q else q.rescale w d
  | .array a => .ok ⟨a, d⟩

/-- `UncertainQuantity(data, units, uncertainty)` where `data` is not itself an `UncertainQuantity`,
or `uncertainty` is given (`uncertainquantity.py` 17-34). -/
def new [Zero K] (w : World K) (data : Operand K) (units : Dim) (unc : Option (Operand K)) :
    Py (UQ K) :=
  match mkQuantity w data units with
  | .error e => .error e
  | .ok q =>
    let ret : UQ K := ⟨q, zeroUnc q.mag q.dim⟩
    match unc with
    | none => .ok ret
    | some o =>
      match mkQuantity w o q.dim with
      | .error e => .error e
      | .ok u => setUncertainty w ret (.quantity u)

/-- `UncertainQuantity(data, units)` where `data` is an `UncertainQuantity`: `uncertainty` is `None`
and its `_dimensionality` is evaluated (`uncertainquantity.py` 29-31; `is_copy` is always false, a
view is a new object). -/
def newFromUncertain (w : World K) (data : UQ K) (units : Dim) : Py (UQ K) :=
  match mkQuantity w (.quantity data.val) units with
  | .error e => .error e
  | .ok _ => .error .attributeError

/-- `relative_uncertainty` (`uncertainquantity.py` 68-70). -/
def relative (self : UQ K) : Py (NDArr K) := NDArr.bin (· / ·) self.unc.mag self.val.mag

/-- `UncertainQuantity.rescale` (`uncertainquantity.py` 72-77). -/
def rescale (w : World K) (self : UQ K) (d : Dim) : Py (UQ K) :=
  match self.val.rescale w d with
  | .error e => .error e
  | .ok r =>
    match self.unc.rescale w d with
    | .error e => .error e
    | .ok ru => setUncertainty w ⟨r, self.unc⟩ (.quantity ru)

/-- `UncertainQuantity.simplified` (`uncertainquantity.py` 47-51). -/
def simplified (w : World K) (fuel : Nat) (self : UQ K) : Py (UQ K) :=
  match self.val.simplified w fuel with
  | .error e => .error e
  | .ok r =>
    match self.unc.simplified w fuel with
    | .error e => .error e
    | .ok ru => setUncertainty w ⟨r, self.unc⟩ (.quantity ru)

/-- The `units` setter (`uncertainquantity.py` 36-39): `super()` has no `_set_units`. -/
def setUnits (_w : World K) (self : UQ K) (_d : Dim) : Option PyErr × UQ K :=
  (some .attributeError, self)

/-- `scale_other_units` (`quantity.py` 56-65) when `self` is an `UncertainQuantity`; an uncertain
`other` is rescaled by its own `rescale`. -/
def scaleOther (w : World K) (self : UQ K) : UOperand K → Py (UOperand K)
  | .uq b =>
    if w.dne b.val.dim self.val.dim then
      match b.rescale w self.val.dim with
      | .error e => .error e
      | .ok b' => .ok (.uq b')
    else .ok (.uq b)
  | .plain o =>
    match Quantity.scaleOther w self.val o with
    | .error e => .error e
    | .ok q => .ok (.plain (.quantity q))

variable [Zero K] [DecidableEq K] [Add K] [Sub K]

/-- `(a**2 + b**2)**0.5` on quantities. -/
def quad (w : World K) (a b : Quantity K) : Py (Quantity K) := do
  let x ← a.pow (expOf 2)
  let y ← b.pow (expOf 2)
  let s ← x.add w (.quantity y)
  s.pow (expOf (1/2))

/-- `UncertainQuantity.__add__` (`uncertainquantity.py` 90-95).  A plain other operand has no
`uncertainty`. -/
def add (w : World K) (self : UQ K) (other : UOperand K) : Py (UQ K) := do
  match ← scaleOther w self other with
  | .uq b =>
    let res ← self.val.add w (.quantity b.val)
    let u ← quad w self.unc b.unc
    new w (.quantity res) [] (some (.quantity u))
  | .plain o =>
    let _ ← self.val.add w o
    .error .attributeError

/-- `UncertainQuantity.__radd__` (`uncertainquantity.py` 97-100). -/
def radd (w : World K) (self : UQ K) (other : UOperand K) : Py (UQ K) := do
  let o ← scaleOther w self other
  add w self o

/-- `UncertainQuantity.__sub__` (`uncertainquantity.py` 102-107). -/
def sub (w : World K) (self : UQ K) (other : UOperand K) : Py (UQ K) := do
  match ← scaleOther w self other with
  | .uq b =>
    let res ← self.val.sub w (.quantity b.val)
    let u ← quad w self.unc b.unc
    new w (.quantity res) [] (some (.quantity u))
  | .plain o =>
    let _ ← self.val.sub w o
    .error .attributeError

/-- `UncertainQuantity.__rsub__` (`uncertainquantity.py` 109-115). -/
def rsub (w : World K) (self : UQ K) (other : UOperand K) : Py (UQ K) := do
  match ← scaleOther w self other with
  | .uq b => sub w b (.uq self)
  | .plain o =>
    let b ← new w o [] none
    sub w b (.uq self)

/-- `(sru**2+oru**2)**0.5` on plain arrays. -/
def quadRel (x y : NDArr K) : Py (NDArr K) :=
  NDArr.bin (fun a b => rpow (rpow a 2 + rpow b 2) (1/2)) x y

/-- `other**2` for the other operand. -/
def sqOp : Operand K → Py (Operand K)
  | .quantity q => (q.pow (expOf 2)).map .quantity
  | .array a => .ok (.array (a.map (fun x => rpow x 2)))

/-- `UncertainQuantity.__mul__` (`uncertainquantity.py` 117-130).  The fallback is taken when `other`
has no `relative_uncertainty`. -/
def mul (w : World K) (self : UQ K) (other : UOperand K) : Py (UQ K) := do
  let res ← self.val.mul w other.op
  match other with
  | .uq b =>
    let sru ← self.relative
    let oru ← b.relative
    let ru ← quadRel sru oru
    let u ← res.mul w (.array ru)
    return ⟨res, u⟩
  | .plain o =>
    let x ← self.unc.pow (expOf 2)
    let y ← sqOp o
    let p ← x.mul w y
    let u ← p.pow (expOf (1/2))
    return ⟨res, u⟩

/-- `UncertainQuantity.__rmul__` (`uncertainquantity.py` 132-134). -/
def rmul (w : World K) (self : UQ K) (other : UOperand K) : Py (UQ K) := mul w self other

/-- `UncertainQuantity.__neg__` (`uncertainquantity.py` 136-137). -/
def neg [Neg K] (w : World K) (self : UQ K) : Py (UQ K) :=
  mul w self (.plain (.array (NDArr.scalar (-1))))

/-- `UncertainQuantity.__truediv__` (`uncertainquantity.py` 139-152). -/
def truediv (w : World K) (self : UQ K) (other : UOperand K) : Py (UQ K) := do
  let res ← self.val.truediv w other.op
  match other with
  | .uq b =>
    let sru ← self.relative
    let oru ← b.relative
    let ru ← quadRel sru oru
    let u ← res.mul w (.array ru)
    return ⟨res, u⟩
  | .plain o =>
    let x ← self.unc.pow (expOf 2)
    let y ← sqOp o
    let p ← x.truediv w y
    let u ← p.pow (expOf (1/2))
    return ⟨res, u⟩

/-- `UncertainQuantity.__rtruediv__` (`uncertainquantity.py` 154-160): `other * temp`, where Python
calls the reflected method of `temp`, whose class is a subclass of that of `other`. -/
def rtruediv (w : World K) (self : UQ K) (other : Operand K) : Py (UQ K) := do
  let rel ← self.relative
  let um ← NDArr.bin (· / ·) rel self.val.mag
  let temp ← new w (.array (self.val.mag.map (fun x => 1 / x))) (Dim.pow self.val.dim (-1))
    (some (.array um))
  rmul w temp (.plain other)

/-- `UncertainQuantity.__pow__` (`uncertainquantity.py` 162-166). -/
def pow [RatCast K] (w : World K) (self : UQ K) (e : ExpArg) : Py (UQ K) := do
  let res ← self.val.pow e
  let t ← res.mul w (.array (e.vals.map (fun p : ℚ => (p : K))))
  let rel ← self.relative
  let u ← t.mul w (.array rel)
  setUncertainty w ⟨res, zeroUnc res.mag []⟩ (.quantity u)

/-- `UncertainQuantity.sqrt` (`uncertainquantity.py` 233-235). -/
def sqrt [RatCast K] (w : World K) (self : UQ K) : Py (UQ K) := pow w self (expOf (1/2))

/-- `UncertainQuantity.__getitem__` (`uncertainquantity.py` 168-174). -/
def getitem (w : World K) (self : UQ K) (k : Key) : Py (UQ K) := do
  let m ← self.val.mag.select k
  let u ← self.unc.getitem k
  new w (.array m) self.val.dim (some (.quantity u))

/-- A ufunc without an override in the class (`np.fabs`, `np.floor`, ...): `__array_prepare__`
(`quantity.py` 297-318) views the plain result as `UncertainQuantity`, so `__array_finalize__` gives
it a zero uncertainty without units. -/
def applyUF1 (w : World K) (f : UF1) (g : K → K) (self : UQ K) : Py (UQ K) := do
  let r ← PQ.applyUF1 w f g self.val
  return ⟨r, zeroUnc r.mag []⟩

omit [One K] [Mul K] [Div K] [RPow K] [Zero K] [DecidableEq K] [Add K] [Sub K] in
/-- A numpy method without an override that returns a rearranged view (`reshape`, `transpose`,
`ravel`, ...): `__array_finalize__` (`uncertainquantity.py` 79-88) passes the uncertainty on as it is. -/
def rearrange (self : UQ K) (k : Key) : Py (UQ K) := do
  let m ← self.val.mag.select k
  return ⟨⟨m, self.val.dim⟩, self.unc⟩

end

section
variable [Field K] [LinearOrder K] [RPow K]

/-- `UncertainQuantity.sum` (`uncertainquantity.py` 200-206). -/
def sum (w : World K) (self : UQ K) (ax : Axis) : Py (UQ K) := do
  let m ← self.val.mag.reduce List.sum ax
  let s ← (self.unc.mag.map (fun x => rpow x 2)).reduce List.sum ax
  new w (.array m) self.val.dim (some (.array (s.map (fun x => rpow x (1/2)))))

/-- `np.size(self, axis)`; a tuple is a `TypeError`. -/
def npSize (s : List Nat) : Axis → Py Nat
  | .all => .ok s.prod
  | .one ax => Quantity.shapeAt s ax
  | .many _ => .error .typeError

/-- `UncertainQuantity.mean` (`uncertainquantity.py` 216-222). -/
def mean (w : World K) (self : UQ K) (ax : Axis) : Py (UQ K) := do
  let m ← self.val.mag.reduce NDArr.lmean ax
  let n ← npSize self.val.mag.shape ax
  let s ← (self.unc.mag.map (fun x => rpow x 2)).reduce List.sum ax
  new w (.array m) self.val.dim
    (some (.array (s.map (fun x => rpow (rpow (1 / (n : K)) 2 * x) (1/2)))))

/-- `self[np.unravel_index(pos, self.shape)]` where `pos` is the flat position of the best element;
`argmax`/`argmin` raise `ValueError` on an empty array. -/
def best (lt : K → K → Bool) (w : World K) (self : UQ K) : Py (UQ K) := do
  let p ← self.val.mag.argreduce lt .all
  match (NDArr.indices self.val.mag.shape)[p.elem []]? with
  | none => .error .valueError
  | some i => getitem w self (fun _ => .ok ([], fun _ => i))

/-- `UncertainQuantity.max` (`uncertainquantity.py` 237-240); `axis` is ignored. -/
def max (w : World K) (self : UQ K) (_ax : Axis) : Py (UQ K) :=
  best (fun x y => decide (x < y)) w self

/-- `UncertainQuantity.min` (`uncertainquantity.py` 247-250); `axis` is ignored. -/
def min (w : World K) (self : UQ K) (_ax : Axis) : Py (UQ K) :=
  best (fun x y => decide (y < x)) w self

/-- `UncertainQuantity.argmax` (`uncertainquantity.py` 261-263); `axis` is ignored. -/
def argmax (self : UQ K) (_ax : Axis) : Py (NDArr Nat) :=
  self.val.mag.argreduce (fun x y => decide (x < y)) .all

/-- `UncertainQuantity.argmin` (`uncertainquantity.py` 257-259); `axis` is ignored. -/
def argmin (self : UQ K) (_ax : Axis) : Py (NDArr Nat) :=
  self.val.mag.argreduce (fun x y => decide (y < x)) .all

end
end UQ
end PQ
