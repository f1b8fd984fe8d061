import Verif.Model.Reduce
import Verif.Model.NumpyLib

/-!
# `quantities/umath.py`

The `out=` arguments are `None`.  `sum`, `prod`, `cumsum`, `cumprod` and (on quantities) `nansum`
delegate to the methods in `Model/Reduce.lean`.
-/

namespace PQ

variable {K : Type _}

/-- The unit object `radian` (`units/angle.py` 8-13) that `umath.py` imports. -/
def radianKey : UKey := ⟨.unitQuantity, "radian"⟩

/-- `radian.dimensionality`. -/
def radianDim : Dim := unitDim radianKey

namespace Umath

section angles
variable [One K] [Mul K] [Div K] [RPow K]

/-- `umath.sin`, `cos`, `tan` (`umath.py` 242-253, 272-282, 301-311) for the numeric function `g`. -/
def trig (w : World K) (g : K → K) : Operand K → Py (Operand K)
  | .array a => .ok (.array (a.map g))
  | .quantity q => (q.rescale w radianDim).map (fun r => .quantity ⟨r.mag.map g, []⟩)

/-- `umath.arcsin`, `arccos`, `arctan` (`umath.py` 255-270, 284-299, 313-328). -/
def arc (w : World K) (g : K → K) : Operand K → Py (Operand K)
  | .array a => .ok (.array (a.map g))
  | .quantity q => (q.rescale w []).map (fun r => .quantity ⟨r.mag.map g, radianDim⟩)

/-- `umath.sinh`, `cosh`, `tanh`, `arcsinh`, `arccosh`, `arctanh` (`umath.py` 399-488). -/
def hyperbolic (w : World K) (g : K → K) : Operand K → Py (Operand K)
  | .array a => .ok (.array (a.map g))
  | .quantity q => (q.rescale w []).map (fun r => .quantity ⟨r.mag.map g, []⟩)

variable [Zero K] [DecidableEq K]

/-- `umath.arctan2` (`umath.py` 330-355): the *simplified* dimensionalities are compared, but the
magnitudes are used as they are.  If only one argument is a quantity numpy's ufunc is called. -/
def arctan2 (w : World K) (fuel : Nat) (g : K → K → K) : Operand K → Operand K → Py (Operand K)
  | .quantity a, .quantity b =>
    match Dim.simplified w fuel a.dim with
    | .error e => .error e
    | .ok d1 =>
      match Dim.simplified w fuel b.dim with
      | .error e => .error e
      | .ok d2 =>
        if w.dne d1 d2 then .error .valueError
        else (NDArr.bin g a.mag b.mag).map (fun m => .quantity ⟨m, radianDim⟩)
  | .array a, .array b => (NDArr.bin g a b).map .array
  | x, y => (applyUF2 w .arctan2 g x y).map .quantity

/-- `umath.hypot` (`umath.py` 357-380). -/
def hypot (w : World K) (g : K → K → K) : Operand K → Operand K → Py (Operand K)
  | .quantity a, .quantity b =>
    if w.dne a.dim b.dim then .error .valueError
    else (NDArr.bin g a.mag b.mag).map (fun m => .quantity ⟨m, a.dim⟩)
  | .array a, .array b => (NDArr.bin g a b).map .array
  | x, y => (applyUF2 w .hypot g x y).map .quantity

end angles

section lib
variable [Field K] [LinearOrder K] [RPow K]

/-- One step of `np.diff` on a quantity: `np.subtract` of two slices, whose units are checked. -/
def diffStep (w : World K) (ax : Nat) (q : Quantity K) : Py (Quantity K) :=
  applyUF2 w .subtract (· - ·) (.quantity ⟨q.mag.tailAx ax, q.dim⟩) (.quantity ⟨q.mag.initAx ax, q.dim⟩)

/-- The loop of `np.diff` on a quantity. -/
def diffLoop (w : World K) (ax : Nat) : Nat → Quantity K → Py (Quantity K)
  | 0, q => .ok q
  | n + 1, q =>
    match diffStep w ax q with
    | .error e => .error e
    | .ok r => diffLoop w ax n r

/-- `umath.diff = np.diff` (`umath.py` 69) on a quantity. -/
def diff (w : World K) (q : Quantity K) (n : Int) (ax : Int) : Py (Quantity K) :=
  if n = 0 then .ok q
  else if n < 0 then .error .valueError
  else if q.mag.shape = [] then .error .valueError
  else
    match NDArr.normAxis q.mag.shape.length ax with
    | .error e => .error e
    | .ok k => diffLoop w k n.toNat q

/-- `umath.ediff1d` (`umath.py` 71-80) on a quantity: the units of `to_end`, `to_begin` are ignored
(numpy copies their numbers). -/
def ediff1d (q : Quantity K) (toEnd toBegin : Option (Operand K)) : Quantity K :=
  ⟨q.mag.ediff1d (toEnd.map Operand.arr) (toBegin.map Operand.arr), q.dim⟩

/-- `varargs[0].units`: a plain number has no `units`. -/
def unitsOf : Operand K → Py Dim
  | .quantity q => .ok q.dim
  | .array _ => .error .attributeError

/-- `umath.gradient` (`umath.py` 82-104) of a quantity.  `varargs[0].units` is evaluated only if
there is a result to wrap. -/
def gradient (f : Quantity K) (hs : List (Operand K)) : Py (List (Quantity K)) :=
  match f.mag.gradientIter (hs.map Operand.arr) with
  | .error e => .error e
  | .ok ret =>
    match hs with
    | [h] =>
      if ret.isEmpty then .ok []
      else
        match unitsOf h with
        | .error e => .error e
        | .ok d => .ok (ret.map (fun g => ⟨g, Dim.div f.dim d⟩))
    | hs => .ok (List.zipWith (fun g (h : Operand K) => ⟨g, Dim.div f.dim h.toQuantity.dim⟩) ret hs)

/-- `umath.cross` (`umath.py` 106-121) along the last axes.  With one plain argument numpy writes
into a plain array, and the units are lost. -/
def cross : Operand K → Operand K → Py (Operand K)
  | .quantity a, .quantity b =>
    (a.mag.cross b.mag).map (fun m => .quantity ⟨m, Dim.mul a.dim b.dim⟩)
  | a, b => (a.arr.cross b.arr).map .array

/-- `umath.trapz` (`umath.py` 123-202). -/
def trapz (y : Operand K) (x : Option (Operand K)) (dx : Operand K) (ax : Int) : Py (Operand K) :=
  match y, x, dx with
  | .array y, none, .array dx => (y.trapz none dx ax).map .array
  | .array y, some (.array x), .array dx => (y.trapz (some x) dx ax).map .array
  | y, x, dx =>
    let y := y.toQuantity
    let dx := dx.toQuantity
    match x.map Operand.toQuantity with
    | none => (y.mag.trapz none dx.mag ax).map (fun m => .quantity ⟨m, Dim.mul y.dim dx.dim⟩)
    | some x =>
      (y.mag.trapz (some x.mag) dx.mag ax).map (fun m => .quantity ⟨m, Dim.mul y.dim x.dim⟩)

/-- `umath.unwrap` (`umath.py` 382-397); `period` is `2*pi`.  Unless both arguments are quantities,
`np.unwrap` is called, which returns a plain array of the corrected magnitudes. -/
def unwrap (w : World K) (floor : K → K) (period : K) (p discont : Operand K) (ax : Int) :
    Py (Operand K) :=
  match p, discont with
  | .quantity p, .quantity d =>
    match d.rescale w p.dim with
    | .error e => .error e
    | .ok d => (NDArr.unwrap floor period p.mag d.mag ax).map (fun m => .quantity ⟨m, p.dim⟩)
  | p, d => (NDArr.unwrap floor period p.arr d.arr ax).map .array

end lib
end Umath
end PQ
