import Verif.Model.Quantity

/-!
# Operators of one quantity

`-q` and `x ** q` are in `Model/Quantity.lean`; here are the other operators and conversions that Python
defines through `np.ndarray` and that `Quantity` (`quantity.py` 115-820) does not override.
-/

namespace PQ

variable {K : Type _}

namespace Quantity

section
variable [One K] [Mul K] [Div K] [RPow K] [DecidableEq K]

/-- `abs(q)`: `np.absolute` (`dimensionality.py` 326). -/
def absOp [Lattice K] [AddGroup K] (w : World K) (q : Quantity K) : Py (Quantity K) :=
  applyUF1 w .absolute (fun x => |x|) q

/-- `+q`: `np.positive`, which is not in the table `p_dict` (`dimensionality.py` 219-405), so that
`__array_prepare__` (`quantity.py` 310-317) raises. -/
def pos (w : World K) (q : Quantity K) : Py (Quantity K) := applyUF1 w .other id q

/-- `divmod(q, other)`: `np.divmod`, which is not in the table either. -/
def divmod [Zero K] (w : World K) (q : Quantity K) (other : Operand K) : Py (Quantity K × Quantity K) :=
  match applyUF2 w .other (fun x _ => x) (.quantity q) other with
  | .error e => .error e
  | .ok r => .ok (r, r)

end

/-- `bool(q)` (`np.ndarray.__bool__`): the truth value of the only element; several elements are a
`ValueError`.  (No elements: `False`, with a deprecation warning, before numpy 2.2.) -/
def truth [Zero K] [DecidableEq K] (q : Quantity K) : Py Bool :=
  match q.mag.toList with
  | [] => .ok false
  | [x] => .ok (decide (x ≠ 0))
  | _ => .error .valueError

/-- `float(q)` (`np.ndarray.__float__`): the only element; otherwise a `TypeError`. -/
def toFloat (q : Quantity K) : Py K :=
  match q.mag.toList with
  | [x] => .ok x
  | _ => .error .typeError

end Quantity
end PQ
