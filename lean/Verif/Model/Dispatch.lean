import Verif.Model.Uncertain

/-!
# Which method a binary operator runs

`x op y` in Python: when the class of `y` is a proper subclass of the class of `x` and has its own
reflected method, that one runs first, otherwise the method of `x`; a plain number or array leaves the
operation to the quantity.  The classes are `np.ndarray`, its subclass `Quantity`, and the two
subclasses `UnitQuantity` and `UncertainQuantity` of that.  (Among the subclasses of `UnitQuantity` no
reflected method is overridden again.)  `ndarray`'s own methods never defer to another subclass of
`ndarray`: such an operand has an `__array_ufunc__`.
-/

namespace PQ

variable {K : Type _}

/-- An operand or result of an operator, with its class: a unit object, a `Quantity`, an
`UncertainQuantity`, a plain number or array. -/
inductive PyVal (K : Type _)
  | unit (u : UKey)
  | quantity (q : Quantity K)
  | uncertain (a : UQ K)
  | array (a : NDArr K)

/-- The binary operators. -/
inductive BinOp
  | add | sub | mul | truediv | mod | floordiv
  deriving DecidableEq

namespace BinOp
variable [Zero K] [One K] [Add K] [Sub K] [Mul K] [Div K] [PyFloor K]

/-- numpy's elementwise operation. -/
def fn : BinOp → K → K → K
  | add => (· + ·)
  | sub => (· - ·)
  | mul => (· * ·)
  | truediv => (· / ·)
  | mod => modK
  | floordiv => floorDivK

/-- The ufunc. -/
def uf : BinOp → UF2
  | add => .add
  | sub => .subtract
  | mul => .multiply
  | truediv => .trueDivide
  | mod => .remainder
  | floordiv => .floorDivide

end BinOp

/-- The operators wrapped in `scale_other_units` (`quantity.py` 336-371). -/
def BinOp.scales : BinOp → Bool
  | .add | .sub | .mod => true
  | _ => false

section
variable [Zero K] [One K] [Add K] [Sub K] [Mul K] [Div K] [RPow K] [PyFloor K] [DecidableEq K]

namespace Quantity

/-- `Quantity.__op__(self, other)`, `other` not uncertain: `__add__`, `__sub__`, `__mod__`
(`quantity.py` 336-371); `__mul__`, `__truediv__`, `__floordiv__` are `ndarray`'s. -/
def method (w : World K) (op : BinOp) (self : Quantity K) (other : Operand K) : Py (Quantity K) :=
  match op with
  | .add => self.add w other
  | .sub => self.sub w other
  | .mul => self.mul w other
  | .truediv => self.truediv w other
  | .mod => self.mod w other
  | .floordiv => self.floordiv w other

/-- `Quantity.__rop__(self, other)`, `other` not uncertain: `__radd__`, `__rsub__`, `__rmul__`,
`__rtruediv__` (`quantity.py` 341-395); `__rmod__`, `__rfloordiv__` are `ndarray`'s. -/
def rmethod (w : World K) (op : BinOp) (self : Quantity K) (other : Operand K) : Py (Quantity K) :=
  match op with
  | .add => self.radd w other
  | .sub => self.rsub w other
  | .mul => self.rmul w other
  | .truediv => self.rtruediv w other
  | .mod => applyUF2 w .remainder modK other (.quantity self)
  | .floordiv => applyUF2 w .floorDivide floorDivK other (.quantity self)

/-- `scale_other_units` (`quantity.py` 56-65) for an uncertain `other`, which is converted by its own
`rescale`. -/
def scaleUncertain (w : World K) (op : BinOp) (self : Quantity K) (other : UQ K) : Py (UQ K) :=
  if op.scales && w.dne other.val.dim self.dim then other.rescale w self.dim else .ok other

/-- `Quantity.__op__(self, other)` for an uncertain `other`: numpy runs the ufunc and
`__array_prepare__` of the operand with the higher priority (`quantity.py` 297-318) makes the result an
`UncertainQuantity`, with the zero uncertainty without units of a fresh array
(`uncertainquantity.py` 79-88). -/
def methodUncertain (w : World K) (op : BinOp) (self : Quantity K) (other : UQ K) : Py (UQ K) := do
  let o ← scaleUncertain w op self other
  let r ← applyUF2 w op.uf op.fn (.quantity self) (.quantity o.val)
  return ⟨r, UQ.zeroUnc r.mag []⟩

end Quantity

/-- `UnitQuantity.__rop__(self, other)`, `other` a quantity or plain: `__radd__`, `__rsub__`,
`__rmod__`, `__rmul__`, `__rtruediv__` (`unitquantity.py` 172-216).  The first three convert the unit
to the units of the other operand, if it has any.  `__rfloordiv__` is `ndarray`'s. -/
def unitRMethod (w : World K) (op : BinOp) (u : UKey) (other : Operand K) : Py (Quantity K) :=
  let self : Quantity K := Quantity.ofUnit u
  match other with
  | .quantity q =>
    if op.scales then
      match self.rescale w q.dim with
      | .error e => .error e
      | .ok s => s.rmethod w op other
    else self.rmethod w op other
  | .array _ => self.rmethod w op other

namespace UQ

/-- A ufunc of two operands one of which is uncertain, not overridden by the class. -/
def ufunc2 (w : World K) (op : BinOp) (x y : Operand K) : Py (UQ K) := do
  let r ← applyUF2 w op.uf op.fn x y
  return ⟨r, zeroUnc r.mag []⟩

/-- `UncertainQuantity.__op__(self, other)` (`uncertainquantity.py` 90-152); `__mod__` is that of
`Quantity` and `__floordiv__` that of `ndarray`. -/
def method (w : World K) (op : BinOp) (self : UQ K) (other : UOperand K) : Py (UQ K) :=
  match op with
  | .add => self.add w other
  | .sub => self.sub w other
  | .mul => self.mul w other
  | .truediv => self.truediv w other
  | .mod => do
    let o ← scaleOther w self other
    ufunc2 w .mod (.quantity self.val) o.op
  | .floordiv => ufunc2 w .floordiv (.quantity self.val) other.op

/-- `UncertainQuantity.__rop__(self, other)` (`uncertainquantity.py` 97-160) for an `other` that is a
`Quantity` or plain; `__rmod__` and `__rfloordiv__` are `ndarray`'s. -/
def rmethod (w : World K) (op : BinOp) (self : UQ K) (other : Operand K) : Py (UQ K) :=
  match op with
  | .add => self.radd w (.plain other)
  | .sub => self.rsub w (.plain other)
  | .mul => self.rmul w (.plain other)
  | .truediv => self.rtruediv w other
  | .mod => ufunc2 w .mod other (.quantity self.val)
  | .floordiv => ufunc2 w .floordiv other (.quantity self.val)

end UQ

/-- The class of the right operand is a subclass of `Quantity`, the class of the left one, with its
own reflected method: `UncertainQuantity` has no `__rmod__`, neither class has `__rfloordiv__`. -/
def reflectsOver (op : BinOp) (unit : Bool) : Bool :=
  match op with
  | .add | .sub | .mul | .truediv => true
  | .mod => unit
  | .floordiv => false

/-- `x op y`. -/
def binop (w : World K) (op : BinOp) : PyVal K → PyVal K → Py (PyVal K)
  -- `UnitQuantity.__op__` (`unitquantity.py` 168-223) calls the method of its view as a `Quantity`
  | .unit u, .unit t => ((Quantity.ofUnit u).method w op (.quantity (Quantity.ofUnit t))).map .quantity
  | .unit u, .quantity q => ((Quantity.ofUnit u).method w op (.quantity q)).map .quantity
  | .unit u, .array a => ((Quantity.ofUnit u).method w op (.array a)).map .quantity
  | .unit u, .uncertain b => ((Quantity.ofUnit u).methodUncertain w op b).map .uncertain
  | .quantity q, .unit u =>
      if reflectsOver op true then (unitRMethod w op u (.quantity q)).map .quantity
      else (q.method w op (.quantity (Quantity.ofUnit u))).map .quantity
  | .quantity q, .quantity r => (q.method w op (.quantity r)).map .quantity
  | .quantity q, .array a => (q.method w op (.array a)).map .quantity
  | .quantity q, .uncertain b =>
      if reflectsOver op false then (b.rmethod w op (.quantity q)).map .uncertain
      else (q.methodUncertain w op b).map .uncertain
  | .uncertain a, .unit u => (a.method w op (.plain (.quantity (Quantity.ofUnit u)))).map .uncertain
  | .uncertain a, .quantity q => (a.method w op (.plain (.quantity q))).map .uncertain
  | .uncertain a, .array x => (a.method w op (.plain (.array x))).map .uncertain
  | .uncertain a, .uncertain b => (a.method w op (.uq b)).map .uncertain
  | .array x, .unit u => (unitRMethod w op u (.array x)).map .quantity
  | .array x, .quantity q => (q.rmethod w op (.array x)).map .quantity
  | .array x, .uncertain b => (b.rmethod w op (.array x)).map .uncertain
  | .array x, .array y => (NDArr.bin op.fn x y).map .array

/-- `x ** p` for a plain number `p` (`quantity.py` 398-401, `unitquantity.py` 217-219,
`uncertainquantity.py` 162-166). -/
def powNum [RatCast K] (w : World K) (p : ℚ) : PyVal K → Py (PyVal K)
  | .unit u => ((Quantity.ofUnit u).pow (expOf p)).map .quantity
  | .quantity q => (q.pow (expOf p)).map .quantity
  | .uncertain a => (a.pow w (expOf p)).map .uncertain
  | .array x => .ok (.array (x.map (fun y => rpow y p)))

/-- The comparison operators. -/
inductive CmpOp
  | lt | le | gt | ge | eq | ne
  deriving DecidableEq

/-- The reflected comparison. -/
def CmpOp.swap : CmpOp → CmpOp
  | .lt => .gt
  | .le => .ge
  | .gt => .lt
  | .ge => .le
  | .eq => .eq
  | .ne => .ne

/-- `Quantity.__lt__` and the others (`quantity.py` 454-490). -/
def Quantity.cmp [LT K] [DecidableLT K] [LE K] [DecidableLE K] (w : World K) (op : CmpOp)
    (self : Quantity K) (other : Operand K) : Py (NDArr Bool) :=
  match op with
  | .lt => self.lt w other
  | .le => self.le w other
  | .gt => self.gt w other
  | .ge => self.ge w other
  | .eq => self.eq w other
  | .ne => self.ne w other

/-- numpy's comparison of plain arrays. -/
def CmpOp.fn [LT K] [DecidableLT K] [LE K] [DecidableLE K] (op : CmpOp) (x y : K) : Bool :=
  match op with
  | .lt => decide (x < y)
  | .le => decide (x ≤ y)
  | .gt => decide (y < x)
  | .ge => decide (y ≤ x)
  | .eq => decide (x = y)
  | .ne => decide (x ≠ y)

/-- The value of an operand of a comparison: the comparison methods are those of `Quantity`, an
uncertainty is not looked at. -/
def PyVal.op : PyVal K → Operand K
  | .unit u => .quantity (Quantity.ofUnit u)
  | .quantity q => .quantity q
  | .uncertain a => .quantity a.val
  | .array a => .array a

/-- The class of the right operand is a proper subclass of that of the left one.  All unit classes are
subclasses of `UnitQuantity` (the abstract `IrreducibleUnit` has no objects). -/
def subclassRight : PyVal K → PyVal K → Bool
  | .unit u, .unit t => decide (u.cls = .unitQuantity) && decide (t.cls ≠ .unitQuantity)
  | .array _, .array _ => false
  | .array _, _ => true
  | .quantity _, .unit _ | .quantity _, .uncertain _ => true
  | _, _ => false

/-- `x < y` and the others: the reflected comparison of the right operand runs first if its class is a
subclass of that of the left one, whether it overrides the method or not; a plain number leaves the
comparison to the quantity. -/
def compareOp [LT K] [DecidableLT K] [LE K] [DecidableLE K] (w : World K) (op : CmpOp)
    (x y : PyVal K) : Py (NDArr Bool) :=
  if subclassRight x y then
    match y.op with
    | .quantity q => q.cmp w op.swap x.op
    | .array b => NDArr.bin op.fn x.op.arr b
  else
    match x.op with
    | .quantity q => q.cmp w op y.op
    | .array a => NDArr.bin op.fn a y.op.arr

end
end PQ
