import Verif.Model.Registry
import Verif.Model.Dispatch

/-!
# Sums in unit strings

`Model/Registry.lean` parses `+` and `-` in unit strings but leaves their meaning open.  Here the
evaluation (`registry.py` 36-40) is given the `+` and `-` of units, quantities and numbers
(`unitquantity.py` 167-186, `quantity.py` 336-360).
-/

namespace PQ

variable {K : Type _}

/-- An evaluated operand as an operand of Python's operators (`registry.py` 36-40). -/
def RVal.toVal [RatCast K] : RVal K → Option (PyVal K)
  | .unit u => some (.unit u)
  | .qty q => some (.quantity ⟨NDArr.scalar q.mag, q.dim⟩)
  | .const (.num x) => some (.array (NDArr.scalar (x : K)))
  | _ => none

/-- A result of `+` or `-` of which one operand is a unit or quantity: a scalar quantity. -/
def PyVal.toRVal : PyVal K → Option (RVal K)
  | .unit u => some (.unit u)
  | .quantity q => some (.qty ⟨q.mag.elem [], q.dim⟩)
  | .uncertain _ => none
  | .array _ => none

section
variable [Zero K] [One K] [Add K] [Sub K] [Mul K] [Div K] [Neg K] [RPow K] [PyFloor K] [RatCast K] [DecidableEq K]

/-- `+` and `-` of operands of which one is a unit or quantity (`unitquantity.py` 167-186,
`quantity.py` 336-360, by way of Python's choice of method, `Model/Dispatch.lean`). -/
def sumVals (F : PyOps K) (w : World K) (op : PyBinOp) (b : BinOp) (x y : RVal K) : Py (RVal K) :=
  match x.asNum, y.asNum with
  | some p, some q => .ok (.const (.num (if b = .add then p + q else p - q)))
  | _, _ =>
    match x.toVal, y.toVal with
    | some p, some q =>
      match binop w b p q with
      | .error e => .error e
      | .ok r =>
        match r.toRVal with
        | some v => .ok v
        | none => F.bin op x y
    | _, _ => F.bin op x y

/-- The operators of the evaluation (`registry.py` 36-40), `+` and `-` included; the rest is left to `F`. -/
def sumOps (F : PyOps K) (w : World K) : PyOps K :=
  ⟨fun op x y =>
    match op with
    | .add => sumVals F w op .add x y
    | .sub => sumVals F w op .sub x y
    | _ => F.bin op x y, F.un⟩

/-- `unit_registry[label]` (`registry.py` 71-82) with sums. -/
def World.lookupSum (P : List Char → Py PyAST) (F : PyOps K) (w : World K) (label : List Char) : Py (RVal K) :=
  w.lookup P (sumOps F w) label

/-- `validate_dimensionality` (`quantity.py` 31-46) with sums. -/
def validateSum (P : List Char → Py PyAST) (F : PyOps K) (w : World K) (u : UnitsArg K) : Py Dim :=
  validateDimensionality P (sumOps F w) w u

end
end PQ
