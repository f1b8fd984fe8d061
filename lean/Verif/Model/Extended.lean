import Verif.Model.Complex
import Verif.Model.Reduce

/-!
# Magnitudes with infinities and nan

The library has no separate code for `inf` and `nan`: the functions of `Model/Quantity` are run with such magnitudes,
while the definitions of the units stay finite.  The arithmetic below is the one of IEEE 754 as numpy documents it, with
exact finite numbers (no rounding, no overflow) and only a positive zero: `1 / 0` is `inf`.
-/

namespace PQ

/-- A float: a finite number, an infinity (`neg` says whether it is `-inf`), or nan. -/
inductive XFloat (K : Type _) where
  | fin (x : K)
  | inf (neg : Bool)
  | nan
  deriving DecidableEq

namespace XFloat

variable {K : Type _}

instance [Zero K] : Zero (XFloat K) := ⟨.fin 0⟩
instance [One K] : One (XFloat K) := ⟨.fin 1⟩

/-- `-x` (IEEE 754, `np.negative`). -/
def neg [Neg K] : XFloat K → XFloat K
  | .fin x => .fin (-x)
  | .inf n => .inf (!n)
  | .nan => .nan

instance [Neg K] : Neg (XFloat K) := ⟨neg⟩

/-- `x + y` (IEEE 754, `np.add`). -/
def add [Add K] : XFloat K → XFloat K → XFloat K
  | .fin x, .fin y => .fin (x + y)
  | .fin _, .inf n => .inf n
  | .inf n, .fin _ => .inf n
  | .inf n, .inf m => if n = m then .inf n else .nan
  | .nan, _ => .nan
  | _, .nan => .nan

instance [Add K] : Add (XFloat K) := ⟨add⟩

/-- `x - y` (IEEE 754, `np.subtract`). -/
def sub [Sub K] : XFloat K → XFloat K → XFloat K
  | .fin x, .fin y => .fin (x - y)
  | .fin _, .inf n => .inf (!n)
  | .inf n, .fin _ => .inf n
  | .inf n, .inf m => if n = m then .nan else .inf n
  | .nan, _ => .nan
  | _, .nan => .nan

instance [Sub K] : Sub (XFloat K) := ⟨sub⟩

section
variable [Zero K] [LT K] [DecidableLT K] [DecidableEq K]

/-- `x * y` (IEEE 754, `np.multiply`). -/
def mul [Mul K] : XFloat K → XFloat K → XFloat K
  | .fin x, .fin y => .fin (x * y)
  | .fin x, .inf n => if x = 0 then .nan else .inf (n != decide (x < 0))
  | .inf n, .fin y => if y = 0 then .nan else .inf (n != decide (y < 0))
  | .inf n, .inf m => .inf (n != m)
  | .nan, _ => .nan
  | _, .nan => .nan

instance [Mul K] : Mul (XFloat K) := ⟨mul⟩

/-- `x / y` (IEEE 754, `np.true_divide`), the zeros being positive. -/
def div [Div K] : XFloat K → XFloat K → XFloat K
  | .fin x, .fin y => if y = 0 then (if x = 0 then .nan else .inf (decide (x < 0))) else .fin (x / y)
  | .fin _, .inf _ => .fin 0
  | .inf n, .fin y => .inf (n != decide (y < 0))
  | .inf _, .inf _ => .nan
  | .nan, _ => .nan
  | _, .nan => .nan

instance [Div K] : Div (XFloat K) := ⟨div⟩

end

/-- `x ** p` for the sizes of units, which are finite; powers of infinite and nan elements are not modelled. -/
instance [RPow K] : RPow (XFloat K) := ⟨fun x p => match x with
  | .fin x => .fin (rpow x p)
  | _ => .nan⟩

/-- `x < y` (IEEE 754, `np.less`): false when one of them is nan. -/
def blt [LT K] [DecidableLT K] : XFloat K → XFloat K → Bool
  | .fin x, .fin y => decide (x < y)
  | .fin _, .inf n => !n
  | .inf n, .fin _ => n
  | .inf n, .inf m => n && !m
  | .nan, _ => false
  | _, .nan => false

/-- `x <= y` (IEEE 754, `np.less_equal`). -/
def ble [LE K] [DecidableLE K] : XFloat K → XFloat K → Bool
  | .fin x, .fin y => decide (x ≤ y)
  | .fin _, .inf n => !n
  | .inf n, .fin _ => n
  | .inf n, .inf m => n || !m
  | .nan, _ => false
  | _, .nan => false

instance [LT K] [DecidableLT K] : LT (XFloat K) := ⟨fun x y => blt x y = true⟩
instance [LE K] [DecidableLE K] : LE (XFloat K) := ⟨fun x y => ble x y = true⟩
instance [LT K] [DecidableLT K] : DecidableLT (XFloat K) := fun x y => inferInstanceAs (Decidable (blt x y = true))
instance [LE K] [DecidableLE K] : DecidableLE (XFloat K) := fun x y => inferInstanceAs (Decidable (ble x y = true))

/-- `x == y` (IEEE 754, `np.equal`): nan is not equal to anything, itself included. -/
def beq [DecidableEq K] : XFloat K → XFloat K → Bool
  | .fin x, .fin y => decide (x = y)
  | .inf n, .inf m => n == m
  | _, _ => false

end XFloat

section
variable {K : Type _} [Zero K] [One K] [Mul K] [Div K] [RPow K] [LT K] [DecidableLT K] [DecidableEq K]

/-- The library as seen by code whose magnitudes can be infinite or nan. -/
def World.ext (w : World K) : World (XFloat K) := World.map XFloat.fin w

namespace Quantity

/-- `Quantity.__eq__` (`quantity.py` 464-471) with the equality of floats. -/
def eqExt (w : World (XFloat K)) (self : Quantity (XFloat K)) (other : Operand (XFloat K)) : Py (NDArr Bool) :=
  match other with
  | .array a => NDArr.bin XFloat.beq self.mag a
  | .quantity o =>
    match o.rescale w self.dim with
    | .ok o' => NDArr.bin XFloat.beq self.mag o'.mag
    | .error .valueError => .ok ⟨self.mag.shape, fun _ => false⟩
    | .error e => .error e

/-- `Quantity.__ne__` (`quantity.py` 473-480) with the equality of floats. -/
def neExt (w : World (XFloat K)) (self : Quantity (XFloat K)) (other : Operand (XFloat K)) : Py (NDArr Bool) :=
  match other with
  | .array a => NDArr.bin (fun x y => !(XFloat.beq x y)) self.mag a
  | .quantity o =>
    match o.rescale w self.dim with
    | .ok o' => NDArr.bin (fun x y => !(XFloat.beq x y)) self.mag o'.mag
    | .error .valueError => .ok ⟨self.mag.shape, fun _ => true⟩
    | .error e => .error e

end Quantity
end

end PQ
