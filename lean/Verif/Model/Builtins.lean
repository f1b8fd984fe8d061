import Verif.Model.Dispatch

/-!
# Python's built-in functions on sequences of quantities

`sum`, `max`, `min`, `sorted`, `in`, `list.index` and `list.count` know nothing of quantities: they call the
operators of the elements (`quantity.py` 336-344, 454-490, `unitquantity.py` 168-190) and take the
truth value of what a comparison returns.
-/

namespace PQ

variable {K : Type _}

/-- `bool(m)` for the array of booleans a comparison returns (`np.ndarray.__bool__`): its only element;
several elements are a `ValueError`. -/
def truthOf (m : NDArr Bool) : Py Bool :=
  match m.toList with
  | [] => .ok false
  | [b] => .ok b
  | _ => .error .valueError

section
variable [Zero K] [One K] [Add K] [Sub K] [Mul K] [Div K] [RPow K] [PyFloor K] [DecidableEq K]

/-- `sum(xs, start)`: `start + x₀ + x₁ + …` from the left (`Quantity.__add__`, `__radd__`,
`quantity.py` 336-344, `UnitQuantity.__add__`, `__radd__`, `unitquantity.py` 168-174).  The default `start` is
the number 0. -/
def pySum (w : World K) (xs : List (PyVal K)) (start : PyVal K := .array (NDArr.scalar 0)) : Py (PyVal K) :=
  xs.foldlM (binop w .add) start

variable [LT K] [DecidableLT K] [LE K] [DecidableLE K]

/-- `bool(x < y)` and the others (`quantity.py` 454-490). -/
def holds (w : World K) (op : CmpOp) (x y : PyVal K) : Py Bool := do truthOf (← compareOp w op x y)

/-- The loop of `max` (`op` is `>`) and `min` (`<`): the element found so far is replaced by a later one if
that compares `op` to it (`quantity.py` 454-490).  Of an empty sequence: `ValueError`. -/
def pyBest (w : World K) (op : CmpOp) : List (PyVal K) → Py (PyVal K)
  | [] => .error .valueError
  | x :: xs => xs.foldlM (fun best y => do if ← holds w op y best then return y else return best) x

/-- `max(xs)` (`Quantity.__gt__`, `quantity.py` 487-490). -/
def pyMax (w : World K) (xs : List (PyVal K)) : Py (PyVal K) := pyBest w .gt xs

/-- `min(xs)` (`Quantity.__lt__`, `quantity.py` 454-457). -/
def pyMin (w : World K) (xs : List (PyVal K)) : Py (PyVal K) := pyBest w .lt xs

/-- `xs.index(x)`, also the search behind `x in xs`: the first element that compares equal
(`Quantity.__eq__`, `quantity.py` 465-473).  (Python takes an element that is the very object `x` to be equal
without asking; a quantity without nan equals itself anyway.) -/
def pyFind (w : World K) (x : PyVal K) : List (PyVal K) → Py (Option Nat)
  | [] => .ok none
  | y :: ys => do
    if ← holds w .eq y x then return some 0
    return (← pyFind w x ys).map (· + 1)

/-- `x in xs` (`Quantity.__eq__`, `quantity.py` 465-473). -/
def pyContains (w : World K) (x : PyVal K) (xs : List (PyVal K)) : Py Bool := do
  return (← pyFind w x xs).isSome

/-- `xs.index(x)`: `ValueError` if there is none (`Quantity.__eq__`, `quantity.py` 465-473). -/
def pyIndex (w : World K) (x : PyVal K) (xs : List (PyVal K)) : Py Nat := do
  match ← pyFind w x xs with
  | some i => return i
  | none => .error .valueError

/-- `xs.count(x)` (`Quantity.__eq__`, `quantity.py` 465-473). -/
def pyCount (w : World K) (x : PyVal K) : List (PyVal K) → Py Nat
  | [] => .ok 0
  | y :: ys => do
    let b ← holds w .eq y x
    let n ← pyCount w x ys
    return if b then n + 1 else n

/-- A sorting algorithm for `n` elements that only looks at them with `<`, as `sorted` and `list.sort` do:
which two elements it compares next, or the order it has found, depending on the answers so far. -/
inductive CmpSort (n : Nat)
  | done (order : List (Fin n))
  | ask (i j : Fin n) (yes no : CmpSort n)

/-- The run of the algorithm, `lt i j` telling whether element `i` is less than element `j`; an exception of a
comparison ends it. -/
def CmpSort.run {n : Nat} (lt : Fin n → Fin n → Py Bool) : CmpSort n → Py (List (Fin n))
  | .done order => .ok order
  | .ask i j yes no =>
    match lt i j with
    | .error e => .error e
    | .ok true => yes.run lt
    | .ok false => no.run lt

/-- `sorted(xs)` with the algorithm `alg` (`Quantity.__lt__`, `quantity.py` 454-457). -/
def pySorted (w : World K) (xs : List (PyVal K)) (alg : CmpSort xs.length) : Py (List (PyVal K)) := do
  let order ← alg.run (fun i j => holds w .lt (xs.get i) (xs.get j))
  return order.map xs.get

end
end PQ
