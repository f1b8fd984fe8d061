import Verif.Model.Uncertain

/-!
# Elements of a quantity: indexing, iteration, `tolist` (`quantity.py` 436-442, 493-515)
-/

namespace PQ

variable {K : Type _}

/-- A nested Python list of numbers (or quantities), or a single one. -/
inductive Nested (α : Type _)
  | leaf (x : α)
  | list (l : List (Nested α))

/-- `np.ndarray.tolist` (numpy): lists nested to the depth of the array. -/
def NDArr.nest {α : Type _} : List Nat → (List Nat → α) → Nested α
  | [], f => .leaf (f [])
  | n :: s, f => .list ((List.range n).map (fun i => NDArr.nest s (fun r => f (i :: r))))

/-- `Quantity(x, self.dimensionality)` for a number. -/
def Quantity.ofNumber (d : Dim) (x : K) : Quantity K := ⟨NDArr.scalar x, d⟩

mutual
/-- `Quantity._tolist` (`quantity.py` 506-514): every entry of the list is replaced, lists recursively. -/
def Quantity.tolistAux (d : Dim) : List (Nested K) → List (Nested (Quantity K))
  | [] => []
  | x :: xs => Quantity.tolistEntry d x :: Quantity.tolistAux d xs
/-- One entry of the loop. -/
def Quantity.tolistEntry (d : Dim) : Nested K → Nested (Quantity K)
  | .leaf x => .leaf (Quantity.ofNumber d x)
  | .list l => .list (Quantity.tolistAux d l)
end

/-- `Quantity.tolist` (`quantity.py` 494-504). -/
def Quantity.tolist (q : Quantity K) : Nested (Quantity K) :=
  match NDArr.nest q.mag.shape q.mag.elem with
  | .list l => .list (Quantity.tolistAux q.dim l)
  | .leaf x => .leaf (Quantity.ofNumber q.dim x)

/-- The subscript `[i]` with an integer, for the first axis; negative ones count from the end
(numpy). -/
def Key.int (i : Int) : Key := fun s =>
  match s with
  | [] => .error .indexError
  | n :: t =>
    let p := if i < 0 then i + n else i
    if 0 ≤ p ∧ p < n then .ok (t, fun r => p.toNat :: r) else .error .indexError

/-- `list(q)`: `iter` of an array calls `__getitem__` with 0, 1, ... (`np.ndarray.__iter__` uses the
sequence protocol, so the override is used); a zero-dimensional array is not iterable
(`TypeError`). -/
def Quantity.iter (q : Quantity K) : Py (List (Quantity K)) :=
  match q.mag.shape with
  | [] => .error .typeError
  | n :: _ => (List.range n).mapM (fun (i : Nat) => q.getitem (Key.int i))

end PQ
