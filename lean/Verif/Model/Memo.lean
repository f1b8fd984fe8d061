import Verif.Model.Py
import Mathlib.Data.Rat.Defs
import Mathlib.Algebra.Order.Ring.Rat

/-!
# `memoize`

`quantities/decorators.py` 10-17.

The state is a heap of objects and the one dictionary `cache`, which is shared by every function ever
decorated (it is a default argument).  Objects have contents of their own (a buffer, a number, ...) and
may refer to parts, which are objects too; `.copy()` is shallow, as `list.copy`, `dict.copy` and
`ndarray.copy` are.  Simplification: parts have no parts of their own.
-/

namespace PQ.Memo

/-- Argument objects.  `obj` is an object compared by identity, `list` an unhashable value.
Simplification: arguments are immutable, and `nan` is not modelled. -/
inductive Arg
  | int (n : ℤ)
  | bool (b : Bool)
  | float (q : ℚ)
  | str (s : String)
  | obj (n : ℕ)
  | list (l : List ℤ)
  deriving DecidableEq

/-- Numeric value of `int`, `bool` and `float` objects. -/
def Arg.num : Arg → Option ℚ
  | .int n => some n
  | .bool b => some (if b then 1 else 0)
  | .float q => some q
  | _ => none

/-- Python `==` on arguments: numbers by value whatever their type, everything else within its type. -/
def Arg.eq (a b : Arg) : Bool :=
  match a.num, b.num with
  | some x, some y => x = y
  | none, none => a = b
  | _, _ => false

/-- `hash(a)` does not raise. -/
def Arg.hashable : Arg → Bool
  | .list _ => false
  | _ => true

/-- The actual arguments of a call: positional ones and keywords, in the order written. -/
structure Actuals where
  args : List Arg
  kwargs : List (String × Arg)
  deriving DecidableEq

/-- `==` of two `tuple(args)` (`decorators.py` 13). -/
def tupleEq : List Arg → List Arg → Bool
  | [], [] => true
  | a :: as, b :: bs => a.eq b && tupleEq as bs
  | _, _ => false

/-- `==` of two `frozenset(kwargs.items())` (`decorators.py` 13): same size and every item of the one
in the other.  (Keyword names are distinct, so the size is the number of keywords.) -/
def itemsEq (k l : List (String × Arg)) : Bool :=
  k.length == l.length && k.all fun p => l.any fun q => p.1 == q.1 && p.2.eq q.2

/-- `key == key'` for the keys of `decorators.py` 13.  `f` is the identity of the decorated function.
Equal numbers, strings and identical objects have equal hashes, so the dictionary finds a key exactly
when it compares equal. -/
def keyEq (k k' : ℕ × Actuals) : Bool :=
  k.1 == k'.1 && tupleEq k.2.args k'.2.args && itemsEq k.2.kwargs k'.2.kwargs

/-- Building the key and looking it up needs the hash of every argument. -/
def Actuals.hashable (a : Actuals) : Bool :=
  a.args.all Arg.hashable && a.kwargs.all fun p => p.2.hashable

/-- An object: its own contents and the addresses of its parts. -/
structure Cell where
  own : List ℤ
  parts : List ℕ
  deriving DecidableEq

/-- What one sees of an object: its contents and the contents of its parts. -/
structure Val where
  own : List ℤ
  parts : List (List ℤ)
  deriving DecidableEq

/-- What a function returns: a value; `copyable` says whether the object has a `copy` method. -/
structure Ret where
  val : Val
  copyable : Bool := true
  deriving DecidableEq

/-- A function: pure, so that it is a function of the actual arguments, every evaluation of which makes
a new object (or raises). -/
abbrev Fun := Actuals → Py Ret

/-- The state: objects (the address is the position), the cache with whether the cached object has a
`copy` method, and the list of evaluations so far (ghost). -/
structure St where
  heap : List Cell := []
  cache : List ((ℕ × Actuals) × ℕ × Bool) := []
  evals : List (ℕ × Actuals) := []

/-- Reading an object. -/
def St.read (s : St) (a : ℕ) : Option Val :=
  s.heap[a]?.map fun c => ⟨c.own, c.parts.map fun p => ((s.heap[p]?.map Cell.own).getD [])⟩

/-- Creating an object with the given value: first its parts, then itself. -/
def St.alloc (s : St) (v : Val) : ℕ × St :=
  let n := s.heap.length
  (n + v.parts.length,
    { s with heap := s.heap ++ v.parts.map (fun p => ⟨p, []⟩) ++
        [⟨v.own, (List.range v.parts.length).map (n + ·)⟩] })

/-- `x.copy()`: a new object with the same contents and the same parts. -/
def St.copy (s : St) (a : ℕ) : ℕ × St :=
  (s.heap.length, { s with heap := s.heap ++ [(s.heap[a]?).getD ⟨[], []⟩] })

/-- `key in cache` / `cache[key]`. -/
def St.find (s : St) (k : ℕ × Actuals) : Option (ℕ × Bool) :=
  (s.cache.find? fun e => keyEq e.1 k).map Prod.snd

/-- `return cache[key].copy()` (`decorators.py` 16). -/
def St.finish (s : St) (e : ℕ × Bool) : Py ℕ × St :=
  if e.2 then ((.ok (s.copy e.1).1), (s.copy e.1).2) else (.error .attributeError, s)

/-- `g(*args, **kwargs)` for the function `fs i` decorated with `memoize` (`decorators.py` 12-16). -/
def St.call (fs : ℕ → Fun) (s : St) (i : ℕ) (a : Actuals) : Py ℕ × St :=
  if a.hashable then
    match s.find (i, a) with
    | some e => s.finish e
    | none =>
      match fs i a with
      | .error e => (.error e, s)
      | .ok r =>
        let p := s.alloc r.val
        St.finish { p.2 with cache := s.cache ++ [((i, a), (p.1, r.copyable))],
                             evals := s.evals ++ [(i, a)] } (p.1, r.copyable)
  else (.error .typeError, s)

/-- The client changes an object in place: new contents and new parts (objects it holds). -/
def St.mutate (s : St) (a : ℕ) (c : Cell) : St := { s with heap := s.heap.set a c }

/-- The addresses a client can reach from an object it was given. -/
def St.reach (s : St) (a : ℕ) : List ℕ := a :: (s.heap[a]?.map Cell.parts).getD []

end PQ.Memo
