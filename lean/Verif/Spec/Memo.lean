import Verif.Model.Memo

/-!
# What a client can do between calls of memoized functions
-/

namespace PQ.Memo

/-- The states a client can bring about, with the objects it holds: it calls decorated functions and
changes, in place and in any way, the objects that were returned to it and the parts of these. -/
inductive Client (fs : ℕ → Fun) : St → List ℕ → Prop
  | start : Client fs {} []
  | call {s : St} {held : List ℕ} (i : ℕ) (a : Actuals) {r : ℕ} {s' : St} :
      Client fs s held → (a.kwargs.map Prod.fst).Nodup → s.call fs i a = (.ok r, s') →
      Client fs s' (s'.reach r ++ held)
  | failed {s : St} {held : List ℕ} (i : ℕ) (a : Actuals) {e : PyErr} {s' : St} :
      Client fs s held → (a.kwargs.map Prod.fst).Nodup → s.call fs i a = (.error e, s') →
      Client fs s' held
  | mutate {s : St} {held : List ℕ} (x : ℕ) (c : Cell) :
      Client fs s held → x ∈ held → (∀ p ∈ c.parts, p ∈ held) → Client fs (s.mutate x c) held

/-- The number an argument is, if it is one: an integer, a float, or `True` and `False`, which are 1 and 0. -/
inductive Arg.IsNumber : Arg → ℚ → Prop
  | int (n : ℤ) : IsNumber (.int n) n
  | float (q : ℚ) : IsNumber (.float q) q
  | true : IsNumber (.bool true) 1
  | false : IsNumber (.bool false) 0

/-- Python's `==` says that two arguments are equal: they are the same number, whatever its type, or the same
string, list or object. -/
def Arg.Alike (a b : Arg) : Prop := a = b ∨ ∃ q, a.IsNumber q ∧ b.IsNumber q

/-- Two ways of writing the arguments that Python's `==` cannot tell apart: equal positional arguments
in the same order, and the same keywords, in any order, with equal values. -/
def EqualArgs (a b : Actuals) : Prop :=
  List.Forall₂ Arg.Alike a.args b.args ∧
  (∀ n x, (n, x) ∈ a.kwargs → ∃ y, (n, y) ∈ b.kwargs ∧ x.Alike y) ∧
  (∀ n y, (n, y) ∈ b.kwargs → ∃ x, (n, x) ∈ a.kwargs ∧ x.Alike y)

/-- The function gives the same result on arguments that compare equal. -/
def Respects (f : Fun) : Prop := ∀ a b : Actuals, EqualArgs a b → f a = f b

/-- Every result has a `copy` method, and nothing mutable inside it that a shallow copy would share
(true of arrays, quantities and dimensionalities). -/
def Flat (f : Fun) : Prop := ∀ a r, f a = .ok r → r.copyable = true ∧ r.val.parts = []

end PQ.Memo
