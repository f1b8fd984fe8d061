/-!
# Python runtime values used by the model

Exceptions are values: a modelled function that may raise returns `Py α`.
-/

namespace PQ

/-- The exception classes the modelled code can raise.  Only the class is kept, never the message:
no modelled `except` clause inspects a message. -/
inductive PyErr
  | valueError
  | typeError
  | keyError
  | indexError
  | attributeError
  | assertionError
  | lookupError
  | syntaxError
  | runtimeError
  | recursionError
  | zeroDivisionError
  | exception
  deriving DecidableEq, Repr

/-- Result of a Python call: a value or a raised exception. -/
abbrev Py (α : Type _) := Except PyErr α

/-- `True` iff the call returned normally. -/
def Returns {α : Type _} (x : Py α) : Prop := ∃ a, x = Except.ok a

end PQ
