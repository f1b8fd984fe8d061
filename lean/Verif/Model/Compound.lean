import Verif.Model.Pickle

/-!
# `CompoundUnit(name)`
-/

namespace PQ

variable {K : Type _} [One K] [Mul K] [Div K] [Neg K] [RPow K] [RatCast K] [DecidableEq K]

/-- `CompoundUnit(name)` (`unitquantity.py` 371-380): the registry makes a quantity of the name, which
becomes the definition; the unit has no symbol and no aliases and is not registered.  An exception of
the lookup leaves everything as it was. -/
def World.compoundUnit (P : List Char → Py PyAST) (F : PyOps K) (w : World K) (name : String) :
    Option PyErr × World K :=
  match compoundDef P F w name with
  | .error e => (some e, w)
  | .ok q => w.newUnit { cls := .compound, name := name, definition := .quantity q }

/-- `CompoundUnit.copy` (`unitquantity.py` 403-404): the same constructor call again.  (The copy is a
second object of the same class and name, hence as a dict key the same unit.) -/
def World.copyCompound (P : List Char → Py PyAST) (F : PyOps K) (w : World K) (u : UKey) :
    Option PyErr × World K :=
  w.compoundUnit P F u.name

end PQ
