import Verif.Model.Quantity
import Verif.Model.Markup

/-!
# `Quantity.rescale_preferred` and `rescale()` without argument (`quantity.py` 211-222, 243-261)

The list `PREFERRED` (`quantity.py` 15) is an argument here.  Its entries are unit objects or
quantities; their strings depend on whether the interpreter holds an exponent as an `int` or as a
`float`, which is left open (`NumKinds`).
-/

namespace PQ

variable {K : Type _}

/-- How the interpreter holds the exponents of a dimensionality: each as an `int` or as a `float`. -/
structure NumKinds where
  tag : Dim → PDim
  tag_val : ∀ d, (tag d).toDim = d

/-- An entry of `PREFERRED`. -/
inductive Pref (K : Type _)
  | unit (u : UKey)
  | quantity (q : Quantity K)

/-- `preferred.dimensionality`, which is what `validate_dimensionality` makes of it
(`registry.py`/`quantity.py` 20-33). -/
def Pref.dim : Pref K → Dim
  | .unit u => unitDim u
  | .quantity q => q.dim

/-- `str(dimensionality)` (`dimensionality.py` 191-195). -/
def strDim (w : World K) (fr : ℚ → List Char) (uni : Bool) (d : PDim) : List Char :=
  if uni then formatUnitsUnicode w fr uni d else formatUnits w fr uni d

section
variable [One K] [Mul K] [Div K] [RPow K]

/-- `preferred.simplified.dimensionality`: units and quantities have their own `simplified`
(`unitquantity.py` 114-116, 305-307; `quantity.py` 176-181). -/
def Pref.simplifiedDim (w : World K) (fuel : Nat) : Pref K → Py Dim
  | .unit u => (unitSimplified w fuel u).map SQ.dim
  | .quantity q => (q.simplified w fuel).map Quantity.dim

/-- The loop over `PREFERRED` (`quantity.py` 257-261). -/
def rescalePreferredGo (w : World K) (fr : ℚ → List Char) (uni : Bool) (fuel : Nat) (q : Quantity K)
    (unitsStr : List Char) : List (Pref K × NumKinds) → Py (Quantity K)
  | [] => .error .exception
  | (p, kp) :: ps =>
    match p.simplifiedDim w fuel with
    | .error e => .error e
    | .ok d =>
      if unitsStr = strDim w fr uni (kp.tag d) then q.rescale w p.dim
      else rescalePreferredGo w fr uni fuel q unitsStr ps

/-- `Quantity.rescale_preferred` (`quantity.py` 243-261). -/
def Quantity.rescalePreferred (w : World K) (fr : ℚ → List Char) (uni : Bool) (fuel : Nat)
    (q : Quantity K) (k : NumKinds) (preferred : List (Pref K × NumKinds)) : Py (Quantity K) :=
  match q.simplified w fuel with
  | .error e => .error e
  | .ok s => rescalePreferredGo w fr uni fuel q (strDim w fr uni (k.tag s.dim)) preferred

/-- `Quantity.rescale` with `units` given or `None` (`quantity.py` 211-241): without units every
exception becomes a plain `Exception` (218-222). -/
def Quantity.rescaleArg (w : World K) (fr : ℚ → List Char) (uni : Bool) (fuel : Nat)
    (q : Quantity K) (k : NumKinds) (preferred : List (Pref K × NumKinds)) :
    Option Dim → Py (Quantity K)
  | some d => q.rescale w d
  | none =>
    match q.rescalePreferred w fr uni fuel k preferred with
    | .ok r => .ok r
    | .error _ => .error .exception

end

end PQ
