import Verif.Model.Construct
import Verif.Model.Heap
import Verif.Spec.Numbers
import Mathlib.Analysis.SpecialFunctions.Pow.Complex

/-!
# Quantities with complex magnitudes

The library has no separate code for complex numbers: the functions of `Model/Quantity` are run with complex
magnitudes, while the definitions of the units stay real.  Specific to complex numbers are only `real`, `imag` with
their setters (`quantity.py` 160-174) and the ufuncs `conjugate` and `absolute` (`dimensionality.py` 326-327).

Simplification: a value assigned to `real` or `imag` is real (numpy would warn and drop the imaginary part of a complex
one), and the array is complex, writeable and owns its memory.
-/

namespace PQ

section map
variable {K L : Type _}

/-- The numbers of a scalar quantity converted to another type. -/
def SQ.map (φ : K → L) (q : SQ K) : SQ L := ⟨φ q.mag, q.dim⟩

/-- The numbers in a unit object converted to another type. -/
def UnitInfo.map (φ : K → L) (i : UnitInfo K) : UnitInfo L :=
  { definition := i.definition.map (SQ.map φ), convRef := i.convRef.map (SQ.map φ), symbol := i.symbol,
    uSymbol := i.uSymbol, aliases := i.aliases, order := i.order }

/-- The same library as seen by code whose numbers are of another type: a real conversion factor is turned into a
complex number by `cf = np.array(cf, dtype=dtype)` (`quantity.py` 237-238) or when it is multiplied with one. -/
def World.map (φ : K → L) (w : World K) : World L :=
  { hasher := w.hasher, units := List.map (fun e => (e.1, e.2.map φ)) w.units, registry := w.registry,
    defaults := w.defaults, counters := w.counters }

end map

/-- `z ** p` for complex `z` (`np.power`: the principal value). -/
noncomputable instance : RPow ℂ := ⟨fun z p => z ^ (p : ℂ)⟩

/-- The library as seen by code with complex magnitudes. -/
noncomputable def World.cx (w : World ℝ) : World ℂ := World.map Complex.ofReal w

namespace Quantity

/-- `q.real` (`quantity.py` 160-162). -/
noncomputable def real (q : Quantity ℂ) : Quantity ℝ := ⟨q.mag.map Complex.re, q.dim⟩

/-- `q.imag` (`quantity.py` 168-170). -/
noncomputable def imag (q : Quantity ℂ) : Quantity ℝ := ⟨q.mag.map Complex.im, q.dim⟩

/-- The values the setters store: `Quantity(r, self.dimensionality).magnitude` (`quantity.py` 166, 174), broadcast to
the shape of the array (numpy). -/
noncomputable def partValues (P : List Char → Py PyAST) (F : PyOps ℝ) (w : World ℝ) (q : Quantity ℂ)
    (r : DataArg ℝ) : Py (NDArr ℝ) :=
  match Quantity.new P F w r (.dim q.dim) with
  | .error e => .error e
  | .ok x => Heap.castTo q.mag.shape x.mag

/-- `q.real = r` (`quantity.py` 164-166): the exception, if any, and the array afterwards. -/
noncomputable def setReal (P : List Char → Py PyAST) (F : PyOps ℝ) (w : World ℝ) (q : Quantity ℂ)
    (r : DataArg ℝ) : Option PyErr × Quantity ℂ :=
  match q.partValues P F w r with
  | .error e => (some e, q)
  | .ok a => (none, ⟨⟨q.mag.shape, fun i => ⟨a.elem i, (q.mag.elem i).im⟩⟩, q.dim⟩)

/-- `q.imag = r` (`quantity.py` 172-174). -/
noncomputable def setImag (P : List Char → Py PyAST) (F : PyOps ℝ) (w : World ℝ) (q : Quantity ℂ)
    (r : DataArg ℝ) : Option PyErr × Quantity ℂ :=
  match q.partValues P F w r with
  | .error e => (some e, q)
  | .ok a => (none, ⟨⟨q.mag.shape, fun i => ⟨(q.mag.elem i).re, a.elem i⟩⟩, q.dim⟩)

/-- `q.conjugate()` (numpy calls `np.conjugate`). -/
noncomputable def conjugate (w : World ℝ) (q : Quantity ℂ) : Py (Quantity ℂ) :=
  applyUF1 w.cx .conjugate (starRingEnd ℂ) q

/-- `abs(q)` and `np.absolute(q)`: the dimensionality is attached to the array of moduli (`dimensionality.py` 326). -/
noncomputable def absolute (w : World ℝ) (q : Quantity ℂ) : Py (Quantity ℝ) :=
  match ufunc1Dim w.cx .absolute (.quantity q) with
  | .error e => .error e
  | .ok .plain => .error .typeError
  | .ok (.units d) => .ok ⟨q.mag.map (fun z => ‖z‖), d⟩

end Quantity

end PQ
