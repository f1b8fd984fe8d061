import Verif.Model.Quantity
import Verif.Model.Uncertain
import Mathlib.Logic.Function.Basic

/-!
# Memory: arrays, views and in-place operations

`Model/Quantity.lean` has value semantics.  Here arrays are objects over shared memory cells, so that
views, aliases and in-place operations (`quantity.py` 186-210, 346-412, 444-452, 537-556;
`unitquantity.py` 135-137, 225-243) can be told apart from copies.

numpy facts used (numpy's `PyArray_View`, `PyArray_SetBaseObject`, ufunc machinery):
* a view shares the cells of the array it views and inherits its `writeable` flag;
* its `base` is found by walking from the viewed array along `base` pointers while the array does
  not own its data and the next array has the same type as the new view;
* an operand that overlaps the output is read as it was before the operation;
* with an explicit output, numpy before 2.0 calls `__array_prepare__` on the output, which replaces
  the output's units; numpy 2 calls only `__array_wrap__`, which leaves an output that already is a
  `Quantity` alone (`quantity.py` 321-333).

Not modelled: `dtype`, setting `flags.writeable`, views of unit objects that are unit objects again
(`u.T`), in-place operators on plain arrays other than assignment, in-place methods that
`quantities` does not override (`sort`, `resize`, `byteswap`), numpy's fast paths for `**=` with
exponents 0 and 1.
-/

namespace PQ

/-- The type of an array object together with its units. -/
inductive AKind
  | ndarray
  | quantity (d : Dim)
  | unit (u : UKey)

/-- `isinstance(x, Quantity)`. -/
def AKind.isQuantity : AKind → Bool
  | .ndarray => false
  | .quantity _ => true
  | .unit _ => true

/-- `type(x) is type(y)`; views of unit objects as unit objects are not modelled. -/
def AKind.sameType : AKind → AKind → Bool
  | .ndarray, .ndarray => true
  | .quantity _, .quantity _ => true
  | _, _ => false

/-- `x.dimensionality`, empty for a plain array. -/
def AKind.dim : AKind → Dim
  | .ndarray => []
  | .quantity d => d
  | .unit u => unitDim u

/-- An array object: which memory cell each index reads, whether it owns the memory, its `base`. -/
structure Obj where
  kind : AKind
  shape : List Nat
  addr : List Nat → Nat
  owns : Bool
  base : Option Nat
  writeable : Bool

/-- Memory cells, the first unused cell, and all array objects ever created (an object is referred
to by its position). -/
structure Heap (K : Type _) where
  mem : Nat → K
  next : Nat
  objs : List Obj

/-- Nothing allocated. -/
def Heap.empty {K : Type _} [Zero K] : Heap K := ⟨fun _ => 0, 0, []⟩

/-- Position of an index in row-major order. -/
def ravel : List Nat → List Nat → Nat
  | _ :: s, j :: r => j * s.prod + ravel s r
  | _, _ => 0

variable {K : Type _}

/-- The other operand of an in-place operation: an existing object, or a value of its own. -/
inductive Src (K : Type _)
  | obj (j : Nat)
  | lit (x : Operand K)

/-- In-place operators with a quantity or plain operand. -/
inductive IOp
  | add | sub | mod | mul | div | floordiv
  deriving DecidableEq

/-- What a program can do with arrays. -/
inductive Cmd (K : Type _)
  /-- a unit object is created -/
  | newUnit (u : UKey)
  /-- `np.array(...)`, or any operation returning a new plain array -/
  | newArray (a : NDArr K)
  /-- `Quantity([...], units)`, or any operation returning a new quantity -/
  | newQuantity (a : NDArr K) (d : Dim)
  /-- `Quantity(x, units)` for an array object `x` -/
  | wrap (i : Nat) (d : Dim)
  /-- `x.magnitude` -/
  | magnitude (i : Nat)
  /-- `x[key]` with slices, `x.T`, `x.reshape(...)`: a view of the same type -/
  | view (i : Nat) (k : Key)
  /-- `x[2, 3]`: one element -/
  | item (i : Nat) (idx : List Nat)
  /-- `x.copy()`, `copy.copy(x)` -/
  | copy (i : Nat)
  /-- `copy.deepcopy(x)` -/
  | deepcopy (i : Nat)
  /-- `x.squeeze()`, `x.real` -/
  | squeeze (i : Nat) (k : Key)
  /-- `x[key] = v` on a quantity -/
  | setitem (i : Nat) (k : Key) (v : Src K)
  /-- `x.put(idxs, v)` -/
  | put (i : Nat) (idxs : List Int) (v : Src K)
  /-- `x.fill(v)` -/
  | fill (i : Nat) (v : Src K)
  /-- `x += v` and so on -/
  | inplace (op : IOp) (i : Nat) (v : Src K)
  /-- `x **= e` -/
  | ipow (i : Nat) (e : ExpArg)
  /-- `x.units = d` -/
  | setUnits (i : Nat) (d : Dim)
  /-- `x.sum(out=y)` and the other methods with `out` -/
  | into (f : Quantity K → Py (Quantity K)) (i out : Nat)
  /-- `a[key] = values` on a plain array -/
  | rawWrite (i : Nat) (k : Key) (m : NDArr K)

namespace Heap

/-- The values an object shows. -/
def arr (h : Heap K) (o : Obj) : NDArr K := ⟨o.shape, fun i => h.mem (o.addr i)⟩

/-- A quantity object as a value. -/
def quantity (h : Heap K) (o : Obj) : Quantity K := ⟨h.arr o, o.kind.dim⟩

/-- An object as an operand. -/
def operand (h : Heap K) (o : Obj) : Operand K :=
  if o.kind.isQuantity then .quantity (h.quantity o) else .array (h.arr o)

/-- The value of a source operand; `none` if there is no such object. -/
def src (h : Heap K) : Src K → Option (Operand K)
  | .obj j => (h.objs[j]?).map h.operand
  | .lit x => some x

/-- `isinstance(x.base, Quantity)`. -/
def baseIsQuantity (h : Heap K) (o : Obj) : Bool :=
  match o.base with
  | none => false
  | some b =>
    match h.objs[b]? with
    | none => false
    | some ob => ob.kind.isQuantity

/-- `PyArray_SetBaseObject`: the base of a new view of type `ty` of object `i`. -/
def collapse (objs : List Obj) (ty : AKind) : Nat → Nat → Nat
  | 0, i => i
  | fuel + 1, i =>
    match objs[i]? with
    | none => i
    | some o =>
      if o.owns then i
      else
        match o.base with
        | none => i
        | some b =>
          match objs[b]? with
          | none => i
          | some ob => if ob.kind.sameType ty then collapse objs ty fuel b else i

/-- Add a new object; its position is returned. -/
def push (h : Heap K) (o : Obj) : Nat × Heap K :=
  (h.objs.length, { h with objs := h.objs ++ [o] })

/-- Add a view of object `i` (which is `o`). -/
def pushView (h : Heap K) (i : Nat) (o : Obj) (kind : AKind) (shape : List Nat)
    (sel : List Nat → List Nat) : Nat × Heap K :=
  h.push ⟨kind, shape, fun j => o.addr (sel j), false,
    some (collapse h.objs kind h.objs.length i), o.writeable⟩

/-- Allocate fresh cells holding `a`, owned by a new object. -/
def alloc (h : Heap K) (a : NDArr K) (kind : AKind) (writeable : Bool) : Nat × Heap K :=
  let n := h.next
  let cells := (NDArr.indices a.shape).map a.elem
  push { h with
      mem := fun c => if n ≤ c then (cells[c - n]?).getD (h.mem c) else h.mem c,
      next := n + a.shape.prod }
    ⟨kind, a.shape, fun j => n + ravel a.shape j, true, none, writeable⟩

/-- `np.asarray(data).view(Quantity)` for data that is not an array yet (`quantity.py` 129-130): a
plain array owning the memory and the `Quantity` view of it. -/
def allocQuantity (h : Heap K) (a : NDArr K) (d : Dim) : Nat × Heap K :=
  let r := h.alloc a .ndarray true
  match r.2.objs[r.1]? with
  | none => r
  | some o => r.2.pushView r.1 o (.quantity d) o.shape id

/-- Write `m`, an array of the shape of `o`, into the cells of `o`. -/
def store (h : Heap K) (o : Obj) (m : NDArr K) : Heap K :=
  ⟨(NDArr.indices o.shape).foldl (fun mem i => Function.update mem (o.addr i) (m.elem i)) h.mem,
    h.next, h.objs⟩

/-- Write `m`, an array of the shape `s` selected from `o` by `sel`. -/
def storeSel (h : Heap K) (o : Obj) (s : List Nat) (sel : List Nat → List Nat) (m : NDArr K) :
    Heap K :=
  ⟨(NDArr.indices s).foldl (fun mem i => Function.update mem (o.addr (sel i)) (m.elem i)) h.mem,
    h.next, h.objs⟩

/-- `x._dimensionality = d`. -/
def setDim (h : Heap K) (i : Nat) (o : Obj) (d : Dim) : Heap K :=
  { h with objs := h.objs.set i { o with kind := .quantity d } }

/-- numpy's assignment broadcasting: leading axes of length 1 beyond the destination are dropped,
then the value must broadcast to the destination's shape. -/
def dropOnes (n : Nat) : List Nat → Nat
  | [] => 0
  | d :: t => if n ≤ t.length then (if d = 1 then dropOnes n t + 1 else 0) else 0

/-- The values assigned to a destination of shape `s`. -/
def castTo (s : List Nat) (m : NDArr K) : Py (NDArr K) :=
  let n := dropOnes s.length m.shape
  let sh := m.shape.drop n
  if NDArr.bshape sh s = some s then
    .ok ⟨s, fun i => m.elem (List.replicate n 0 ++ NDArr.bidx sh i)⟩
  else .error .valueError

/-- `self.magnitude[key] = value`: `ValueError` if read-only. -/
def assign (h : Heap K) (o : Obj) (k : Key) (m : NDArr K) : Option PyErr × Heap K :=
  if !o.writeable then (some .valueError, h)
  else
    match k o.shape with
    | .error e => (some e, h)
    | .ok (s, sel) =>
      match castTo s m with
      | .error e => (some e, h)
      | .ok v => (none, h.storeSel o s sel v)

/-- The loop of `ndarray.put` with `mode='raise'`: elements are stored one after the other until an
index is out of range; values are repeated as needed.  (For a non-contiguous array numpy works on a
temporary and then discards all of it.) -/
def putLoop (o : Obj) (vals : List K) : Nat → List Int → (Nat → K) → Option PyErr × (Nat → K)
  | _, [], mem => (none, mem)
  | n, j :: js, mem =>
    let size := o.shape.prod
    let p : Int := if j < 0 then j + size else j
    if 0 ≤ p ∧ p < size then
      match (NDArr.indices o.shape)[p.toNat]?, vals[n % vals.length]? with
      | some i, some x => putLoop o vals (n + 1) js (Function.update mem (o.addr i) x)
      | _, _ => (none, mem)
    else (some .indexError, mem)

section ops
variable [Zero K] [One K] [Add K] [Sub K] [Mul K] [Div K] [RPow K] [PyFloor K] [DecidableEq K]

/-- A ufunc with output `x` and first operand `x`: `np.add(x, y, out=x)`. -/
def ufuncInto (np2 : Bool) (w : World K) (f : UF2) (g : K → K → K) (h : Heap K) (i : Nat) (o : Obj)
    (y : Operand K) : Option PyErr × Heap K :=
  match NDArr.bin g (h.arr o) y.arr with
  | .error e => (some e, h)
  | .ok m =>
    if m.shape ≠ o.shape then (some .valueError, h)
    else if !o.writeable then (some .valueError, h)
    else if np2 then (none, h.store o m)
    else
      match ufunc2Dim w f (h.operand o) y with
      | .error e => (some e, h)
      | .ok d => (none, (h.store o m).setDim i o d)

/-- The in-place operators of `Quantity` (`quantity.py` 346-350, 362-366, 373-381, 387-391, with
`protected_multiplication`, `quantity.py` 67-76;
`//=` is inherited from `np.ndarray`) and of unit objects (`unitquantity.py` 225-243; `%=` and `//=`
are not overridden there). -/
def inplace (np2 : Bool) (w : World K) (h : Heap K) (op : IOp) (i : Nat) (o : Obj) (x : Operand K) :
    Option PyErr × Heap K :=
  let scaled (f : UF2) (g : K → K → K) : Option PyErr × Heap K :=
    match Quantity.scaleOther w (h.quantity o) x with
    | .error e => (some e, h)
    | .ok q => ufuncInto np2 w f g h i o (.quantity q)
  match o.kind, op with
  | .ndarray, _ => (some .typeError, h)
  | .unit _, .add | .unit _, .sub | .unit _, .mul | .unit _, .div => (some .typeError, h)
  | _, .add => scaled .add (· + ·)
  | _, .sub => scaled .subtract (· - ·)
  | _, .mod => scaled .remainder modK
  | _, .mul =>
    if !x.toQuantity.dim.isEmpty && h.baseIsQuantity o then (some .valueError, h)
    else ufuncInto np2 w .multiply (· * ·) h i o x
  | _, .div =>
    if !x.toQuantity.dim.isEmpty && h.baseIsQuantity o then (some .valueError, h)
    else ufuncInto np2 w .trueDivide (· / ·) h i o x
  | _, .floordiv => ufuncInto np2 w .floorDivide floorDivK h i o x

/-- `Quantity.__ipow__` (`quantity.py` 403-407 with `check_uniform`, `quantity.py` 78-89, and `protected_power`, `quantity.py`
91-100; the truth value of an array of several elements is a `ValueError`), and of unit objects
(`unitquantity.py` 241-243). -/
def ipow (np2 : Bool) (h : Heap K) (i : Nat) (o : Obj) (e : ExpArg) : Option PyErr × Heap K :=
  match o.kind with
  | .ndarray => (some .typeError, h)
  | .unit _ => (some .typeError, h)
  | .quantity d =>
    if hasDims e.dim then (some .valueError, h)
    else
      match uniformExp e.vals with
      | .error err => (some err, h)
      | .ok p =>
        if e.vals.toList.length ≠ 1 then (some .valueError, h)
        else if p ≠ 1 ∧ h.baseIsQuantity o = true then (some .valueError, h)
        else
          match NDArr.bin (fun x q => rpow x q) (h.arr o) e.vals with
          | .error err => (some err, h)
          | .ok m =>
            if m.shape ≠ o.shape then (some .valueError, h)
            else if !o.writeable then (some .valueError, h)
            else if np2 then (none, h.store o m)
            else (none, (h.store o m).setDim i o (Dim.pow d p))

/-- The `units` setter (`quantity.py` 186-210; on unit objects `unitquantity.py` 132-137). -/
def setUnits (w : World K) (h : Heap K) (i : Nat) (o : Obj) (toD : Dim) : Option PyErr × Heap K :=
  match o.kind with
  | .ndarray => (some .attributeError, h)
  | .unit _ => (some .attributeError, h)
  | .quantity d =>
    if h.baseIsQuantity o then (some .valueError, h)
    else if !o.writeable then (some .valueError, h)
    else if w.deq d toD then (none, h)
    else
      match w.convFactor d toD with
      | .ok cf => (none, (h.store o ((h.arr o).map (fun x => x * cf))).setDim i o toD)
      | .error .assertionError => (some .valueError, h)
      | .error e => (some e, h)

/-- The value stored by `__setitem__` and `put`: converted to the units of `self`
(`quantity.py` 446-451, 550-555). -/
def assigned (w : World K) (d : Dim) (x : Operand K) : Py (NDArr K) :=
  let v := x.toQuantity
  if w.dne d v.dim then
    match v.rescale w d with
    | .error e => .error e
    | .ok v' => .ok v'.mag
  else .ok v.mag

/-- `Quantity.__setitem__` (`quantity.py` 444-452). -/
def setitem (w : World K) (h : Heap K) (o : Obj) (k : Key) (x : Operand K) : Option PyErr × Heap K :=
  match assigned w o.kind.dim x with
  | .error e => (some e, h)
  | .ok m => h.assign o k m

/-- `Quantity.put` (`quantity.py` 542-556). -/
def put (w : World K) (h : Heap K) (o : Obj) (idxs : List Int) (x : Operand K) :
    Option PyErr × Heap K :=
  match assigned w o.kind.dim x with
  | .error e => (some e, h)
  | .ok m =>
    if !o.writeable then (some .valueError, h)
    else
      match putLoop o m.toList 0 idxs h.mem with
      | (e, mem) => (e, { h with mem := mem })

/-- `Quantity.fill` (`quantity.py` 534-540): the magnitude of the value is stored, and if the value
has units they become the units of the array.  A unit object's `_dimensionality` has no setter, but
its memory is read-only, so `fill` raises before. -/
def fill (h : Heap K) (i : Nat) (o : Obj) (x : Operand K) : Option PyErr × Heap K :=
  match x.arr.toList with
  | [c] =>
    if !o.writeable then (some .valueError, h)
    else
      let h' := h.store o ⟨o.shape, fun _ => c⟩
      match x, o.kind with
      | .array _, _ => (none, h')
      | .quantity q, .quantity _ => (none, h'.setDim i o q.dim)
      | .quantity _, _ => (some .attributeError, h')
  | _ => (some .valueError, h)

/-- Methods with `out` (numpy broadcasting a rounded array into a larger `out` is not modelled; `sum`, `max`, `min`, `ptp`, `round`, `trace`, `mean`, `prod`, `cumsum`,
`quantity.py` 511-770): `out.magnitude` receives the values, then `out._dimensionality` is replaced.
`f` gives the result of the method without `out`. -/
def into (h : Heap K) (f : Quantity K → Py (Quantity K)) (o : Obj) (out : Nat) (oo : Obj) :
    Option PyErr × Heap K :=
  match oo.kind with
  | .ndarray => (some .attributeError, h)
  | k =>
    match f (h.quantity o) with
    | .error e => (some e, h)
    | .ok r =>
      if r.mag.shape ≠ oo.shape then (some .valueError, h)
      else if !oo.writeable then (some .valueError, h)
      else
        let h' := h.store oo r.mag
        match k with
        | .quantity _ => (none, h'.setDim out oo r.dim)
        | _ => (some .attributeError, h')

/-- `Quantity(x, units)` for an array object (`quantity.py` 118-131): a plain array is viewed; a
quantity is first rescaled (a copy) if units are given, and then viewed; a unit object is
multiplied by 1 (a copy). -/
def wrap (w : World K) (h : Heap K) (i : Nat) (o : Obj) (d : Dim) : Py Nat × Heap K :=
  match o.kind with
  | .ndarray =>
    let r := h.pushView i o (.quantity d) o.shape id
    (.ok r.1, r.2)
  | k =>
    if d.isEmpty then
      match k with
      | .unit u => let r := h.allocQuantity (h.arr o) (unitDim u); (.ok r.1, r.2)
      | _ =>
        let r := h.pushView i o (.quantity o.kind.dim) o.shape id
        (.ok r.1, r.2)
    else
      match (h.quantity o).rescale w d with
      | .error e => (.error e, h)
      | .ok q =>
        let r := h.allocQuantity q.mag q.dim
        match r.2.objs[r.1]? with
        | none => (.ok r.1, r.2)
        | some o' =>
          let r' := r.2.pushView r.1 o' (.quantity q.dim) o'.shape id
          (.ok r'.1, r'.2)

/-- An in-place operation rebinds the name to the same object, or raises. -/
def result (i : Nat) (r : Option PyErr × Heap K) : Py Nat × Heap K :=
  match r with
  | (none, h) => (.ok i, h)
  | (some e, h) => (.error e, h)

/-- Execute a command: the position of the resulting object or an exception, and the new state.
Referring to an object that does not exist is a `NameError`, here `exception`. -/
def run (np2 : Bool) (w : World K) (h : Heap K) : Cmd K → Py Nat × Heap K
  | .newUnit u => let r := h.alloc (NDArr.scalar 1) (.unit u) false; (.ok r.1, r.2)
  | .newArray a => let r := h.alloc a .ndarray true; (.ok r.1, r.2)
  | .newQuantity a d => let r := h.allocQuantity a d; (.ok r.1, r.2)
  | .wrap i d =>
    match h.objs[i]? with
    | none => (.error .exception, h)
    | some o => h.wrap w i o d
  | .magnitude i =>
    match h.objs[i]? with
    | none => (.error .exception, h)
    | some o =>
      if o.kind.isQuantity then let r := h.pushView i o .ndarray o.shape id; (.ok r.1, r.2)
      else (.error .attributeError, h)
  | .view i k =>
    match h.objs[i]? with
    | none => (.error .exception, h)
    | some o =>
      match o.kind with
      | .unit _ => (.error .exception, h)
      | _ =>
        match k o.shape with
        | .error e => (.error e, h)
        | .ok (s, sel) => let r := h.pushView i o o.kind s sel; (.ok r.1, r.2)
  | .item i idx =>
    match h.objs[i]? with
    | none => (.error .exception, h)
    | some o =>
      if idx ∈ NDArr.indices o.shape then
        if o.kind.isQuantity then
          let r := h.allocQuantity (NDArr.scalar (h.mem (o.addr idx))) o.kind.dim; (.ok r.1, r.2)
        else
          let r := h.alloc (NDArr.scalar (h.mem (o.addr idx))) .ndarray true; (.ok r.1, r.2)
      else (.error .indexError, h)
  | .copy i =>
    match h.objs[i]? with
    | none => (.error .exception, h)
    | some o =>
      match o.kind with
      | .unit _ => (.error .exception, h)
      | k => let r := h.alloc (h.arr o) k true; (.ok r.1, r.2)
  | .deepcopy i =>
    match h.objs[i]? with
    | none => (.error .exception, h)
    | some o =>
      if o.kind.isQuantity then
        let m := h.pushView i o .ndarray o.shape id
        match m.2.objs[m.1]? with
        | none => (.error .exception, h)
        | some om =>
          let r := m.2.pushView m.1 om (.quantity o.kind.dim) om.shape id
          (.ok r.1, r.2)
      else let r := h.alloc (h.arr o) .ndarray true; (.ok r.1, r.2)
  | .squeeze i k =>
    match h.objs[i]? with
    | none => (.error .exception, h)
    | some o =>
      if o.kind.isQuantity then
        let m := h.pushView i o .ndarray o.shape id
        match m.2.objs[m.1]? with
        | none => (.error .exception, h)
        | some om =>
          match k om.shape with
          | .error e => (.error e, h)
          | .ok (s, sel) =>
            let m' := m.2.pushView m.1 om .ndarray s sel
            match m'.2.objs[m'.1]? with
            | none => (.error .exception, h)
            | some om' =>
              let r := m'.2.pushView m'.1 om' (.quantity o.kind.dim) om'.shape id
              (.ok r.1, r.2)
      else (.error .exception, h)
  | .setitem i k v =>
    match h.objs[i]?, h.src v with
    | some o, some x => if o.kind.isQuantity then result i (h.setitem w o k x) else (.error .exception, h)
    | _, _ => (.error .exception, h)
  | .put i idxs v =>
    match h.objs[i]?, h.src v with
    | some o, some x => if o.kind.isQuantity then result i (h.put w o idxs x) else (.error .exception, h)
    | _, _ => (.error .exception, h)
  | .fill i v =>
    match h.objs[i]?, h.src v with
    | some o, some x => if o.kind.isQuantity then result i (h.fill i o x) else (.error .exception, h)
    | _, _ => (.error .exception, h)
  | .inplace op i v =>
    match h.objs[i]?, h.src v with
    | some o, some x => result i (h.inplace np2 w op i o x)
    | _, _ => (.error .exception, h)
  | .ipow i e =>
    match h.objs[i]? with
    | none => (.error .exception, h)
    | some o => result i (h.ipow np2 i o e)
  | .setUnits i d =>
    match h.objs[i]? with
    | none => (.error .exception, h)
    | some o => result i (h.setUnits w i o d)
  | .into f i out =>
    match h.objs[i]?, h.objs[out]? with
    | some o, some oo =>
      if o.kind.isQuantity then result out (h.into f o out oo) else (.error .exception, h)
    | _, _ => (.error .exception, h)
  | .rawWrite i k m =>
    match h.objs[i]? with
    | none => (.error .exception, h)
    | some o =>
      match o.kind with
      | .ndarray => result i (h.assign o k m)
      | _ => (.error .exception, h)

/-- Execute commands one after the other, going on after an exception. -/
def runAll (np2 : Bool) (w : World K) (h : Heap K) : List (Cmd K) → Heap K
  | [] => h
  | c :: cs => runAll np2 w (run np2 w h c).2 cs

end ops
end Heap
end PQ
