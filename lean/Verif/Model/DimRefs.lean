import Verif.Model.Quantity
import Verif.Model.Heap

/-!
# `Dimensionality` objects by reference

Everywhere else in the model a dimensionality is a value.  In Python it is a mutable `dict`, a
quantity holds a reference to one (`_dimensionality`), and a program can hold references too and
change the object behind them (`d *= e`, `d[u] = 1`, `d.clear()`).  Here `Dimensionality` objects are
positions in a store, so that copying one and sharing one are different things.

Simplified: every quantity owns its magnitude, which is a value (memory shared between arrays is
`Model/Heap.lean`), and no quantity is a view, so the protection of views does not appear; a
`Dimensionality` object that is created and dropped within one operation (such as the operand of
`from_u = Quantity(1.0, ...)`) is left out when nothing could reach it afterwards.  Not modelled: the
reference handed out by `__reduce__` (`quantity.py` 801-803), which is read by the pickling code.
-/

namespace PQ.Refs

variable {K : Type _}

/-- A `Quantity` object: magnitude and the reference `_dimensionality`. -/
structure QObj (K : Type _) where
  mag : NDArr K
  dptr : Nat

/-- The `Dimensionality` objects ever created, what the program's `Dimensionality` variables refer
to, and the program's quantities. -/
structure State (K : Type _) where
  store : List Dim
  vars : List Nat
  qs : List (QObj K)

/-- Before the program starts. -/
def State.empty : State K := ⟨[], [], []⟩

/-- The contents of an object. -/
def deref (st : List Dim) (p : Nat) : Dim := st.getD p []

/-- A new object. -/
def new (st : List Dim) (d : Dim) : Nat × List Dim := (st.length, st ++ [d])

/-- `Dimensionality.copy` (`dimensionality.py` 217-218). -/
def copyObj (st : List Dim) (p : Nat) : Nat × List Dim := new st (deref st p)

/-- `dict.update`. -/
def updateDict (d e : Dim) : Dim := e.foldl (fun d kv => Dict.set d kv.1 kv.2) d

/-- The `dimensionality` property (`quantity.py` 134-136). -/
def dimensionality (st : List Dim) (q : QObj K) : Nat × List Dim := copyObj st q.dptr

/-- `__array_finalize__` (`quantity.py` 294-295): the dimensionality of a view of, or a copy made
from, `obj`; `none` is a plain array. -/
def finalize (st : List Dim) : Option (QObj K) → Nat × List Dim
  | some q => dimensionality st q
  | none => new st []

/-- What can be passed as `units`: a string or unit object, whose dimensionality is `d`; a variable
holding a `Dimensionality`; a quantity. -/
inductive UArg
  | lit (d : Dim)
  | var (j : Nat)
  | qty (i : Nat)

/-- What can be written between two quantities. -/
abbrev Op := IOp

/-- `d1 * d2` and so on. -/
inductive DOp
  | mul | div | add | sub

/-- What a program can do. -/
inductive Cmd (K : Type _)
  /-- `d = Dimensionality({...})` -/
  | newDim (d : Dim)
  /-- `d = q.dimensionality` -/
  | dimOf (i : Nat)
  /-- `e = d.copy()`, `e = Dimensionality(d)` -/
  | copyDim (j : Nat)
  /-- `f = d * e` and so on -/
  | binDim (op : DOp) (j k : Nat)
  /-- `e = d ** p` -/
  | powDim (j : Nat) (p : ℚ)
  /-- `e = d.simplified` -/
  | simplifiedDim (j : Nat)
  /-- `d *= e` and so on (`dimensionality.py` 82-91, 106-115 for `+=`, `-=`, which leave `d` as it is) -/
  | ibinDim (op : DOp) (j k : Nat)
  /-- `d **= p` -/
  | ipowDim (j : Nat) (p : ℚ)
  /-- `d[u] = p` -/
  | setKey (j : Nat) (u : UKey) (p : ℚ)
  /-- `del d[u]`, `d.pop(u)` -/
  | delKey (j : Nat) (u : UKey)
  /-- `d.clear()` -/
  | clear (j : Nat)
  /-- `d.update(e)` -/
  | update (j k : Nat)
  /-- `q = Quantity(data, units)` -/
  | newQ (a : NDArr K) (u : UArg)
  /-- `x = UncertainQuantity(data, units)`; also gives the quantity `x.uncertainty` -/
  | newUncertain (a : NDArr K) (u : UArg)
  /-- `r = q[...]`, `r = q.T`, `r = q.copy()`: a quantity of the same units with the elements `f` -/
  | viewQ (i : Nat) (f : NDArr K → NDArr K)
  /-- `r = q[2, 3]`; `f` gives the element, or raises `IndexError` -/
  | itemQ (i : Nat) (f : NDArr K → Py K)
  /-- `r = q.units` -/
  | unitsQ (i : Nat)
  /-- `r = q.rescale(units)` -/
  | rescaleQ (i : Nat) (u : UArg)
  /-- `r = q.simplified` -/
  | simplifiedQ (i : Nat)
  /-- `r = q1 + q2` and so on -/
  | arithQ (op : Op) (i k : Nat)
  /-- `r = q ** e` -/
  | powQ (i : Nat) (e : ExpArg)
  /-- `q.units = units` -/
  | setUnitsQ (i : Nat) (u : UArg)
  /-- `q1 += q2` and so on -/
  | iarithQ (op : Op) (i k : Nat)
  /-- `q.fill(r)` -/
  | fillQ (i k : Nat)
  /-- `q.sum(out=r)`, `q.cumsum(out=r)`, ...; `f` gives the elements -/
  | outQ (f : NDArr K → Py (NDArr K)) (i out : Nat)

section ops
variable [Zero K] [One K] [Add K] [Sub K] [Mul K] [Div K] [RPow K] [PyFloor K] [DecidableEq K]

/-- `validate_unit_quantity` (`quantity.py` 19-29). -/
def isUnitQuantity (m : NDArr K) : Bool :=
  (m.shape == [] || m.shape == [1]) && m.toList.all (fun x => decide (x = 1))

/-- `validate_dimensionality` (`quantity.py` 31-47): always a new object. -/
def validate (s : State K) (st : List Dim) : UArg → Py Nat × List Dim
  | .lit d => let r := new st d; (.ok r.1, r.2)
  | .qty i =>
    match s.qs[i]? with
    | none => (.error .exception, st)
    | some q =>
      if isUnitQuantity q.mag then let r := dimensionality st q; (.ok r.1, r.2)
      else (.error .valueError, st)
  | .var j =>
    match s.vars[j]? with
    | none => (.error .exception, st)
    | some p => let r := copyObj st p; (.ok r.1, r.2)

/-- `ret._dimensionality.update(d)` on the object just made by `__array_finalize__` from a plain
array (`quantity.py` 130-131). -/
def construct (st : List Dim) (v : Nat) : Nat × List Dim :=
  let r := finalize (K := K) st none
  (r.1, r.2.set r.1 (updateDict (deref r.2 r.1) (deref r.2 v)))

/-- The value of a quantity. -/
def value (st : List Dim) (q : QObj K) : Quantity K := ⟨q.mag, deref st q.dptr⟩

/-- The operators between quantities, as values (`Model/Quantity.lean`). -/
def arithValue (w : World K) : Op → Quantity K → Quantity K → Py (Quantity K)
  | .add, a, b => a.add w (.quantity b)
  | .sub, a, b => a.sub w (.quantity b)
  | .mod, a, b => a.mod w (.quantity b)
  | .mul, a, b => a.mul w (.quantity b)
  | .div, a, b => a.truediv w (.quantity b)
  | .floordiv, a, b => a.floordiv w (.quantity b)

/-- The object `p_dict[ufunc](q1, q2)` (`dimensionality.py` 222-257): products and quotients are new
objects, `_d_check_uniform` returns `q1.dimensionality`. -/
def pdict (st : List Dim) : Op → QObj K → QObj K → Nat × List Dim
  | .mul, a, b => new st (Dim.mul (deref st a.dptr) (deref st b.dptr))
  | .div, a, b | .floordiv, a, b => new st (Dim.div (deref st a.dptr) (deref st b.dptr))
  | .add, a, _ | .sub, a, _ | .mod, a, _ => dimensionality st a

/-- Bind a new `Dimensionality` variable. -/
def bindDim (s : State K) (r : Nat × List Dim) : Option PyErr × State K :=
  (none, ⟨r.2, s.vars ++ [r.1], s.qs⟩)

/-- Bind a new quantity with magnitude `m`. -/
def bindQ (s : State K) (m : NDArr K) (r : Nat × List Dim) : Option PyErr × State K :=
  (none, ⟨r.2, s.vars, s.qs ++ [⟨m, r.1⟩]⟩)

/-- Change the contents of object `p`. -/
def write (s : State K) (p : Nat) (d : Dim) : State K := ⟨s.store.set p d, s.vars, s.qs⟩

/-- Replace quantity `i`. -/
def setQ (s : State K) (i : Nat) (m : NDArr K) (r : Nat × List Dim) : State K :=
  ⟨r.2, s.vars, s.qs.set i ⟨m, r.1⟩⟩

/-- Run one command; an exception leaves the program's variables as they were. -/
def step (np2 : Bool) (w : World K) (fuel : Nat) (s : State K) : Cmd K → Option PyErr × State K
  | .newDim d => bindDim s (new s.store d)
  | .dimOf i =>
    match s.qs[i]? with
    | none => (some .exception, s)
    | some q => bindDim s (dimensionality s.store q)
  | .copyDim j =>
    match s.vars[j]? with
    | none => (some .exception, s)
    | some p => bindDim s (copyObj s.store p)
  | .binDim op j k =>
    match s.vars[j]?, s.vars[k]? with
    | some p, some r =>
      match op with
      -- `dimensionality.py` 117-127, 140-150: `new = Dimensionality(self)`
      | .mul => bindDim s (new s.store (Dim.mul (deref s.store p) (deref s.store r)))
      | .div => bindDim s (new s.store (Dim.div (deref s.store p) (deref s.store r)))
      -- 69-80, 93-104: `return self.copy()`
      | .add | .sub =>
        if w.deq (deref s.store p) (deref s.store r) then bindDim s (copyObj s.store p)
        else (some .valueError, s)
    | _, _ => (some .exception, s)
  | .powDim j p =>
    match s.vars[j]? with
    | none => (some .exception, s)
    | some o => bindDim s (new s.store (Dim.pow (deref s.store o) p))
  | .simplifiedDim j =>
    match s.vars[j]? with
    | none => (some .exception, s)
    | some p =>
      -- `dimensionality.py` 33-41: an empty one returns itself
      if (deref s.store p).isEmpty then bindDim s (p, s.store)
      else
        match Dim.simplified w fuel (deref s.store p) with
        | .error e => (some e, s)
        | .ok d => bindDim s (new s.store d)
  | .ibinDim op j k =>
    match s.vars[j]?, s.vars[k]? with
    | some p, some r =>
      match op with
      -- `dimensionality.py` 129-138, 152-161
      | .mul =>
        if p = r then
          let x := Dim.imulSelf (deref s.store p); (x.1, write s p x.2)
        else (none, write s p (Dim.imul (deref s.store p) (deref s.store r)))
      | .div =>
        if p = r then
          let x := Dim.itruedivSelf (deref s.store p); (x.1, write s p x.2)
        else (none, write s p (Dim.itruediv (deref s.store p) (deref s.store r)))
      -- 82-91, 106-115: the check, then `return self`
      | .add | .sub =>
        if w.deq (deref s.store p) (deref s.store r) then (none, s) else (some .valueError, s)
    | _, _ => (some .exception, s)
  | .ipowDim j e =>
    match s.vars[j]? with
    | none => (some .exception, s)
    | some p => (none, write s p (Dim.ipow (deref s.store p) e))
  | .setKey j u e =>
    match s.vars[j]? with
    | none => (some .exception, s)
    | some p => (none, write s p (Dict.set (deref s.store p) u e))
  | .delKey j u =>
    match s.vars[j]? with
    | none => (some .exception, s)
    | some p =>
      if (Dict.get? (deref s.store p) u).isSome then (none, write s p (Dict.pop (deref s.store p) u))
      else (some .keyError, s)
  | .clear j =>
    match s.vars[j]? with
    | none => (some .exception, s)
    | some p => (none, write s p [])
  | .update j k =>
    match s.vars[j]?, s.vars[k]? with
    | some p, some r => (none, write s p (updateDict (deref s.store p) (deref s.store r)))
    | _, _ => (some .exception, s)
  | .newQ a u =>
    -- `quantity.py` 130-131
    match validate s s.store u with
    | (.error e, _) => (some e, s)
    | (.ok v, st) => bindQ s a (construct (K := K) st v)
  | .newUncertain a u =>
    -- `uncertainquantity.py` 22-24: `ret._uncertainty._dimensionality = ret._dimensionality`
    match validate s s.store u with
    | (.error e, _) => (some e, s)
    | (.ok v, st) =>
      let r := construct (K := K) st v
      (none, ⟨r.2, s.vars, s.qs ++ [⟨a, r.1⟩, ⟨⟨a.shape, fun _ => 0⟩, r.1⟩]⟩)
  | .viewQ i f =>
    match s.qs[i]? with
    | none => (some .exception, s)
    | some q => bindQ s (f q.mag) (finalize s.store (some q))
  | .itemQ i f =>
    -- `quantity.py` 437-442: `Quantity(ret, self._dimensionality)`
    match s.qs[i]? with
    | none => (some .exception, s)
    | some q =>
      match f q.mag with
      | .error e => (some e, s)
      | .ok x =>
        let v := copyObj s.store q.dptr
        bindQ s (NDArr.scalar x) (construct (K := K) v.2 v.1)
  | .unitsQ i =>
    -- `quantity.py` 183-185: `Quantity(1.0, self.dimensionality)`
    match s.qs[i]? with
    | none => (some .exception, s)
    | some q =>
      let d := dimensionality s.store q
      let v := copyObj d.2 d.1
      bindQ s (NDArr.scalar 1) (construct (K := K) v.2 v.1)
  | .rescaleQ i u =>
    -- `quantity.py` 223-241
    match s.qs[i]? with
    | none => (some .exception, s)
    | some q =>
      match validate s s.store u with
      | (.error e, _) => (some e, s)
      | (.ok t, st) =>
        if w.deq (deref st q.dptr) (deref st t) then bindQ s q.mag (finalize st (some q))
        else
          match w.convFactor (deref st q.dptr) (deref st t) with
          | .ok cf =>
            -- `to_u = Quantity(1.0, to_dims)`, then `Quantity(new_magnitude, to_u)`
            let tu := construct (K := K) st t
            let v := copyObj tu.2 tu.1
            bindQ s (q.mag.map (fun x => cf * x)) (construct (K := K) v.2 v.1)
          | .error .assertionError => (some .valueError, s)
          | .error e => (some e, s)
  | .simplifiedQ i =>
    -- `quantity.py` 176-181: a product of new quantities
    match s.qs[i]? with
    | none => (some .exception, s)
    | some q =>
      match (value s.store q).simplified w fuel with
      | .error e => (some e, s)
      | .ok r => bindQ s r.mag (new s.store r.dim)
  | .arithQ op i k =>
    match s.qs[i]?, s.qs[k]? with
    | some a, some b =>
      match arithValue w op (value s.store a) (value s.store b) with
      | .error e => (some e, s)
      | .ok r => bindQ s r.mag (pdict s.store op a b)
    | _, _ => (some .exception, s)
  | .powQ i e =>
    match s.qs[i]? with
    | none => (some .exception, s)
    | some q =>
      match (value s.store q).pow e, uniformExp e.vals with
      | .ok r, .ok p => bindQ s r.mag (new s.store (Dim.pow (deref s.store q.dptr) p))
      | .error err, _ | _, .error err => (some err, s)
  | .setUnitsQ i u =>
    -- `quantity.py` 196-210
    match s.qs[i]? with
    | none => (some .exception, s)
    | some q =>
      match validate s s.store u with
      | (.error e, _) => (some e, s)
      | (.ok t, st) =>
        if w.deq (deref st q.dptr) (deref st t) then (none, s)
        else
          match w.convFactor (deref st q.dptr) (deref st t) with
          | .ok cf =>
            let tu := construct (K := K) st t
            (none, setQ s i (q.mag.map (fun x => x * cf)) (copyObj tu.2 tu.1))
          | .error .assertionError => (some .valueError, s)
          | .error e => (some e, s)
  | .iarithQ op i k =>
    -- `quantity.py` 346-391, 304-311 (numpy 2: 321-333, the units stay)
    match s.qs[i]?, s.qs[k]? with
    | some a, some b =>
      match arithValue w op (value s.store a) (value s.store b) with
      | .error e => (some e, s)
      | .ok r =>
        if r.mag.shape ≠ a.mag.shape then (some .valueError, s)
        else if np2 then (none, ⟨s.store, s.vars, s.qs.set i ⟨r.mag, a.dptr⟩⟩)
        else (none, setQ s i r.mag (pdict s.store op a b))
    | _, _ => (some .exception, s)
  | .fillQ i k =>
    -- `quantity.py` 537-543
    match s.qs[i]?, s.qs[k]? with
    | some a, some b =>
      match b.mag.toList with
      | [c] => (none, setQ s i ⟨a.mag.shape, fun _ => c⟩ (dimensionality s.store b))
      | _ => (some .valueError, s)
    | _, _ => (some .exception, s)
  | .outQ f i out =>
    -- `quantity.py` 519-527 and the other methods with `out`
    match s.qs[i]?, s.qs[out]? with
    | some a, some o =>
      match f a.mag with
      | .error e => (some e, s)
      | .ok m =>
        if m.shape ≠ o.mag.shape then (some .valueError, s)
        else (none, setQ s out m (dimensionality s.store a))
    | _, _ => (some .exception, s)

/-- Execute commands one after the other, going on after an exception. -/
def run (np2 : Bool) (w : World K) (fuel : Nat) (s : State K) : List (Cmd K) → State K
  | [] => s
  | c :: cs => run np2 w fuel (step np2 w fuel s c).2 cs

end ops
end PQ.Refs
