import Verif.Model.Uncertain

/-!
# The nan-aware methods of `UncertainQuantity`

Elements are `Option K`, `none` being nan; value and uncertainty of a measurement can each be nan.
Simplification: infinite results (the uncertainty of `nanmean` where every value is nan and an
uncertainty is not zero) are nan here.
-/

namespace PQ

variable {K : Type _}

/-- Number of elements that are not nan: `np.sum(~np.isnan(x), axis)` of a list (`quantity.py` 307-308
leaves the result of `isnan` plain). -/
def countNotNan (l : List (Option K)) : Nat := l.reduceOption.length

/-- Flat position of the best element that is not nan: `np.nanargmax`, `np.nanargmin`; `none` (numpy
raises `ValueError`) if every element is nan. -/
def nanArgbest (lt : K → K → Bool) (l : List (Option K)) : Option Nat :=
  let ps := l.zipIdx.filterMap (fun p => p.1.map (fun x => (x, p.2)))
  (ps[NDArr.argbest lt (ps.map Prod.fst)]?).map Prod.snd

namespace UQ

/-- `UncertainQuantity(m, d, u)` for two plain arrays (`uncertainquantity.py` 17-34, 56-66): the units
are the same, the shapes are compared. -/
def ofArrays (m u : NDArr (Option K)) (d : Dim) : Py (UQ (Option K)) :=
  if m.shape = u.shape then .ok ⟨⟨m, d⟩, ⟨u, d⟩⟩ else .error .valueError

section
variable [Field K] [LinearOrder K] [RPow K]

/-- `UncertainQuantity.nansum` (`uncertainquantity.py` 208-214). -/
def nansum (self : UQ (Option K)) (ax : Axis) : Py (UQ (Option K)) := do
  let m ← self.val.mag.reduce (Quantity.nanOver List.sum (some 0)) ax
  let s ← (self.unc.mag.map (Option.map (fun x => rpow x 2))).reduce (Quantity.nanOver List.sum (some 0)) ax
  ofArrays m (s.map (Option.map (fun x => rpow x (1/2)))) self.val.dim

/-- `pq.nansum(x, axis)` of an uncertain quantity (`umath.py` 47-56): a plain `Quantity` from the magnitudes; the
uncertainty is not looked at. -/
def umathNansum (self : UQ (Option K)) (ax : Axis) : Py (Quantity (Option K)) :=
  match self.val.mag.reduce (Quantity.nanOver List.sum (some 0)) ax with
  | .error e => .error e
  | .ok m => .ok ⟨m, self.val.dim⟩

/-- `((1.0/size)**2 * s)**0.5`, nan for size 0. -/
def meanSigma (n : Nat) (s : Option K) : Option K :=
  if n = 0 then none else s.map (fun x => rpow (rpow (1 / (n : K)) 2 * x) (1/2))

/-- `UncertainQuantity.nanmean` (`uncertainquantity.py` 224-231). -/
def nanmean (self : UQ (Option K)) (ax : Axis) : Py (UQ (Option K)) := do
  let size ← self.val.mag.reduce countNotNan ax
  let m ← self.val.mag.reduce (Quantity.nanOver NDArr.lmean none) ax
  let s ← (self.unc.mag.map (fun x => some (rpow (x.getD 0) 2))).reduce
    (Quantity.nanOver List.sum (some 0)) ax
  let u ← NDArr.bin meanSigma size s
  ofArrays m u self.val.dim

/-- `UncertainQuantity.__getitem__` (`uncertainquantity.py` 168-174) with nans. -/
def getitemNan (w : World K) (self : UQ (Option K)) (k : Key) : Py (UQ (Option K)) := do
  let m ← self.val.mag.select k
  let u ← self.unc.mag.select k
  let u' ← Quantity.rescaleNan w ⟨u, self.unc.dim⟩ self.val.dim
  ofArrays m u'.mag self.val.dim

/-- `self[np.unravel_index(pos, self.shape)]`. -/
def nanbest (lt : K → K → Bool) (w : World K) (self : UQ (Option K)) : Py (UQ (Option K)) :=
  match nanArgbest lt self.val.mag.toList with
  | none => .error .valueError
  | some p =>
    match (NDArr.indices self.val.mag.shape)[p]? with
    | none => .error .valueError
    | some i => getitemNan w self (fun _ => .ok ([], fun _ => i))

/-- `UncertainQuantity.nanmax` (`uncertainquantity.py` 242-245); `axis` is ignored. -/
def nanmax (w : World K) (self : UQ (Option K)) (_ax : Axis) : Py (UQ (Option K)) :=
  nanbest (fun x y => decide (x < y)) w self

/-- `UncertainQuantity.nanmin` (`uncertainquantity.py` 252-255); `axis` is ignored. -/
def nanmin (w : World K) (self : UQ (Option K)) (_ax : Axis) : Py (UQ (Option K)) :=
  nanbest (fun x y => decide (y < x)) w self

/-- `UncertainQuantity.nanargmax` (`uncertainquantity.py` 269-271); `axis` is ignored. -/
def nanargmax (self : UQ (Option K)) (_ax : Axis) : Py (NDArr Nat) :=
  match nanArgbest (fun x y => decide (x < y)) self.val.mag.toList with
  | none => .error .valueError
  | some p => .ok (NDArr.scalar p)

/-- `UncertainQuantity.nanargmin` (`uncertainquantity.py` 265-267); `axis` is ignored. -/
def nanargmin (self : UQ (Option K)) (_ax : Axis) : Py (NDArr Nat) :=
  match nanArgbest (fun x y => decide (y < x)) self.val.mag.toList with
  | none => .error .valueError
  | some p => .ok (NDArr.scalar p)

end
end UQ
end PQ
