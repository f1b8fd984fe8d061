/-!
# Python `dict` (insertion ordered)

A `dict` is the list of its items in iteration order.  The operations follow CPython's documented
behaviour: assigning to an existing key keeps its position, assigning to a new key appends,
`pop` removes.  Key equality is Lean equality on the key type.
-/

namespace PQ

/-- A Python `dict`: items in insertion order. -/
abbrev Dict (κ ν : Type _) := List (κ × ν)

namespace Dict

variable {κ ν : Type _} [DecidableEq κ]

/-- `d.get(k)` / `d[k]` with `none` for `KeyError`. -/
def get? : Dict κ ν → κ → Option ν
  | [], _ => none
  | (k', v) :: d, k => if k' = k then some v else get? d k

/-- `d[k] = v`. -/
def set : Dict κ ν → κ → ν → Dict κ ν
  | [], k, v => [(k, v)]
  | (k', v') :: d, k, v => if k' = k then (k', v) :: d else (k', v') :: set d k v

/-- `d.pop(k)` on a dict that contains `k` (removes the item; the value is not needed here). -/
def pop : Dict κ ν → κ → Dict κ ν
  | [], _ => []
  | (k', v') :: d, k => if k' = k then d else (k', v') :: pop d k

/-- `list(d)`. -/
def keys (d : Dict κ ν) : List κ := d.map Prod.fst

/-- The representation invariant of a Python `dict`: no key occurs twice. -/
def Nodup (d : Dict κ ν) : Prop := (d.map Prod.fst).Nodup

instance (d : Dict κ ν) : Decidable (Nodup d) := inferInstanceAs (Decidable (d.map Prod.fst).Nodup)

end Dict
end PQ
