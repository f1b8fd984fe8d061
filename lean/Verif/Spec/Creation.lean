import Verif.Spec.Memory

/-!
# New array objects

What a program can observe of an array object that a command has just created: either it is independent of
everything that existed before, or it is a window on an existing object.  `h` is the memory before, `h1` after the
creation.
-/

namespace PQ

variable {K : Type _} [Zero K] [One K] [Add K] [Sub K] [Mul K] [Div K] [RPow K] [PyFloor K] [DecidableEq K]

/-- The new object `v` is of type and units `k` and shows `a`; nothing that existed has changed; and whatever a program
does later, it is noticed in `v` only if it works on what was created here, and what is done to `v`, or to objects
made later, is not noticed in anything that existed before. -/
structure Independent (np2 : Bool) (w : World K) (h h1 : Heap K) (v : Nat) (k : AKind) (a : NDArr K) : Prop where
  new : h.objs.length ≤ v
  shows : Sees h1 v k a
  others : ∀ (m : Nat) (k' : AKind) (a' : NDArr K), Sees h m k' a' → Sees h1 m k' a'
  unaffected : ∀ cs : List (Cmd K), (∀ c ∈ cs, c.Valid) →
    (∀ c ∈ cs, ∀ m, c.touches = some m → m < h.objs.length ∨ h1.objs.length ≤ m) → Sees (h1.runAll np2 w cs) v k a
  unnoticed : ∀ cs : List (Cmd K), (∀ c ∈ cs, c.Valid) → (∀ c ∈ cs, ∀ m, c.touches = some m → h.objs.length ≤ m) →
    ∀ (m : Nat) (k' : AKind) (a' : NDArr K), Sees h m k' a' → Sees (h1.runAll np2 w cs) m k' a'

/-- The new object `v` is of type and units `k` and of shape `s`; nothing that existed has changed; and whatever a
program does later, `v` shows at every index `j` what object `i` shows at `sel j`. -/
structure Window (np2 : Bool) (w : World K) (h h1 : Heap K) (i v : Nat) (k : AKind) (s : List Nat)
    (sel : List Nat → List Nat) : Prop where
  new : h.objs.length ≤ v
  shows : ∃ a, Sees h1 v k a
  others : ∀ (m : Nat) (k' : AKind) (a' : NDArr K), Sees h m k' a' → Sees h1 m k' a'
  live : ∀ cs : List (Cmd K), (∀ c ∈ cs, c.Valid) → ∃ (k1 k2 : AKind) (a b : NDArr K),
    Sees (h1.runAll np2 w cs) i k1 a ∧ Sees (h1.runAll np2 w cs) v k2 b ∧ b.shape = s ∧
    ∀ j, NDArr.InB s j → b.elem j = a.elem (sel j)

end PQ
