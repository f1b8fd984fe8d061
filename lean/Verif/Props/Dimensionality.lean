import Verif.Lemmas.Dim
import Verif.Lemmas.PyHash

/-!
# Properties C01-C07: unit algebra

The theorems quantify over all dimensionalities, exponents, hash functions (`H`) and numberings of
units (`ord`).
-/

namespace PQ

open Dict

/-- A concrete dimensionality for the examples: `m * s**-2`. -/
def exMS : Dim := [(⟨.length, "meter"⟩, 1), (⟨.time, "second"⟩, -2)]

/-- A concrete dimensionality for the examples: `s**2 * kg**0.5`. -/
def exSK : Dim := [(⟨.time, "second"⟩, 2), (⟨.mass, "kilogram"⟩, 1/2)]

theorem exMS_canon : Canon exMS := ⟨by decide, by decide⟩
theorem exSK_canon : Canon exSK := ⟨by decide, by decide +kernel⟩

/-! ## C01 -/

/-- C01: exponents add under `*`. -/
theorem C01_mul (a b : Dim) (ha : Dict.Nodup a) (hb : Dict.Nodup b) (u : UKey) :
    expo (Dim.mul a b) u = expo a u + expo b u := expo_mul ha hb u

/-- C01: exponents subtract under `/`. -/
theorem C01_div (a b : Dim) (ha : Dict.Nodup a) (hb : Dict.Nodup b) (u : UKey) :
    expo (Dim.div a b) u = expo a u - expo b u := expo_div ha hb u

/-- C01: exponents are multiplied by `p` under `** p`, also for `p = 0`. -/
theorem C01_pow (a : Dim) (p : ℚ) (u : UKey) : expo (Dim.pow a p) u = expo a u * p :=
  expo_pow a p u

/-- C01: the operators accept exactly the argument types they should. -/
theorem C01_types (a : Dim) :
    (∀ b, Dim.mulArg a (.dim b) = .ok (Dim.mul a b)) ∧
    (∀ b, Dim.divArg a (.dim b) = .ok (Dim.div a b)) ∧
    (∀ p, Dim.powArg a (.scalar p) = .ok (Dim.pow a p)) ∧
    (∀ p, Dim.mulArg a (.scalar p) = .error .typeError) ∧
    (∀ p, Dim.divArg a (.scalar p) = .error .typeError) ∧
    (∀ b, Dim.powArg a (.dim b) = .error .typeError) ∧
    Dim.mulArg a .other = .error .typeError ∧ Dim.divArg a .other = .error .typeError ∧
    Dim.powArg a .other = .error .typeError :=
  ⟨fun _ => rfl, fun _ => rfl, fun _ => rfl, fun _ => rfl, fun _ => rfl, fun _ => rfl, rfl, rfl, rfl⟩

example : Dict.Nodup exMS ∧ Dict.Nodup exSK ∧
    Dim.mul exMS exSK = [(⟨.length, "meter"⟩, 1), (⟨.mass, "kilogram"⟩, 1/2)] :=
  ⟨exMS_canon.nodup, exSK_canon.nodup, by decide +kernel⟩

/-! ## C02 -/

/-- The dimensionality the library computes for an expression over units. -/
def UExpr.eval : UExpr → Dim
  | unit u => [(u, 1)]
  | number => []
  | mul a b => Dim.mul a.eval b.eval
  | div a b => Dim.div a.eval b.eval
  | pow a p => Dim.pow a.eval p

/-- C02: every expression evaluates to a dimensionality without repeated units and without zero
exponents. -/
theorem C02_canonical (e : UExpr) : Canon e.eval := by
  induction e with
  | unit u => exact ⟨by simp [Dict.Nodup, UExpr.eval], by simp [UExpr.eval]⟩
  | number => exact Canon.nil
  | mul a b iha ihb => exact canon_mul iha ihb.nonzero
  | div a b iha ihb => exact canon_div iha ihb.nonzero
  | pow a p ih => exact canon_pow ih p

/-- C02: and its exponents are those of the expression. -/
theorem C02_exponent (e : UExpr) (u : UKey) : expo e.eval u = e.exponent u := by
  induction e with
  | unit v => simp [UExpr.eval, expo_cons, UExpr.exponent]
  | number => rfl
  | mul a b iha ihb =>
    simp only [UExpr.eval, UExpr.exponent]
    rw [expo_mul (C02_canonical a).nodup (C02_canonical b).nodup, iha, ihb]
  | div a b iha ihb =>
    simp only [UExpr.eval, UExpr.exponent]
    rw [expo_div (C02_canonical a).nodup (C02_canonical b).nodup, iha, ihb]
  | pow a p ih => simp only [UExpr.eval, UExpr.exponent]; rw [expo_pow, ih]

/-- C02: an expression is dimensionless (empty) exactly when everything cancels. -/
theorem C02_cancel (e : UExpr) : e.eval = [] ↔ ∀ u, e.exponent u = 0 := by
  constructor
  · intro h u; rw [← C02_exponent, h]; rfl
  · intro h
    exact (C02_canonical e).eq_nil (fun u => by rw [C02_exponent, h u])

example : (UExpr.div (.pow (.unit ⟨.length, "meter"⟩) 2)
    (.mul (.unit ⟨.length, "meter"⟩) (.unit ⟨.length, "meter"⟩))).eval = [] := by decide +kernel

/-! ## C03 -/

section laws
variable (H : Hasher) (ord : UKey → Nat × Nat)

/-- What "equal" means to a user: `==` is `True`, `!=` is `False`, the hashes agree, and the
contents are the same. -/
structure Same (a b : Dim) : Prop where
  eq : Dim.eq H ord a b = true
  ne : Dim.ne H ord a b = false
  hash : Dim.hash H ord a = Dim.hash H ord b
  content : SameContent a b

theorem same_of_expo {a b : Dim} (ha : Canon a) (hb : Canon b) (h : ∀ u, expo a u = expo b u) :
    Same H ord a b := by
  have hs := ha.sameContent hb h
  have he := deq_of_same H ord ha.nodup hb.nodup hs
  exact ⟨he, by rw [ne_eq_not_eq, he]; rfl, hash_perm H ord ord (ha.perm hb h), hs⟩

theorem C03_mul_comm (a b : Dim) (ha : Canon a) (hb : Canon b) :
    Same H ord (Dim.mul a b) (Dim.mul b a) :=
  same_of_expo H ord (canon_mul ha hb.nonzero) (canon_mul hb ha.nonzero) fun u => by
    rw [expo_mul ha.nodup hb.nodup, expo_mul hb.nodup ha.nodup, add_comm]

theorem C03_mul_assoc (a b c : Dim) (ha : Canon a) (hb : Canon b) (hc : Canon c) :
    Same H ord (Dim.mul (Dim.mul a b) c) (Dim.mul a (Dim.mul b c)) := by
  have hab := canon_mul ha hb.nonzero
  have hbc := canon_mul hb hc.nonzero
  refine same_of_expo H ord (canon_mul hab hc.nonzero) (canon_mul ha hbc.nonzero) fun u => ?_
  rw [expo_mul hab.nodup hc.nodup, expo_mul ha.nodup hbc.nodup, expo_mul ha.nodup hb.nodup,
    expo_mul hb.nodup hc.nodup, add_assoc]

theorem C03_one_mul (a : Dim) (ha : Canon a) :
    Same H ord (Dim.mul [] a) a ∧ Same H ord (Dim.mul a []) a :=
  ⟨same_of_expo H ord (canon_mul Canon.nil ha.nonzero) ha fun u => by
      rw [expo_mul Canon.nil.nodup ha.nodup]; simp,
   same_of_expo H ord (canon_mul ha (by simp)) ha fun u => by
      rw [expo_mul ha.nodup Canon.nil.nodup]; simp⟩

theorem C03_div_eq_mul_inv (a b : Dim) (ha : Canon a) (hb : Canon b) :
    Same H ord (Dim.div a b) (Dim.mul a (Dim.pow b (-1))) :=
  same_of_expo H ord (canon_div ha hb.nonzero) (canon_mul ha (canon_pow hb _).nonzero) fun u => by
    rw [expo_div ha.nodup hb.nodup, expo_mul ha.nodup (canon_pow hb _).nodup, expo_pow]; ring

theorem C03_div_self (a : Dim) (ha : Canon a) : Dim.div a a = [] :=
  (canon_div ha ha.nonzero).eq_nil fun u => by rw [expo_div ha.nodup ha.nodup, sub_self]

theorem C03_mul_pow (a b : Dim) (ha : Canon a) (hb : Canon b) (p : ℚ) :
    Same H ord (Dim.pow (Dim.mul a b) p) (Dim.mul (Dim.pow a p) (Dim.pow b p)) := by
  refine same_of_expo H ord (canon_pow (canon_mul ha hb.nonzero) p)
    (canon_mul (canon_pow ha p) (canon_pow hb p).nonzero) fun u => ?_
  rw [expo_pow, expo_mul ha.nodup hb.nodup, expo_mul (canon_pow ha p).nodup (canon_pow hb p).nodup,
    expo_pow, expo_pow]; ring

theorem C03_pow_pow (a : Dim) (ha : Canon a) (p q : ℚ) :
    Same H ord (Dim.pow (Dim.pow a p) q) (Dim.pow a (p * q)) :=
  same_of_expo H ord (canon_pow (canon_pow ha p) q) (canon_pow ha _) fun u => by
    rw [expo_pow, expo_pow, expo_pow]; ring

theorem C03_pow_add (a : Dim) (ha : Canon a) (p q : ℚ) :
    Same H ord (Dim.mul (Dim.pow a p) (Dim.pow a q)) (Dim.pow a (p + q)) :=
  same_of_expo H ord (canon_mul (canon_pow ha p) (canon_pow ha q).nonzero) (canon_pow ha _)
    fun u => by
      rw [expo_mul (canon_pow ha p).nodup (canon_pow ha q).nodup, expo_pow, expo_pow, expo_pow]
      ring

theorem C03_pow_one (a : Dim) (ha : Canon a) : Same H ord (Dim.pow a 1) a ∧ Dim.pow a 0 = [] :=
  ⟨same_of_expo H ord (canon_pow ha 1) ha fun u => by rw [expo_pow, mul_one], rfl⟩

example (H : Hasher) : Same H (fun u => (u.cls.primaryOrder, 0)) (Dim.mul exMS exSK)
    (Dim.mul exSK exMS) := C03_mul_comm _ _ _ _ exMS_canon exSK_canon

/-! ## C04 -/

/-- C04: `==`, `!=` and `hash` do not see the insertion order, for every hash seed; the hash does not
depend on how the units are numbered either. -/
theorem C04_order_independent (a b : Dim) (ha : Dict.Nodup a) (hb : Dict.Nodup b)
    (h : SameContent a b) : Same H ord a b :=
  have he := deq_of_same H ord ha hb h
  ⟨he, by rw [ne_eq_not_eq, he]; rfl, hash_perm H ord ord (perm_of_get?_eq ha hb h), h⟩

theorem C04_numbering (ord' : UKey → Nat × Nat) (a b : Dim) (h : a.Perm b) :
    Dim.hash H ord a = Dim.hash H ord' b := hash_perm H ord ord' h

/-- C04: `==` is an equivalence relation and is consistent with `hash` and `!=`. -/
theorem C04_equivalence :
    (∀ a, Dim.eq H ord a a = true) ∧
    (∀ a b, Dim.eq H ord a b = Dim.eq H ord b a) ∧
    (∀ a b c, Dim.eq H ord a b = true → Dim.eq H ord b c = true → Dim.eq H ord a c = true) ∧
    (∀ a b, Dim.eq H ord a b = true → Dim.hash H ord a = Dim.hash H ord b) ∧
    (∀ a b, Dim.ne H ord a b = !Dim.eq H ord a b) := by
  refine ⟨fun a => deq_refl H ord a, fun a b => ?_, fun a b c => ?_, fun a b => ?_, fun _ _ => rfl⟩
  · unfold Dim.eq; exact Bool.beq_comm
  · unfold Dim.eq; simp only [beq_iff_eq]; exact fun h1 h2 => h1.trans h2
  · unfold Dim.eq; simp

example (H : Hasher) : Same H (fun u => (u.cls.primaryOrder, 0)) exMS exMS.reverse :=
  C04_order_independent _ _ _ _ exMS_canon.nodup (by decide)
    (Dict.get?_perm exMS_canon.nodup (List.reverse_perm _).symm)

/-! ## C05 -/

/-- The (unit hash, number hash) pairs from which the hash of a dimensionality is computed. -/
def hashPairs (H : Hasher) (d : Dim) : List (Int × Int) :=
  d.map (fun kv => (H.key kv.1, pyHashNum (hashedExponent kv.2)))

/-- A collision of the 64-bit tuple hashes of two different sets of pairs. -/
def TupleCollision (H : Hasher) (ord : UKey → Nat × Nat) (a b : Dim) : Prop :=
  Dim.hash H ord a = Dim.hash H ord b ∧ ¬ (hashPairs H a).Perm (hashPairs H b)

/-- C05, partial. Full claim: `a == b` implies same content. Proved: for exponents whose numerator
and denominator are below `2^29`, two `==` dimensionalities have the same content, unless two unit
objects involved have the same hash, or the 64-bit tuple hashes collide. In particular the number
hash (where Python has `hash(-1) == hash(-2)`) never confuses two such exponents. Missing: collisions
are possible, see `C05_false`. -/
theorem C05_eq_sound_partial (a b : Dim) (ha : Dict.Nodup a) (hb : Dict.Nodup b)
    (hsa : ∀ kv ∈ a, SmallExp kv.2) (hsb : ∀ kv ∈ b, SmallExp kv.2)
    (hkey : ∀ kv ∈ a, ∀ kv' ∈ b, H.key kv.1 = H.key kv'.1 → kv.1 = kv'.1)
    (hcoll : ¬ TupleCollision H ord a b)
    (heq : Dim.eq H ord a b = true) : SameContent a b := by
  have hh : Dim.hash H ord a = Dim.hash H ord b := by simpa [Dim.eq] using heq
  have hp : (hashPairs H a).Perm (hashPairs H b) := by
    by_contra hc; exact hcoll ⟨hh, hc⟩
  have aux : ∀ (x y : Dim), (∀ kv ∈ x, SmallExp kv.2) → (∀ kv ∈ y, SmallExp kv.2) →
      (∀ kv ∈ x, ∀ kv' ∈ y, H.key kv.1 = H.key kv'.1 → kv.1 = kv'.1) →
      (hashPairs H x).Perm (hashPairs H y) → ∀ kv ∈ x, kv ∈ y := by
    intro x y hx hy hk hp kv hkv
    have h1 : (H.key kv.1, pyHashNum (hashedExponent kv.2)) ∈ hashPairs H y :=
      hp.mem_iff.1 (List.mem_map_of_mem (f := fun kv : UKey × ℚ =>
        (H.key kv.1, pyHashNum (hashedExponent kv.2))) hkv)
    obtain ⟨kv', hkv', he⟩ := List.mem_map.1 h1
    simp only [Prod.mk.injEq] at he
    have e1 := hk kv hkv kv' hkv' he.1.symm
    have e2 := exponentHash_inj (hy _ hkv') (hx _ hkv) he.2
    have : kv = kv' := Prod.ext e1 e2.symm
    rwa [this]
  have hab := aux a b hsa hsb hkey hp
  have hba := aux b a hsb hsa (fun x hx y hy h => (hkey y hy x hx h.symm).symm) hp.symm
  exact fun u => Dict.get?_perm ha
    ((List.perm_ext_iff_of_nodup ha.of_map hb.of_map).2 fun x => ⟨hab x, hba x⟩) u

end laws

/-- C05 is false of the code: for *every* hash function, `m == m**(2**61)`. -/
theorem C05_false : ∃ a b : Dim, Canon a ∧ Canon b ∧ ¬ SameContent a b ∧
    ∀ (H : Hasher) (ord : UKey → Nat × Nat), Dim.eq H ord a b = true := by
  let m : UKey := ⟨.length, "meter"⟩
  refine ⟨[(m, ((1 : ℕ) : ℚ))], [(m, ((2 ^ 61 : ℕ) : ℚ))], ⟨by decide, by simp⟩,
    ⟨by decide, by simp⟩, ?_, ?_⟩
  · intro h
    have := h m
    simp [Dict.get?_cons] at this
  · intro H ord
    have e : pyHashNum ((1 : ℕ) : ℚ) = pyHashNum ((2 ^ 61 : ℕ) : ℚ) := by
      rw [pyHashNum_nat, pyHashNum_nat]; decide
    have p1 : hashedExponent ((1 : ℕ) : ℚ) = ((1 : ℕ) : ℚ) := by
      unfold hashedExponent; rw [if_neg (by norm_num)]
    have p2 : hashedExponent ((2 ^ 61 : ℕ) : ℚ) = ((2 ^ 61 : ℕ) : ℚ) := by
      unfold hashedExponent; rw [if_neg (by norm_num)]
    simp only [Dim.eq, Dim.hash, rawHash_eq, List.foldl_cons, List.foldl_nil, Hasher.item, p1, p2, e,
      beq_self_eq_true]

/-- A hash function for the examples: distinct on the units and pairs it is used with. -/
def exHasher : Hasher where
  base := 0
  key u := u.cls.primaryOrder
  pair a b := BitVec.ofInt 64 (a * 1000 + b)

/-- `m` and `m**-1`. -/
def exM : Dim := [(⟨.length, "meter"⟩, 1)]

/-- `m**-1`. -/
def exMinv : Dim := [(⟨.length, "meter"⟩, -1)]

example : Dict.Nodup exM ∧ Dict.Nodup exM ∧ (∀ kv ∈ exM, SmallExp kv.2) ∧
    (∀ kv ∈ exM, ∀ kv' ∈ exM, exHasher.key kv.1 = exHasher.key kv'.1 → kv.1 = kv'.1) ∧
    ¬ TupleCollision exHasher (fun _ => (0, 0)) exM exM ∧
    Dim.eq exHasher (fun _ => (0, 0)) exM exM = true := by
  refine ⟨by decide, by decide, ?_, ?_, ?_, deq_refl _ _ _⟩
  · intro kv hk; simp only [exM, List.mem_singleton] at hk; subst hk; exact ⟨by decide, by decide⟩
  · intro kv hk kv' hk' _
    simp only [exM, List.mem_singleton] at hk hk'; subst hk; subst hk'; rfl
  · intro h; exact h.2 (List.Perm.refl _)

/-! ## C06 -/

/-- C06 for two different objects: the in-place operators leave exactly the value of the pure ones
(the other operand is only read). -/
theorem C06_inplace_distinct (a b : Dim) (p : ℚ) :
    Dim.imul a b = Dim.mul a b ∧ Dim.itruediv a b = Dim.div a b ∧ Dim.ipow a p = Dim.pow a p :=
  ⟨rfl, rfl, rfl⟩

theorem liveLoop_mul (done rest : Dim) (h : Canon (done ++ rest)) :
    Dim.liveLoop Dim.mulStep (done ++ rest).length rest.length done.length (done ++ rest)
      = (none, done ++ rest.map (fun kv => (kv.1, kv.2 * 2))) := by
  induction rest generalizing done with
  | nil => simp [Dim.liveLoop]
  | cons kv rest ih =>
    obtain ⟨u, e⟩ := kv
    have hmem : (u, e) ∈ done ++ (u, e) :: rest := by simp
    have he : e ≠ 0 := h.nonzero _ hmem
    have hget : Dict.get? (done ++ (u, e) :: rest) u = some e := Dict.get?_of_mem h.nodup hmem
    have hset : ∀ v, Dict.set (done ++ (u, e) :: rest) u v = done ++ (u, v) :: rest := by
      intro v
      have hnd := h.nodup
      clear ih hget hmem h
      induction done with
      | nil => simp [Dict.set]
      | cons x done ih =>
        obtain ⟨k, y⟩ := x
        have hk : k ≠ u := by
          rintro rfl
          simp [Dict.Nodup] at hnd
        simp only [Dict.Nodup, List.cons_append, List.map_cons, List.nodup_cons] at hnd
        simp only [List.cons_append, Dict.set, hk, if_false]
        rw [ih hnd.2]
    have hstep : Dim.mulStep (done ++ (u, e) :: rest) (u, e) = done ++ (u, e * 2) :: rest := by
      unfold Dim.mulStep
      simp only [hget]
      have : ¬ (e + e = 0) := by intro h; apply he; linarith
      rw [if_neg this, hset]; congr 3; ring
    have hidx : (done ++ (u, e) :: rest)[done.length]? = some (u, e) := by simp
    have hlen : (done ++ (u, e) :: rest).length = ((done ++ [(u, e * 2)]) ++ rest).length := by simp
    rw [show ((u, e) :: rest).length = rest.length + 1 from rfl]
    simp only [Dim.liveLoop, if_true, hidx, hstep]
    have hc : Canon ((done ++ [(u, e * 2)]) ++ rest) := by
      refine ⟨?_, ?_⟩
      · have := h.nodup; simpa [Dict.Nodup] using this
      · intro x hx
        simp only [List.append_assoc, List.mem_append, List.mem_singleton] at hx
        rcases hx with hx | hx | hx
        · exact h.nonzero x (by simp [hx])
        · subst hx; simpa using he
        · exact h.nonzero x (by simp [hx])
    have := ih (done ++ [(u, e * 2)]) hc
    rw [hlen]
    simpa using this

/-- C06: `d *= d` on one object succeeds and squares it. -/
theorem C06_imul_self (d : Dim) (h : Canon d) :
    (Dim.imulSelf d).1 = none ∧ ∀ u, expo (Dim.imulSelf d).2 u = expo (Dim.mul d d) u := by
  have := liveLoop_mul [] d h
  simp only [List.nil_append, List.length_nil] at this
  unfold Dim.imulSelf
  rw [this]
  refine ⟨rfl, fun u => ?_⟩
  have e := expo_pow d 2 u
  unfold Dim.pow at e
  rw [if_neg (by norm_num)] at e
  rw [e, expo_mul h.nodup h.nodup]; ring

/-- C06 is false of the code for division: `d /= d` on one object raises `RuntimeError` for every
non-empty dimensionality, and leaves it changed. -/
theorem C06_false_itruediv_self (d : Dim) (h : Canon d) (hne : d ≠ []) :
    (Dim.itruedivSelf d).1 = some .runtimeError ∧ (Dim.itruedivSelf d).2 ≠ d ∧ Dim.div d d = [] := by
  obtain ⟨kv, rest, rfl⟩ := List.exists_cons_of_ne_nil hne
  obtain ⟨u, e⟩ := kv
  have hstep : Dim.divStep ((u, e) :: rest) (u, e) = rest := by
    simp [Dim.divStep, Dict.get?_cons, Dict.set, Dict.pop]
  have : Dim.itruedivSelf ((u, e) :: rest) = (some .runtimeError, rest) := by
    unfold Dim.itruedivSelf
    simp only [List.length_cons, Dim.liveLoop, if_true, List.getElem?_cons_zero, hstep]
    cases rest with
    | nil => simp [Dim.liveLoop]
    | cons x r => simp [Dim.liveLoop]
  rw [this]
  refine ⟨rfl, ?_, C03_div_self _ h⟩
  intro hc
  have := congrArg List.length hc
  simp at this

example : Canon exMS ∧ exMS ≠ [] ∧ (Dim.imulSelf exMS).1 = none :=
  ⟨exMS_canon, by decide, (C06_imul_self _ exMS_canon).1⟩

/-! ## C07 -/

/-- C07: `a + b` and `a - b` return `a` when `a == b`, raise `ValueError` when not, and `TypeError`
for anything that is not a dimensionality; acceptance is symmetric. -/
theorem C07_add_sub (H : Hasher) (ord : UKey → Nat × Nat) (a b : Dim) :
    (Dim.add H ord a (.dim b) = .ok a ↔ Dim.eq H ord a b = true) ∧
    (Dim.add H ord a (.dim b) = .error .valueError ↔ Dim.eq H ord a b = false) ∧
    (Dim.sub H ord a (.dim b) = Dim.add H ord a (.dim b)) ∧
    (Returns (Dim.add H ord a (.dim b)) ↔ Returns (Dim.add H ord b (.dim a))) ∧
    (∀ x, (∀ d, x ≠ Dim.Arg.dim d) →
      Dim.add H ord a x = .error .typeError ∧ Dim.sub H ord a x = .error .typeError) := by
  have hsymm : Dim.eq H ord b a = Dim.eq H ord a b := by unfold Dim.eq; exact Bool.beq_comm
  refine ⟨?_, ?_, rfl, ?_, ?_⟩
  · simp only [Dim.add]; cases h : Dim.eq H ord a b <;> simp
  · simp only [Dim.add]; cases h : Dim.eq H ord a b <;> simp
  · simp only [Dim.add, Returns, hsymm]; cases h : Dim.eq H ord a b <;> simp
  · intro x hx
    cases x with
    | dim d => exact absurd rfl (hx d)
    | scalar p => exact ⟨rfl, rfl⟩
    | other => exact ⟨rfl, rfl⟩

/-- C07: two dimensionalities with the same content always add. -/
theorem C07_same_content_adds (H : Hasher) (ord : UKey → Nat × Nat) (a b : Dim)
    (ha : Dict.Nodup a) (hb : Dict.Nodup b) (h : SameContent a b) :
    Dim.add H ord a (.dim b) = .ok a :=
  (C07_add_sub H ord a b).1.2 (deq_of_same H ord ha hb h)

example : Dim.add exHasher (fun _ => (0, 0)) exMS (.dim exMS.reverse) = .ok exMS :=
  C07_same_content_adds _ _ _ _ exMS_canon.nodup (by decide)
    (Dict.get?_perm exMS_canon.nodup (List.reverse_perm _).symm)

end PQ
