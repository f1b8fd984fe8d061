import Verif.Lemmas.ShippedValues
import Verif.Spec.Standards

/-!
# Comparing the shipped sizes with the standard ones
-/

namespace PQ.Shipped

open World Dict LawfulRPow

/-- Code points of a string. -/
def codesOf (s : String) : List Nat := s.toList.map Char.toNat

theorem decode_codes (s : String) : decodeStr (codesOf s) = s := by
  unfold decodeStr codesOf
  rw [List.map_map]
  have : s.toList.map (Char.ofNat ∘ Char.toNat) = s.toList.map id :=
    List.map_congr_left fun c _ => Char.ofNat_toNat c
  rw [this, List.map_id, String.ofList_toList]

theorem codes_decode {ns : List Nat} (h : ns.all (fun n => Nat.blt n 55296) = true) : codesOf (decodeStr ns) = ns := by
  simp only [codesOf, decodeStr, String.toList_ofList, List.map_map]
  have : ns.map (Char.toNat ∘ Char.ofNat) = ns.map id := by
    refine List.map_congr_left fun n hn => ?_
    have := List.all_eq_true.1 h n hn
    exact char_ofNat_toNat (by simpa [Nat.blt_eq] using this)
  rw [this, List.map_id]

theorem codes_append (s t : String) : codesOf (s ++ t) = codesOf s ++ codesOf t := by
  simp [codesOf, String.toList_append]

/-- Equality of code points. -/
def eqCodes : List Nat → List Nat → Bool
  | [], [] => true
  | a :: as, b :: bs => Nat.beq a b && eqCodes as bs
  | _, _ => false

theorem eqCodes_iff : ∀ a b : List Nat, eqCodes a b = true ↔ a = b
  | [], [] => by simp [eqCodes]
  | [], b :: bs => by simp [eqCodes]
  | a :: as, [] => by simp [eqCodes]
  | a :: as, b :: bs => by simp [eqCodes, eqCodes_iff as bs]

/-- What follows a prefix. -/
def strip : List Nat → List Nat → Option (List Nat)
  | [], c => some c
  | _ :: _, [] => none
  | a :: as, c :: cs => if Nat.beq a c then strip as cs else none

theorem strip_append : ∀ p c : List Nat, strip p (p ++ c) = some c
  | [], c => rfl
  | a :: as, c => by simp [strip, strip_append as c]

set_option maxRecDepth 100000

theorem unitLabels_eq : (unitTable.zipIdx.flatMap fun r => r.1.labels.map fun l => (l, r.2)) =
    unitLabels.map (fun c => (decodeStr c.1, c.2)) := by rfl

theorem unitLabels_valid : unitLabels.all (fun c => c.1.all (fun n => Nat.blt n 55296)) = true := by decide +kernel

/-- The row of a label. -/
def rowOf (codes : List Nat) : Option Nat := (unitLabels.find? fun c => eqCodes c.1 codes).map Prod.snd

/-- Row `i` is `p / q` times row `j`. -/
def ratioOK (i j p q : Nat) : Bool :=
  match coefs[i]?, coefs[j]?, dims[i]?, dims[j]? with
  | some a, some b, some x, some y => Nat.blt 0 a.1 && Nat.blt 0 a.2.1 && Nat.blt 0 b.1 && Nat.blt 0 b.2.1 && Nat.blt 0 q &&
      Nat.beq (a.1 * (q * b.2.1)) (p * b.1 * a.2.1) && decide (a.2.2 = b.2.2) && decide (x = y)
  | _, _, _, _ => false

/-- Code points of `ns`. -/
def nsCodes : List Nat := [110, 115]

/-- All names that consist of a prefix and a name. -/
def prefixesOK : Bool :=
  prefixes.all fun p =>
    let pc := codesOf p.1
    unitLabels.all fun c =>
      match strip pc c.1 with
      | none => true
      | some rest => eqCodes rest nsCodes || match rowOf rest with
        | none => true
        | some j => ratioOK c.2 j p.2.1 p.2.2

theorem prefixes_ok : prefixesOK = true := by decide +kernel

/-- Size and exponents of a product of powers of units. -/
def prodOf : List (String × Int) → Option ((Nat × Nat × Int) × List Int)
  | [] => some ((1, 1, 0), List.replicate 8 0)
  | (l, e) :: us =>
    match rowOf (codesOf l), prodOf us with
    | some j, some (t, y) =>
      match coefs[j]?, dims[j]? with
      | some (p, q, k), some x =>
        if Nat.blt 0 p && Nat.blt 0 q then
          some ((if 0 ≤ e then (p ^ e.toNat * t.1, q ^ e.toNat * t.2.1, k * e + t.2.2)
            else (q ^ (-e).toNat * t.1, p ^ (-e).toNat * t.2.1, k * e + t.2.2)),
            List.zipWith (· + ·) (x.map (fun z => z * e)) y)
        else none
      | _, _ => none
    | _, _ => none

/-- The shipped unit has the standard size. -/
def standardOK (s : Standard) : Bool :=
  match rowOf (codesOf s.label), prodOf s.units with
  | some i, some (t, y) =>
    match coefs[i]?, dims[i]? with
    | some a, some x => Nat.blt 0 a.1 && Nat.blt 0 a.2.1 && Nat.blt 0 s.q &&
        Nat.beq (a.1 * (s.q * t.2.1)) (s.p * t.1 * a.2.1) && decide (a.2.2 = s.pi + t.2.2) && decide (x = y)
    | _, _ => false
  | _, _ => false

theorem standards_ok : standards.all standardOK = true := by decide +kernel

/-- Both names are of the same row. -/
def symbolOK (s : String × String) : Bool :=
  match rowOf (codesOf s.1), rowOf (codesOf s.2) with
  | some i, some j => Nat.beq i j
  | _, _ => false

theorem symbols_ok : symbols.all symbolOK = true := by decide +kernel

/-- The constants have no names in the registry. -/
theorem const_labels : constTable.all (fun r => r.labels.isEmpty) = true := by decide +kernel

attribute [local irreducible] table unitTable constTable dims coefs unitLabels

theorem unit_label {l : String} {i : Nat} {r : Row} (hr : unitTable[i]? = some r) (hl : l ∈ r.labels) :
    (codesOf l, i) ∈ unitLabels := by
  have h : (l, i) ∈ unitTable.zipIdx.flatMap fun r => r.1.labels.map fun l => (l, r.2) :=
    List.mem_flatMap.2 ⟨(r, i), List.mem_zipIdx_iff_getElem?.2 hr, List.mem_map.2 ⟨l, hl, rfl⟩⟩
  rw [unitLabels_eq] at h
  obtain ⟨c, hc, e⟩ := List.mem_map.1 h
  obtain ⟨e1, e2⟩ := Prod.mk.inj e
  have hv := List.all_eq_true.1 unitLabels_valid c hc
  rw [← e1, codes_decode hv, ← e2]
  exact hc

theorem label_unit {c : List Nat} {i : Nat} (hc : (c, i) ∈ unitLabels) :
    ∃ r, unitTable[i]? = some r ∧ decodeStr c ∈ r.labels := by
  have h : (decodeStr c, i) ∈ unitLabels.map (fun c => (decodeStr c.1, c.2)) := List.mem_map.2 ⟨_, hc, rfl⟩
  rw [← unitLabels_eq] at h
  obtain ⟨⟨r, j⟩, hr, h⟩ := List.mem_flatMap.1 h
  obtain ⟨l, hl, e⟩ := List.mem_map.1 h
  obtain ⟨e1, e2⟩ := Prod.mk.inj e
  simp only at e1 e2 hl
  exact ⟨r, by rw [← e2]; exact List.mem_zipIdx_iff_getElem?.1 hr, by rw [← e1]; exact hl⟩

theorem rowOf_spec {l : String} {i : Nat} (h : rowOf (codesOf l) = some i) : ∃ r, unitTable[i]? = some r ∧ l ∈ r.labels := by
  unfold rowOf at h
  rcases hf : unitLabels.find? (fun c => eqCodes c.1 (codesOf l)) with _ | c
  · rw [hf] at h; cases h
  · rw [hf] at h
    simp only [Option.map_some, Option.some.injEq] at h
    have h0 := List.find?_some (p := fun c : List Nat × Nat => eqCodes c.1 (codesOf l)) hf
    have h1 := (eqCodes_iff _ _).1 h0
    obtain ⟨r, r1, r2⟩ := label_unit (show (c.1, c.2) ∈ unitLabels from List.mem_of_find?_eq_some hf)
    rw [h1, decode_codes] at r2
    exact ⟨r, by rw [← h]; exact r1, r2⟩

theorem rowOf_of_label {l : String} {i : Nat} {r : Row} (hr : unitTable[i]? = some r) (hl : l ∈ r.labels) :
    ∃ j, rowOf (codesOf l) = some j := by
  unfold rowOf
  rcases hf : unitLabels.find? (fun c => eqCodes c.1 (codesOf l)) with _ | c
  · have := List.find?_eq_none.1 hf _ (unit_label hr hl)
    exact absurd ((eqCodes_iff _ _).2 rfl) this
  · exact ⟨c.2, by rw [hf, Option.map_some]⟩

variable {K : Type _} [Field K] [LinearOrder K] [IsStrictOrderedRing K] [RPow K] [LawfulRPow K]

theorem ratio_sound (h : Hasher) {π : K} (hπ : 0 < π) {i j p q : Nat} {r s : Row} (hr : unitTable[i]? = some r)
    (hs : unitTable[j]? = some s) (hok : ratioOK i j p q = true) (v : Valuation (loaded saneTable π h)) :
    v.size (unitDim r.key) = (p : K) / q * v.size (unitDim s.key) := by
  unfold ratioOK at hok
  rcases ha : coefs[i]? with _ | a
  · simp [ha] at hok
  rcases hb : coefs[j]? with _ | b
  · simp [ha, hb] at hok
  rcases hx : dims[i]? with _ | x
  · simp [ha, hb, hx] at hok
  rcases hy : dims[j]? with _ | y
  · simp [ha, hb, hx, hy] at hok
  simp only [ha, hb, hx, hy, Bool.and_eq_true, Nat.blt_eq, decide_eq_true_eq] at hok
  obtain ⟨⟨⟨⟨⟨⟨⟨a1, a2⟩, b1⟩, b2⟩, q0⟩, e⟩, ek⟩, rfl⟩ := hok
  have e := Nat.eq_of_beq_eq_true e
  unfold Valuation.size
  rw [row_value h hπ i r x a hr hx ha a1 a2 v, row_value h hπ j s x b hs hy hb b1 b2 v, ← mul_assoc]
  congr 1
  unfold coefVal
  rw [ek, ← mul_assoc]
  congr 1
  have n1 := (Nat.cast_pos (α := K).2 a2).ne'
  have n2 := (Nat.cast_pos (α := K).2 b2).ne'
  have n3 := (Nat.cast_pos (α := K).2 q0).ne'
  rw [div_mul_div_comm, div_eq_div_iff n1 (mul_ne_zero n3 n2)]
  exact_mod_cast e

theorem gsize_int (val : UKey → K) (hv : ∀ u, 0 < val u) (x : List Int) (hx : x.length = 8) (e : Int) :
    gsize val baseKeys (x.map (fun z => z * e)) = gsize val baseKeys x ^ e := by
  have := gsize_scale hv e 1 one_pos baseKeys x (by rw [hx, baseKeys_length]) (fun z _ => by simp)
  simp only [Nat.cast_one, Int.ediv_one, div_one] at this
  rw [this, rpow_intCast _ _ (gsize_pos hv _ _).ne']

theorem prod_sound (h : Hasher) {π : K} (hπ : 0 < π) : ∀ (us : List (String × Int)) (t : Nat × Nat × Int) (y : List Int),
    prodOf us = some (t, y) → y.length = 8 ∧ 0 < t.1 ∧ 0 < t.2.1 ∧ ∃ rs : List Row,
      List.Forall₂ (fun (u : String × Int) r => r ∈ unitTable ∧ u.1 ∈ r.labels) us rs ∧
      ∀ v : Valuation (loaded saneTable π h),
        (List.zipWith (fun (u : String × Int) (r : Row) => v.size (unitDim r.key) ^ u.2) us rs).prod =
          coefVal π t * gsize v.val baseKeys y
  | [], t, y, hp => by
      simp only [prodOf, Option.some.injEq, Prod.mk.injEq] at hp
      obtain ⟨rfl, rfl⟩ := hp
      refine ⟨by simp, by simp, by simp, [], List.Forall₂.nil, fun v => ?_⟩
      rw [gsize_zero]; simp [coefVal]
  | (l, e) :: us, t, y, hp => by
      simp only [prodOf] at hp
      rcases hj : rowOf (codesOf l) with _ | j
      · simp [hj] at hp
      rcases hu : prodOf us with _ | ⟨t', y'⟩
      · simp [hj, hu] at hp
      rcases hc : coefs[j]? with _ | a
      · simp [hj, hu, hc] at hp
      rcases hx : dims[j]? with _ | x
      · simp [hj, hu, hc, hx] at hp
      simp only [hj, hu, hc, hx] at hp
      by_cases hpos : (Nat.blt 0 a.1 && Nat.blt 0 a.2.1) = true
      swap
      · rw [if_neg hpos] at hp; cases hp
      rw [if_pos hpos] at hp
      simp only [Bool.and_eq_true, Nat.blt_eq] at hpos
      simp only [Option.some.injEq, Prod.mk.injEq] at hp
      obtain ⟨l8, t1, t2, rs, f2, hv⟩ := prod_sound h hπ us t' y' hu
      obtain ⟨r, r1, r2⟩ := rowOf_spec hj
      obtain ⟨rfl, rfl⟩ := hp
      have x8 := dims_len8 j x hx
      have hval : ∀ v : Valuation (loaded saneTable π h), v.size (unitDim r.key) ^ e =
          coefVal π a ^ e * gsize v.val baseKeys (x.map (fun z => z * e)) := by
        intro v
        unfold Valuation.size
        rw [row_value h hπ j r x a r1 hx hc hpos.1 hpos.2 v, mul_zpow, gsize_int _ v.pos x x8]
      have hsum : ∀ v : Valuation (loaded saneTable π h), gsize v.val baseKeys (List.zipWith (· + ·) (x.map (fun z => z * e)) y') =
          gsize v.val baseKeys (x.map (fun z => z * e)) * gsize v.val baseKeys y' := fun v =>
        gsize_add v.pos _ _ _ (by rw [baseKeys_length]; simpa using x8) (by rw [l8, baseKeys_length])
      have n2 := (Nat.cast_pos (α := K).2 hpos.2).ne'
      have n1 := (Nat.cast_pos (α := K).2 hpos.1).ne'
      have m2 := (Nat.cast_pos (α := K).2 t2).ne'
      have hcoef : (0 < (if 0 ≤ e then (a.1 ^ e.toNat * t'.1, a.2.1 ^ e.toNat * t'.2.1, a.2.2 * e + t'.2.2)
            else (a.2.1 ^ (-e).toNat * t'.1, a.1 ^ (-e).toNat * t'.2.1, a.2.2 * e + t'.2.2)).1) ∧
          (0 < (if 0 ≤ e then (a.1 ^ e.toNat * t'.1, a.2.1 ^ e.toNat * t'.2.1, a.2.2 * e + t'.2.2)
            else (a.2.1 ^ (-e).toNat * t'.1, a.1 ^ (-e).toNat * t'.2.1, a.2.2 * e + t'.2.2)).2.1) ∧
          coefVal π (if 0 ≤ e then (a.1 ^ e.toNat * t'.1, a.2.1 ^ e.toNat * t'.2.1, a.2.2 * e + t'.2.2)
            else (a.2.1 ^ (-e).toNat * t'.1, a.1 ^ (-e).toNat * t'.2.1, a.2.2 * e + t'.2.2)) =
            coefVal π a ^ e * coefVal π t' := by
        by_cases he : 0 ≤ e
        · rw [if_pos he]
          refine ⟨Nat.mul_pos (Nat.pow_pos hpos.1) t1, Nat.mul_pos (Nat.pow_pos hpos.2) t2, ?_⟩
          obtain ⟨m, rfl⟩ := Int.eq_ofNat_of_zero_le he
          simp only [coefVal, Int.toNat_natCast]
          push_cast
          rw [mul_zpow, div_zpow, zpow_natCast, zpow_natCast, ← zpow_mul, zpow_add₀ hπ.ne']
          field_simp
        · rw [if_neg he]
          refine ⟨Nat.mul_pos (Nat.pow_pos hpos.2) t1, Nat.mul_pos (Nat.pow_pos hpos.1) t2, ?_⟩
          obtain ⟨m, hm⟩ := Int.eq_ofNat_of_zero_le (show 0 ≤ -e by omega)
          have hm' : e = -(m : ℤ) := by omega
          subst hm'
          simp only [coefVal, neg_neg, Int.toNat_natCast]
          push_cast
          rw [mul_zpow, div_zpow, zpow_neg, zpow_neg, zpow_natCast, zpow_natCast, inv_div_inv, ← zpow_mul, zpow_add₀ hπ.ne']
          field_simp
      refine ⟨by simp [x8, l8], hcoef.1, hcoef.2.1, r :: rs,
        List.Forall₂.cons ⟨List.mem_of_getElem? r1, r2⟩ f2, fun v => ?_⟩
      rw [hcoef.2.2, hsum v, List.zipWith_cons_cons, List.prod_cons, hv v, hval v]
      ring

/-- A unit that passes the check has the standard size. -/
theorem standard_sound (h : Hasher) {π : K} (hπ : 0 < π) {s : Standard} (hok : standardOK s = true) :
    ∃ (r : Row) (rs : List Row), r ∈ unitTable ∧ s.label ∈ r.labels ∧
      List.Forall₂ (fun (u : String × Int) r => r ∈ unitTable ∧ u.1 ∈ r.labels) s.units rs ∧
      ∀ v : Valuation (loaded saneTable π h), v.size (unitDim r.key) = (s.p : K) / s.q * π ^ s.pi *
        (List.zipWith (fun (u : String × Int) (r : Row) => v.size (unitDim r.key) ^ u.2) s.units rs).prod := by
  unfold standardOK at hok
  rcases hi : rowOf (codesOf s.label) with _ | i
  · simp [hi] at hok
  rcases hu : prodOf s.units with _ | ⟨t, y⟩
  · simp [hi, hu] at hok
  simp only [hi, hu] at hok
  rcases ha : coefs[i]? with _ | a
  · simp [ha] at hok
  rcases hx : dims[i]? with _ | x
  · simp [ha, hx] at hok
  simp only [ha, hx, Bool.and_eq_true, Nat.blt_eq, decide_eq_true_eq] at hok
  obtain ⟨⟨⟨⟨⟨a1, a2⟩, q0⟩, e⟩, ek⟩, rfl⟩ := hok
  have e := Nat.eq_of_beq_eq_true e
  obtain ⟨r, r1, r2⟩ := rowOf_spec hi
  obtain ⟨-, t1, t2, rs, f2, hv⟩ := prod_sound h hπ s.units t x hu
  refine ⟨r, rs, List.mem_of_getElem? r1, r2, f2, fun v => ?_⟩
  rw [hv v]
  unfold Valuation.size
  rw [row_value h hπ i r x a r1 hx ha a1 a2 v, ← mul_assoc]
  congr 1
  unfold coefVal
  rw [ek, zpow_add₀ hπ.ne']
  have n1 := (Nat.cast_pos (α := K).2 a2).ne'
  have n2 := (Nat.cast_pos (α := K).2 t2).ne'
  have n3 := (Nat.cast_pos (α := K).2 q0).ne'
  have e' : (a.1 : K) / a.2.1 = (s.p : K) / s.q * ((t.1 : K) / t.2.1) := by
    rw [div_mul_div_comm, div_eq_div_iff n1 (mul_ne_zero n3 n2)]
    exact_mod_cast e
  rw [e']
  ring

end PQ.Shipped
