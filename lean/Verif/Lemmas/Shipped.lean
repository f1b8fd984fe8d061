import Verif.Model.Shipped
import Verif.Lemmas.Reach
import Verif.Lemmas.Size

/-!
# Running a list of constructor calls whose keys and labels are all different
-/

namespace PQ

open Dict World Shipped

section
variable {κ ν : Type _} [DecidableEq κ]

theorem get?_append (d e : Dict κ ν) (k : κ) :
    get? (d ++ e : List (κ × ν)) k = (get? d k).orElse (fun _ => get? e k) := by
  induction d with
  | nil => rfl
  | cons kv d ih =>
    obtain ⟨a, b⟩ := kv
    simp only [List.cons_append, get?]
    split
    · rfl
    · exact ih

theorem get?_none_iff (d : Dict κ ν) (k : κ) : get? d k = none ↔ k ∉ d.map Prod.fst := by
  induction d with
  | nil => simp [get?]
  | cons kv d ih =>
    obtain ⟨a, b⟩ := kv
    simp only [get?, List.map_cons, List.mem_cons, not_or]
    split
    · rename_i h; simp [h.symm]
    · rename_i h; rw [ih]; exact ⟨fun h' => ⟨fun e => h e.symm, h'⟩, fun h' => h'.2⟩

theorem get?_of_mem_nodup {d : Dict κ ν} (hd : Nodup d) {k : κ} {v : ν} (h : (k, v) ∈ d) :
    get? d k = some v := by
  induction d with
  | nil => exact absurd h (by simp)
  | cons kv d ih =>
    obtain ⟨a, b⟩ := kv
    simp only [Dict.Nodup, List.map_cons, List.nodup_cons] at hd
    rcases List.mem_cons.1 h with e | h
    · cases e; simp [get?]
    · have : a ≠ k := by rintro rfl; exact hd.1 (List.mem_map.2 ⟨_, h, rfl⟩)
      simp only [get?, this, if_false]
      exact ih hd.2 h

end

variable {K : Type _} [Zero K] [One K] [Mul K] [Div K] [RPow K] [LT K] [DecidableEq K]

/-- The unit a constructor call creates. -/
def nkey (a : NewUnit K) : UKey := ⟨a.cls, a.name⟩

/-- The labels it registers. -/
def nlabels (a : NewUnit K) : List String := labelsOf a.cls a.name a.symbol a.aliases

omit [Zero K] [LT K] in
theorem registryAll_fresh (u : UKey) : ∀ (ls : List String) (w : World K), ls.Nodup →
    (∀ l ∈ ls, get? w.registry l = none) →
    w.registryAll u ls = (none, { w with registry := w.registry ++ ls.map (fun l => (l, u)) })
  | [], w, _, _ => by simp [World.registryAll]
  | l :: ls, w, hn, hf => by
      rw [World.registryAll]
      unfold World.registrySet
      rw [hf l (by simp)]
      simp only
      rw [List.nodup_cons] at hn
      rw [registryAll_fresh u ls _ hn.2]
      · rw [set_fresh (hf l (by simp))]
        simp
      · intro l' hl'
        have : l ≠ l' := by rintro rfl; exact hn.1 hl'
        simp only [get?_set, this, if_false]
        exact hf l' (by simp [hl'])

omit [Zero K] [Div K] [LT K] in
theorem construct_units_new {w : World K} {a : NewUnit K} (hf : w.info ⟨a.cls, a.name⟩ = none) :
    ∃ n, (w.construct a).units = w.units ++ [(⟨a.cls, a.name⟩,
      { definition := a.definition.toDef, convRef := a.definition.toDef.map w.reference,
        symbol := a.symbol, uSymbol := a.uSymbol, aliases := a.aliases, order := n })] := by
  simp only [World.construct, hf]
  exact ⟨_, set_fresh hf⟩

/-- A constructor call with a new key and new labels returns and does exactly this. -/
theorem newUnit_fresh (w : World K) (a : NewUnit K) (hk : w.info (nkey a) = none)
    (hn : (nlabels a).Nodup) (hf : ∀ l ∈ nlabels a, get? w.registry l = none) :
    (w.newUnit a).1 = none ∧
    (w.newUnit a).2.hasher = w.hasher ∧
    (∃ n, (w.newUnit a).2.units = w.units ++ [(nkey a,
      ⟨a.definition.toDef, a.definition.toDef.map w.reference, a.symbol, a.uSymbol, a.aliases, n⟩)]) ∧
    (w.newUnit a).2.registry = w.registry ++ (nlabels a).map (fun l => (l, nkey a)) ∧
    (w.newUnit a).2.defaults = fun c => if a.cls.irreducible = true ∧ c = a.cls ∧ w.defaults a.cls = none then
      some (unitDim (nkey a)) else w.defaults c := by
  obtain ⟨n, hun⟩ := construct_units_new (w := w) (a := a) hk
  have hall := registryAll_fresh (K := K) (nkey a) (nlabels a) (w.construct a) hn hf
  unfold World.newUnit
  rw [show labelsOf a.cls a.name a.symbol a.aliases = nlabels a from rfl,
    show (⟨a.cls, a.name⟩ : UKey) = nkey a from rfl]
  simp only [hall]
  have hd : (w.construct a).defaults = w.defaults := rfl
  have hr : (w.construct a).registry = w.registry := rfl
  have hh : (w.construct a).hasher = w.hasher := rfl
  rw [hd]
  by_cases hc : (a.cls.irreducible && (w.defaults a.cls).isNone) = true
  · rw [if_pos hc]
    rw [Bool.and_eq_true, Option.isNone_iff_eq_none] at hc
    refine ⟨rfl, hh, ⟨n, hun⟩, by rw [hr], ?_⟩
    funext c
    by_cases e : c = a.cls
    · simp [e, hc.1, hc.2]
    · simp [e]
  · rw [if_neg hc]
    refine ⟨rfl, hh, ⟨n, hun⟩, by rw [hr], ?_⟩
    funext c
    rw [Bool.and_eq_true, Option.isNone_iff_eq_none] at hc
    rw [if_neg]
    exact fun h => hc ⟨h.1, h.2.2⟩

/-- Every constructor call of a list with new keys and labels returns. -/
theorem runAll_fresh : ∀ (as : List (NewUnit K)) (w : World K),
    (as.map nkey).Nodup → (∀ a ∈ as, w.info (nkey a) = none) →
    (as.flatMap nlabels).Nodup → (∀ a ∈ as, ∀ l ∈ nlabels a, get? w.registry l = none) →
    (runAll w as).1 = none ∧ (runAll w as).2.hasher = w.hasher ∧
    (runAll w as).2.units.map Prod.fst = w.units.map Prod.fst ++ as.map nkey ∧
    (runAll w as).2.registry = w.registry ++ as.flatMap (fun a => (nlabels a).map (fun l => (l, nkey a)))
  | [], w, _, _, _, _ => by simp [runAll]
  | a :: as, w, hk, hkf, hl, hlf => by
      rw [List.map_cons, List.nodup_cons] at hk
      rw [List.flatMap_cons, List.nodup_append] at hl
      obtain ⟨h1, h2, ⟨n, h3⟩, h4, -⟩ := newUnit_fresh w a (hkf a (by simp)) hl.1 (hlf a (by simp))
      rcases hw : w.newUnit a with ⟨e, w'⟩
      rw [hw] at h1 h2 h3 h4
      simp only at h1 h2 h3 h4
      subst h1
      rw [runAll, hw]
      simp only
      obtain ⟨g1, g2, g3, g4⟩ := runAll_fresh as w' hk.2 (by
          intro b hb
          rw [info_append h3 (hkf a (by simp))]
          rw [if_neg]
          · exact hkf b (by simp [hb])
          · intro e; exact hk.1 (List.mem_map.2 ⟨b, hb, e⟩)) hl.2.1 (by
          intro b hb l hlb
          rw [h4, get?_append, hlf b (by simp [hb]) l hlb]
          simp only [Option.orElse_none]
          rw [get?_none_iff]
          simp only [List.map_map, List.mem_map, Function.comp, not_exists, not_and]
          rintro l' hl' rfl
          exact hl.2.2 l' hl' l' (List.mem_flatMap.2 ⟨b, hb, hlb⟩) rfl)
      refine ⟨g1, g2.trans h2, ?_, ?_⟩
      · rw [g3, h3]; simp
      · rw [g4, h4]; simp

/-- The constructor calls are ones a user can make (positive definitions over existing units), so the
state is reachable. -/
theorem runAll_reachable {h : Hasher} : ∀ (as : List (NewUnit K)) (w : World K), Reachable h w →
    (as.map nkey).Nodup → (∀ a ∈ as, w.info (nkey a) = none) →
    (as.flatMap nlabels).Nodup → (∀ a ∈ as, ∀ l ∈ nlabels a, get? w.registry l = none) →
    (∀ pre a post, as = pre ++ a :: post →
      (∀ q, a.definition.toDef = some q → 0 < q.mag ∧ Canon q.dim ∧
        ∀ kv ∈ q.dim, kv.1.cls ≠ .dimensionless ∧ (kv.1 ∈ w.units.map Prod.fst ∨ kv.1 ∈ pre.map nkey)) ∧
      (a.cls = .dimensionless → a.definition.toDef = none)) →
    Reachable h (runAll w as).2
  | [], w, hr, _, _, _, _, _ => by rw [runAll]; exact hr
  | a :: as, w, hr, hk, hkf, hl, hlf, hv => by
      rw [List.map_cons, List.nodup_cons] at hk
      rw [List.flatMap_cons, List.nodup_append] at hl
      have hva : (Op.newUnit a).Valid w := by
        obtain ⟨v1, v2⟩ := hv [] a as rfl
        refine ⟨fun q hq => ?_, v2⟩
        obtain ⟨p1, p2, p3⟩ := v1 q hq
        exact ⟨p1, p2, fun kv hkv => ((p3 kv hkv).2).resolve_right (by simp), fun kv hkv => (p3 kv hkv).1⟩
      have hr' : Reachable h (w.newUnit a).2 := Reachable.step (Op.newUnit a) hr hva
      obtain ⟨h1, h2, ⟨n, h3⟩, h4, -⟩ := newUnit_fresh w a (hkf a (by simp)) hl.1 (hlf a (by simp))
      rcases hw : w.newUnit a with ⟨e, w'⟩
      rw [hw] at h1 h2 h3 h4 hr'
      simp only at h1 h2 h3 h4 hr'
      subst h1
      rw [runAll, hw]
      simp only
      refine runAll_reachable as w' hr' hk.2 (by
          intro b hb
          rw [info_append h3 (hkf a (by simp))]
          rw [if_neg]
          · exact hkf b (by simp [hb])
          · intro e; exact hk.1 (List.mem_map.2 ⟨b, hb, e⟩)) hl.2.1 (by
          intro b hb l hlb
          rw [h4, get?_append, hlf b (by simp [hb]) l hlb]
          simp only [Option.orElse_none]
          rw [get?_none_iff]
          simp only [List.map_map, List.mem_map, Function.comp, not_exists, not_and]
          rintro l' hl' rfl
          exact hl.2.2 l' hl' l' (List.mem_flatMap.2 ⟨b, hb, hlb⟩) rfl) ?_
      intro pre b post e
      obtain ⟨v1, v2⟩ := hv (a :: pre) b post (by rw [e]; rfl)
      refine ⟨fun q hq => ?_, v2⟩
      obtain ⟨p1, p2, p3⟩ := v1 q hq
      refine ⟨p1, p2, fun kv hkv => ⟨(p3 kv hkv).1, ?_⟩⟩
      rcases (p3 kv hkv).2 with h | h
      · left; rw [h3, List.map_append, List.mem_append]; exact Or.inl h
      · rw [List.map_cons, List.mem_cons] at h
        rcases h with h | h
        · left; rw [h3, List.map_append, List.mem_append]; right; simp [h]
        · exact Or.inr h

/-! ## Checking that strings are different by comparing numbers -/

/-- No duplicates, by repeated splitting. -/
def nodupQ : Nat → List Nat → Bool
  | _, [] => true
  | 0, _ :: _ => false
  | f + 1, x :: l => l.all (fun y => !(Nat.beq y x)) &&
      (nodupQ f (l.filter (fun y => Nat.blt y x)) && nodupQ f (l.filter (fun y => Nat.blt x y)))

theorem nodupQ_sound : ∀ (f : Nat) (l : List Nat), nodupQ f l = true → l.Nodup
  | _, [], _ => List.nodup_nil
  | 0, _ :: _, h => by simp [nodupQ] at h
  | f + 1, x :: l, h => by
      rw [nodupQ, Bool.and_eq_true, Bool.and_eq_true] at h
      obtain ⟨h1, h2, h3⟩ := h
      have n2 := nodupQ_sound f _ h2
      have n3 := nodupQ_sound f _ h3
      rw [List.nodup_cons]
      have hx : x ∉ l := by
        intro hx
        have := List.all_eq_true.1 h1 x hx
        simp at this
      refine ⟨hx, ?_⟩
      rw [List.nodup_iff_count_le_one]
      intro a
      rcases lt_trichotomy a x with hlt | heq | hgt
      · have := (List.nodup_iff_count_le_one.1 n2) a
        rw [List.count_filter (by simpa [Nat.blt_eq] using hlt)] at this
        exact this
      · subst heq
        rw [List.count_eq_zero_of_not_mem hx]; omega
      · have := (List.nodup_iff_count_le_one.1 n3) a
        rw [List.count_filter (by simpa [Nat.blt_eq] using hgt)] at this
        exact this

/-- A list of code points as a string. -/
def decodeStr (ns : List Nat) : String := String.ofList (ns.map Char.ofNat)

/-- A list of numbers as one number. -/
def packNat (ns : List Nat) : Nat := ns.foldl (fun n c => n * 2097152 + c) 0

theorem char_ofNat_toNat {n : Nat} (h : n < 55296) : (Char.ofNat n).toNat = n := by
  have hv : n.isValidChar := Or.inl h
  unfold Char.ofNat
  rw [dif_pos hv]
  rfl

theorem decodeStr_nodup (f : Nat) (nss : List (List Nat))
    (hv : nss.all (fun ns => ns.all (fun n => Nat.blt n 55296)) = true)
    (hn : nodupQ f (nss.map packNat) = true) : (nss.map decodeStr).Nodup := by
  have h := nodupQ_sound f _ hn
  refine List.Nodup.of_map (fun s : String => packNat (s.toList.map Char.toNat)) ?_
  rw [List.map_map]
  have : nss.map ((fun s : String => packNat (s.toList.map Char.toNat)) ∘ decodeStr) = nss.map packNat := by
    refine List.map_congr_left fun ns hns => ?_
    have hv' := List.all_eq_true.1 hv ns hns
    simp only [Function.comp, decodeStr, String.toList_ofList, List.map_map]
    congr 1
    have : ns.map (Char.toNat ∘ Char.ofNat) = ns.map id := by
      refine List.map_congr_left fun n hn => ?_
      have := List.all_eq_true.1 hv' n hn
      exact char_ofNat_toNat (by simpa [Nat.blt_eq] using this)
    rw [this, List.map_id]
  rw [this]
  exact h

end PQ
