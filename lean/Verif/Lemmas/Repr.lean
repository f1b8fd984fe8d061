import Verif.Lemmas.UnitText2

/-! # The text of a quantity is an expression for it -/

namespace PQ

open Dict LawfulRPow

variable {K : Type _}

set_option linter.unusedSectionVars false

/-- A faithfully printed exponent is a decimal numeral. -/
theorem expSuffix_decimal {fr : ℚ → List Char} {d : PyNum} (h : FaithfulExp fr d) :
    ∃ s, expSuffix fr d = '*' :: '*' :: s ∧ IsDecimal s d.val := by
  have digLast : ∀ (n : Nat) (pre : List Char), (pre ++ natDigits n).getLast? ≠ some '.' := by
    intro n pre
    rw [getLast?_append_ne (natDigits_ne_nil n)]
    intro he
    exact isDig_ne (natDigits_isDig n _ (List.mem_of_getLast? he)) (by decide : isDig '.' = false) rfl
  cases d with
  | int n =>
    obtain ⟨hn, hd⟩ := h
    have hstr : (PyNum.int n).str fr = natDigits n.natAbs := by
      simp [PyNum.str, not_lt.2 hn.le]
    have hnd : ¬ 10 ∣ n.natAbs := by
      intro h'; exact hd (Int.natCast_dvd.2 h')
    refine ⟨natDigits n.natAbs, ?_, n.natAbs, Or.inl ⟨rfl, ?_⟩⟩
    · unfold expSuffix
      rw [hstr, show '*' :: '*' :: natDigits n.natAbs = ['*', '*'] ++ natDigits n.natAbs from rfl,
        rstrip_eq (c := '0') (by rw [getLast?_append_ne (natDigits_ne_nil _)]; exact natDigits_last hnd),
        rstrip_eq (digLast _ _)]
    · simp only [PyNum.val]
      have : ((n.natAbs : ℤ) : ℚ) = (n : ℚ) := by rw [Int.natAbs_of_nonneg hn.le]
      rw [← this, Int.cast_natCast]
  | float q =>
    obtain ⟨hq, i, fp, hs, hfp⟩ := h
    have hstr : (PyNum.float q).str fr = natDigits i ++ '.' :: fp := hs
    rcases hfp with ⟨rfl, rfl⟩ | ⟨hne, hall, hlast, rfl⟩
    · refine ⟨natDigits i, ?_, i, Or.inl ⟨rfl, rfl⟩⟩
      unfold expSuffix
      rw [hstr, show '*' :: '*' :: (natDigits i ++ ['.', '0']) =
          ((['*', '*'] ++ natDigits i) ++ ['.']) ++ ['0'] by simp,
        rstrip_snoc, rstrip_eq (c := '0') (by rw [List.getLast?_concat]; decide), rstrip_snoc, rstrip_eq (digLast _ _)]
      rfl
    · refine ⟨natDigits i ++ '.' :: fp, ?_, i, Or.inr ⟨fp, rfl, hall, rfl⟩⟩
      unfold expSuffix
      have e : '*' :: '*' :: (natDigits i ++ '.' :: fp) = (['*', '*'] ++ natDigits i ++ ['.']) ++ fp := by
        simp
      have hl : ((['*', '*'] ++ natDigits i ++ ['.']) ++ fp).getLast? = fp.getLast? :=
        getLast?_append_ne hne
      have hdot : fp.getLast? ≠ some '.' := by
        intro he
        exact isDig_ne (List.all_eq_true.1 hall _ (List.mem_of_getLast? he))
          (by decide : isDig '.' = false) rfl
      rw [hstr, e, rstrip_eq (c := '0') (by rw [hl]; exact hlast),
        rstrip_eq (c := '.') (by rw [hl]; exact hdot), ← e]

theorem blank_nil : Blank [] := by simp [Blank]

/-- Expression of an item. -/
def Item.ux (i : Item) : UX :=
  match i.e with
  | none => .name i.id
  | some q => .pow (.name i.id) (.num q)

/-- A product of items. -/
def prodUX (X : UX) (is : List Item) : UX := is.foldl (fun a i => .mul a i.ux) X

theorem fmtItem_writes {w : World K} {fr : ℚ → List Char} {u : UKey} {d : PyNum}
    (hi : IsIdent (w.unitSymbol false u)) (hd : FaithfulExp fr d) :
    Writes .factor (mkItem w u d).ux (fmtItem w fr false u d) := by
  unfold fmtItem mkItem
  simp only [Bool.false_eq_true, if_false]
  by_cases h1 : d.val ≠ 1
  · rw [if_pos h1, if_pos h1]
    obtain ⟨s, he, hs⟩ := expSuffix_decimal hd
    rw [he]
    have := Writes.pow (b₁ := []) (b₂ := []) (op := ['*', '*']) (.name hi) blank_nil (Or.inl rfl)
      blank_nil (.atom (.num hs))
    simpa [Item.ux] using this
  · rw [if_neg h1, if_neg h1]
    exact .atom (.name hi)

theorem joinStar_writes {ss : List (List Char)} {is : List Item}
    (h : List.Forall₂ (fun s i => Writes .factor (Item.ux i) s) ss is) :
    ∀ {s : List Char} {X : UX}, Writes .term X s → Writes .term (prodUX X is) (joinStar (s :: ss)) := by
  induction h with
  | nil => exact fun hs => hs
  | @cons s' i' ss is hs' _ ih =>
    intro s X hs
    have h1 : Writes .term (.mul X i'.ux) (s ++ '*' :: s') := by
      have := Writes.mul (b₁ := []) (b₂ := []) (op := ['*']) hs blank_nil (Or.inl rfl) blank_nil hs'
      simpa using this
    have := ih h1
    have e : joinStar ((s ++ '*' :: s') :: ss) = joinStar (s :: s' :: ss) := by
      cases ss <;> simp [joinStar]
    rw [← e]
    exact this

section
variable [Field K] [LinearOrder K] [IsStrictOrderedRing K] [RPow K] [LawfulRPow K]

/-- An expression of factor 1 with the given exponents. -/
structure UnitOf (w : World K) (e : UX) (f : UKey → ℚ) : Prop where
  sensible : e.Sensible w
  number : e.number = none
  factor : (e.factor : K) = 1
  exponent : ∀ u, e.exponent w u = f u

theorem UnitOf.mul {w : World K} {a b : UX} {f g : UKey → ℚ} (ha : UnitOf w a f) (hb : UnitOf w b g) :
    UnitOf w (.mul a b) (fun u => f u + g u) :=
  ⟨⟨ha.sensible, hb.sensible⟩, by simp [UX.number, ha.number], by simp [UX.factor, ha.factor, hb.factor],
    fun u => by simp [UX.exponent, ha.exponent, hb.exponent]⟩

theorem UnitOf.div {w : World K} {a b : UX} {f g : UKey → ℚ} (ha : UnitOf w a f) (hb : UnitOf w b g) :
    UnitOf w (.div a b) (fun u => f u - g u) :=
  ⟨⟨ha.sensible, hb.sensible, by rw [hb.factor]; exact one_ne_zero⟩, by simp [UX.number, ha.number],
    by simp [UX.factor, ha.factor, hb.factor], fun u => by simp [UX.exponent, ha.exponent, hb.exponent]⟩

theorem UnitOf.inv {w : World K} {b : UX} {g : UKey → ℚ} (hb : UnitOf w b g) :
    UnitOf w (.div (.num 1) b) (fun u => - g u) :=
  ⟨⟨trivial, hb.sensible, by rw [hb.factor]; exact one_ne_zero⟩, by simp [UX.number, hb.number],
    by simp [UX.factor, hb.factor], fun u => by simp [UX.exponent, hb.exponent]⟩

theorem unitOf_item {w : World K} {i : Item} {u : UKey} {e : ℚ} (h : ItemFor w i u e) :
    UnitOf w i.ux (fun v => if u = v then e else 0) := by
  obtain ⟨hr, hc, he⟩ := h
  have hn : w.named i.id = some u := hr
  have hx : ∀ v, (if w.named i.id = some v ∧ v.cls ≠ .dimensionless then (1 : ℚ) else 0) =
      if u = v then 1 else 0 := by
    intro v
    rw [hn]
    by_cases h : u = v
    · subst h; simp [hc]
    · simp [h]
  rcases hi : i.e with _ | q
  · rw [hi] at he
    simp only [Option.getD_none] at he
    subst he
    simp only [Item.ux, hi]
    refine ⟨by simp [UX.Sensible, hn], rfl, rfl, fun v => ?_⟩
    rw [UX.exponent, hx]
  · rw [hi] at he
    simp only [Option.getD_some] at he
    subst he
    simp only [Item.ux, hi]
    refine ⟨⟨by simp [UX.Sensible, hn], trivial, q, rfl, Or.inl one_pos, by simp [UX.number]⟩, rfl, ?_, ?_⟩
    · simp only [UX.factor, rpow_one_left]
    · intro v
      simp only [UX.exponent, UX.number, Option.getD_some, hx]
      by_cases h : u = v <;> simp [h]

theorem unitOf_prod {w : World K} {is : List Item} {l : List (UKey × ℚ)}
    (h : List.Forall₂ (fun i kv => ItemFor w i kv.1 kv.2) is l) {X : UX} {f : UKey → ℚ}
    (hX : UnitOf w X f) : UnitOf w (prodUX X is) (fun u => f u + itemsExp l u) := by
  induction h generalizing X f with
  | nil => simpa [prodUX, itemsExp] using hX
  | @cons i kv is l hi _ ih =>
    have := ih (hX.mul (unitOf_item hi))
    rw [show prodUX X (i :: is) = prodUX (.mul X i.ux) is from rfl]
    convert this using 2 with u
    obtain ⟨k, e⟩ := kv
    simp only [itemsExp]; ring

/-- The string of a printable dimensionality writes an expression for it. -/
theorem formatUnits_writes {w : World K} {fr : ℚ → List Char} {d : PDim} (hn : Dict.Nodup d)
    (hp : Printable w fr d) :
    ∃ e, Writes .term e (formatUnits w fr false d) ∧ UnitOf w e (expo d.toDim) := by
  have hperm := sorted_perm w d
  have hcanon : Canon d.toDim := by
    refine ⟨?_, ?_⟩
    · simpa [PDim.toDim, Dict.Nodup, List.map_map, Function.comp_def] using hn
    · intro kv hk
      simp only [PDim.toDim, List.mem_map] at hk
      obtain ⟨x, hx, rfl⟩ := hk
      rcases hp.exp x hx with ⟨h, -⟩ | ⟨h, -⟩
      · exact h.ne'
      · exact h.ne
  set items := PDim.sorted w d with hitems
  have hmem : ∀ {kv}, kv ∈ items → kv ∈ d := fun h => hperm.mem_iff.1 h
  let pos := items.filter (fun kv => decide (0 < kv.2.val))
  let neg := items.filter (fun kv => decide (kv.2.val < 0))
  have hpos : ∀ kv ∈ pos, kv ∈ d ∧ 0 < kv.2.val := fun kv h => by
    obtain ⟨h1, h2⟩ := List.mem_filter.1 h; exact ⟨hmem h1, by simpa using h2⟩
  have hneg : ∀ kv ∈ neg, kv ∈ d ∧ kv.2.val < 0 := fun kv h => by
    obtain ⟨h1, h2⟩ := List.mem_filter.1 h; exact ⟨hmem h1, by simpa using h2⟩
  have negval : ∀ e : PyNum, e.neg.val = - e.val := by
    intro e; cases e <;> simp [PyNum.neg, PyNum.val]
  have strPos : ∀ kv ∈ pos, Writes .factor (mkItem w kv.1 kv.2).ux (fmtItem w fr false kv.1 kv.2) := by
    intro kv hk
    obtain ⟨h1, h2⟩ := hpos kv hk
    refine fmtItem_writes (hp.symbol kv h1).1 ?_
    rcases hp.exp kv h1 with ⟨-, h⟩ | ⟨h, -⟩
    · exact h
    · exact absurd h2 (not_lt.2 h.le)
  have strNeg : ∀ kv ∈ neg,
      Writes .factor (mkItem w kv.1 kv.2.neg).ux (fmtItem w fr false kv.1 kv.2.neg) := by
    intro kv hk
    obtain ⟨h1, h2⟩ := hneg kv hk
    refine fmtItem_writes (hp.symbol kv h1).1 ?_
    rcases hp.exp kv h1 with ⟨h, -⟩ | ⟨-, h⟩
    · exact absurd h2 (not_lt.2 h.le)
    · exact h
  have itemExp : ∀ e : PyNum, (if e.val ≠ 1 then some e.val else none : Option ℚ).getD 1 = e.val := by
    intro e
    by_cases h : e.val = 1
    · simp [h]
    · simp [h]
  have forPos : ∀ kv ∈ pos, ItemFor w (mkItem w kv.1 kv.2) kv.1 kv.2.val := fun kv hk =>
    ⟨(hp.symbol kv (hpos kv hk).1).2.2, hp.cls kv (hpos kv hk).1, itemExp _⟩
  have forNeg : ∀ kv ∈ neg, ItemFor w (mkItem w kv.1 kv.2.neg) kv.1 (- kv.2.val) := fun kv hk =>
    ⟨(hp.symbol kv (hneg kv hk).1).2.2, hp.cls kv (hneg kv hk).1, by
      rw [← negval]; exact itemExp _⟩
  let lp : List (UKey × ℚ) := pos.map (fun kv => (kv.1, kv.2.val))
  let ln : List (UKey × ℚ) := neg.map (fun kv => (kv.1, - kv.2.val))
  -- the exponents
  have hexp : ∀ u, itemsExp lp u - itemsExp ln u = expo d.toDim u := by
    intro u
    rw [← itemsExp_eq_expo hcanon.nodup]
    have e1 : itemsExp d.toDim u = itemsExp (items.map (fun kv => (kv.1, kv.2.val))) u :=
      itemsExp_perm (hperm.symm.map _) u
    rw [e1]
    have hz : ∀ kv ∈ items, 0 < kv.2.val ∨ kv.2.val < 0 := fun kv hk => by
      rcases hp.exp kv (hmem hk) with ⟨h, -⟩ | ⟨h, -⟩
      · exact Or.inl h
      · exact Or.inr h
    change itemsExp ((items.filter (fun kv => decide (0 < kv.2.val))).map (fun kv => (kv.1, kv.2.val))) u
      - itemsExp ((items.filter (fun kv => decide (kv.2.val < 0))).map (fun kv => (kv.1, - kv.2.val))) u
      = _
    clear_value items
    clear hitems hperm hmem pos neg hpos hneg strPos strNeg forPos forNeg lp ln e1
    induction items with
    | nil => simp [itemsExp]
    | cons kv l ih =>
      have ih := ih (fun x hx => hz x (by simp [hx]))
      rcases hz kv (by simp) with h | h
      · rw [List.filter_cons_of_pos (by simpa using h), List.filter_cons_of_neg (by simpa using h.le)]
        simp only [List.map_cons, itemsExp]
        rw [← ih]; ring
      · rw [List.filter_cons_of_neg (by simpa using h.le), List.filter_cons_of_pos (by simpa using h)]
        simp only [List.map_cons, itemsExp]
        rw [← ih]
        by_cases hk : kv.1 = u <;> simp [hk] <;> ring
  have finish : ∀ (s : List Char) (e : UX) (f : UKey → ℚ), formatUnits w fr false d = s →
      Writes .term e s → UnitOf w e f → (∀ u, f u = expo d.toDim u) →
      ∃ e, Writes .term e (formatUnits w fr false d) ∧ UnitOf w e (expo d.toDim) := by
    rintro s e f rfl he hu hf
    exact ⟨e, he, hu.sensible, hu.number, hu.factor, fun u => (hu.exponent u).trans (hf u)⟩
  have eNum : fmtNum w fr false items = pos.map (fun kv => fmtItem w fr false kv.1 kv.2) := rfl
  have eDen : fmtDen w fr false items = neg.map (fun kv => fmtItem w fr false kv.1 kv.2.neg) := rfl
  have fPos := forall₂_map (R := fun s i => Writes .factor (Item.ux i) s) pos
    (fun kv => fmtItem w fr false kv.1 kv.2) (fun kv => mkItem w kv.1 kv.2) strPos
  have fNeg := forall₂_map (R := fun s i => Writes .factor (Item.ux i) s) neg
    (fun kv => fmtItem w fr false kv.1 kv.2.neg) (fun kv => mkItem w kv.1 kv.2.neg) strNeg
  have mPos := forall₂_map (R := fun i (kv : UKey × ℚ) => ItemFor w i kv.1 kv.2) pos
    (fun kv => mkItem w kv.1 kv.2) (fun kv => (kv.1, kv.2.val)) forPos
  have mNeg := forall₂_map (R := fun i (kv : UKey × ℚ) => ItemFor w i kv.1 kv.2) neg
    (fun kv => mkItem w kv.1 kv.2.neg) (fun kv => (kv.1, - kv.2.val)) forNeg
  have hne' : ∀ {e : UX} {s : List Char}, Writes .term e s → s ≠ [] := by
    intro e s h
    have := h.reads.start
    obtain ⟨c, r, hr, -⟩ := this
    rintro rfl
    have : plainOps [] = [] := by decide
    rw [this] at hr; simp at hr
  have hden : neg ≠ [] → ∃ (ds : List Char) (D : UX),
      ds = (if 1 < (fmtDen w fr false items).length
        then '(' :: joinStar (fmtDen w fr false items) ++ [')'] else joinStar (fmtDen w fr false items)) ∧
      Writes .factor D ds ∧ UnitOf w D (itemsExp ln) := by
    intro hne
    rw [eDen]
    rcases hn' : neg with _ | ⟨kv, l⟩
    · exact absurd hn' hne
    · rw [hn'] at fNeg mNeg
      simp only [List.map_cons, List.forall₂_cons] at fNeg mNeg
      have h1 := joinStar_writes fNeg.2 (.factor fNeg.1)
      have hev : UnitOf w (prodUX (mkItem w kv.1 kv.2.neg).ux
          (l.map (fun kv => mkItem w kv.1 kv.2.neg))) (itemsExp ln) := by
        have := unitOf_prod mNeg.2 (unitOf_item mNeg.1)
        have e : ln = (kv.1, - kv.2.val) :: l.map (fun kv => (kv.1, - kv.2.val)) := by
          simp only [ln, hn', List.map_cons]
        rw [e]; exact this
      rcases l with _ | ⟨kv', l'⟩
      · exact ⟨_, (mkItem w kv.1 kv.2.neg).ux, rfl, by simpa [joinStar] using fNeg.1, hev⟩
      · refine ⟨_, _, rfl, ?_, hev⟩
        simp only [List.map_cons, List.length_cons, List.length_map,
          if_pos (show 1 < l'.length + 1 + 1 by omega)]
        have := Writes.paren (b₁ := []) (b₂ := []) blank_nil h1 blank_nil
        refine .atom ?_
        simpa using this
  have hfmt : formatUnits w fr false d =
      (let res := joinStar (fmtNum w fr false items)
       let res := if (fmtDen w fr false items).length = 0 then res
         else (if res = [] then ['1'] else res) ++ '/' ::
           (if 1 < (fmtDen w fr false items).length
            then '(' :: joinStar (fmtDen w fr false items) ++ [')']
            else joinStar (fmtDen w fr false items))
       if res = [] then "dimensionless".toList else res) := rfl
  rcases hpe : pos with _ | ⟨kv, l⟩
  · have lp0 : lp = [] := by simp [lp, hpe]
    have eNum0 : fmtNum w fr false items = [] := by rw [eNum, hpe]; rfl
    by_cases hne : neg = []
    · have ln0 : ln = [] := by simp [ln, hne]
      have eDen0 : fmtDen w fr false items = [] := by rw [eDen, hne]; rfl
      obtain ⟨u, hu, huc⟩ := hp.dimless
      have hs : formatUnits w fr false d = "dimensionless".toList := by
        rw [hfmt, eNum0, eDen0]; rfl
      have hid : IsIdent "dimensionless".toList :=
        ⟨by decide, fun c hc => by simp at hc; subst hc; decide, by decide, by decide⟩
      have hnm : w.named "dimensionless".toList = some u := hu
      refine finish _ (.name "dimensionless".toList) (fun _ => 0) hs (.factor (.atom (.name hid)))
        ⟨?_, rfl, rfl, ?_⟩ ?_
      · simp only [UX.Sensible, hnm, Option.isSome_some]
      · intro v
        simp only [UX.exponent, hnm, Option.some.injEq]
        rw [if_neg]; rintro ⟨rfl, h⟩; exact h huc
      · intro v; rw [← hexp v, lp0, ln0]; simp [itemsExp]
    · obtain ⟨ds, D, hds, hW, hU⟩ := hden hne
      have hl0 : ¬ (fmtDen w fr false items).length = 0 := by rw [eDen]; simpa using hne
      have hs : formatUnits w fr false d = '1' :: '/' :: ds := by
        rw [hfmt, eNum0]
        simp only [joinStar, if_neg hl0, ← hds, if_true]
        rfl
      have h1 : IsDecimal ['1'] 1 := ⟨1, Or.inl ⟨by decide +kernel, by norm_num⟩⟩
      have := Writes.div (b₁ := []) (b₂ := []) (.factor (.atom (.num h1))) blank_nil blank_nil hW
      refine finish ('1' :: '/' :: ds) _ _ hs (by simpa using this) hU.inv ?_
      intro v; rw [← hexp v, lp0]; simp [itemsExp]
  · rw [hpe] at fPos mPos
    simp only [List.map_cons, List.forall₂_cons] at fPos mPos
    have h1 := joinStar_writes fPos.2 (.factor fPos.1)
    have hev : UnitOf w (prodUX (mkItem w kv.1 kv.2).ux (l.map (fun kv => mkItem w kv.1 kv.2)))
        (itemsExp lp) := by
      have := unitOf_prod mPos.2 (unitOf_item mPos.1)
      have e : lp = (kv.1, kv.2.val) :: l.map (fun kv => (kv.1, kv.2.val)) := by
        simp only [lp, hpe, List.map_cons]
      rw [e]; exact this
    have eNum1 : fmtNum w fr false items =
        fmtItem w fr false kv.1 kv.2 :: l.map (fun kv => fmtItem w fr false kv.1 kv.2) := by
      rw [eNum, hpe]; rfl
    have hjne := hne' h1
    by_cases hne : neg = []
    · have ln0 : ln = [] := by simp [ln, hne]
      have eDen0 : fmtDen w fr false items = [] := by rw [eDen, hne]; rfl
      have hs : formatUnits w fr false d = joinStar (fmtItem w fr false kv.1 kv.2 ::
          l.map (fun kv => fmtItem w fr false kv.1 kv.2)) := by
        rw [hfmt, eNum1, eDen0]; simp only [List.length_nil, if_true, if_neg hjne]
      refine finish _ _ _ hs h1 hev ?_
      intro v; rw [← hexp v, ln0]; simp [itemsExp]
    · obtain ⟨ds, D, hds, hW, hU⟩ := hden hne
      have hl0 : ¬ (fmtDen w fr false items).length = 0 := by rw [eDen]; simpa using hne
      have hs : formatUnits w fr false d = joinStar (fmtItem w fr false kv.1 kv.2 ::
          l.map (fun kv => fmtItem w fr false kv.1 kv.2)) ++ '/' :: ds := by
        rw [hfmt, eNum1]
        simp only [if_neg hl0, ← hds, if_neg hjne]
        rw [if_neg (by simp)]
      have := Writes.div (b₁ := []) (b₂ := []) h1 blank_nil blank_nil hW
      exact finish _ _ _ hs (by simpa using this) (hev.div hU) hexp

/-- Something multiplied in front of a term multiplies the whole. -/
theorem prefix_writes {w : World K} {X : UX} {xs b₁ b₂ : List Char} (hX : Writes .term X xs)
    (hXs : X.Sensible w) (h₁ : Blank b₁) (h₂ : Blank b₂) {p : Prec} {e : UX} {s : List Char}
    (h : Writes p e s) (hp : p = .term) (hs : e.Sensible w) :
    ∃ e', Writes .term e' (xs ++ b₁ ++ ['*'] ++ b₂ ++ s) ∧ e'.Sensible w ∧
      (e'.factor : K) = X.factor * e.factor ∧ (∀ u, e'.exponent w u = X.exponent w u + e.exponent w u) ∧
      (e.number = none → e'.number = none) ∧
      ∀ v : Valuation w, e'.value v = X.value v * e.value v := by
  induction h with
  | name _ => cases hp
  | num _ => cases hp
  | paren _ _ _ _ => cases hp
  | atom _ _ => cases hp
  | pow _ _ _ _ _ _ _ => cases hp
  | neg _ _ _ => cases hp
  | @factor e s h _ =>
    refine ⟨.mul X e, .mul hX h₁ (Or.inl rfl) h₂ h, ⟨hXs, hs⟩, rfl, fun _ => rfl, ?_, fun _ => rfl⟩
    intro hn
    rcases hx : X.number with _ | x <;> simp [UX.number, hn, hx]
  | @mul a b s t c₁ c₂ op ha hc₁ hop hc₂ hb iha _ =>
    obtain ⟨a', g1, g2, g3, g4, g5, g6⟩ := iha rfl hs.1
    refine ⟨.mul a' b, ?_, ⟨g2, hs.2⟩, ?_, ?_, ?_, ?_⟩
    · have := Writes.mul g1 hc₁ hop hc₂ hb
      simpa using this
    · simp only [UX.factor, g3]; ring
    · intro u; simp only [UX.exponent, g4]; ring
    · intro hn
      rcases hx : a.number with _ | x
      · simp [UX.number, g5 hx]
      · rcases hy : b.number with _ | y
        · rcases hz : a'.number with _ | z <;> simp [UX.number, hy, hz]
        · simp [UX.number, hx, hy] at hn
    · intro v; simp only [UX.value, g6]; ring
  | @div a b s t c₁ c₂ ha hc₁ hc₂ hb iha _ =>
    obtain ⟨a', g1, g2, g3, g4, g5, g6⟩ := iha rfl hs.1
    refine ⟨.div a' b, ?_, ⟨g2, hs.2⟩, ?_, ?_, ?_, ?_⟩
    · have := Writes.div g1 hc₁ hc₂ hb
      simpa using this
    · simp only [UX.factor, g3]; ring
    · intro u; simp only [UX.exponent, g4]; ring
    · intro hn
      rcases hx : a.number with _ | x
      · simp [UX.number, g5 hx]
      · rcases hy : b.number with _ | y
        · rcases hz : a'.number with _ | z <;> simp [UX.number, hy, hz]
        · simp [UX.number, hx, hy] at hn
    · intro v; simp only [UX.value, g6]; ring

end
end PQ
