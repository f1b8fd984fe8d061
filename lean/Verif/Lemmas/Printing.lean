import Verif.Lemmas.RoundTrip3
import Verif.Lemmas.Orders

/-! # Strings depend on the numerical value of exponents only -/

namespace PQ

open Dict

variable {K : Type _}

theorem natDigits_notDot (n : Nat) (pre : List Char) : (pre ++ natDigits n).getLast? ≠ some '.' := by
  rw [getLast?_append_ne (natDigits_ne_nil n)]
  intro he
  exact isDig_ne (natDigits_isDig n _ (List.mem_of_getLast? he)) (by decide : isDig '.' = false) rfl

theorem digVal_zero {c : Char} (h : isDig c = true) (h0 : digVal c = 0) : c = '0' := by
  simp only [isDig, Bool.and_eq_true, decide_eq_true_eq, digVal] at h h0
  have : c.toNat = '0'.toNat := by omega
  exact Char.toNat_inj.1 this

theorem digVal_lt {c : Char} (h : isDig c = true) : digVal c < 10 := by
  simp only [isDig, Bool.and_eq_true, decide_eq_true_eq, digVal] at h ⊢
  have e1 : '0'.toNat = 48 := rfl
  have e2 : '9'.toNat = 57 := rfl
  omega

/-- An integral exponent prints as its digits, whether it is held as an `int` or a `float`. -/
theorem expSuffix_nat {fr : ℚ → List Char} {d : PyNum} (h : FaithfulExp fr d) {n : ℕ}
    (hv : d.val = n) : expSuffix fr d = '*' :: '*' :: natDigits n := by
  cases d with
  | int m =>
    obtain ⟨hm, hd⟩ := h
    have hmn : m = n := by
      have : (m : ℚ) = n := hv
      exact_mod_cast this
    subst hmn
    have hstr : (PyNum.int (n : ℤ)).str fr = natDigits n := by simp [PyNum.str]
    have hnd : ¬ 10 ∣ n := by intro h'; exact hd (by exact_mod_cast h')
    unfold expSuffix
    rw [hstr, show '*' :: '*' :: natDigits n = ['*', '*'] ++ natDigits n from rfl,
      rstrip_eq (c := '0') (by rw [getLast?_append_ne (natDigits_ne_nil _)]; exact natDigits_last hnd),
      rstrip_eq (natDigits_notDot _ _)]
  | float q =>
    obtain ⟨hq, i, fp, hs, hfp⟩ := h
    have hstr : (PyNum.float q).str fr = natDigits i ++ '.' :: fp := hs
    rcases hfp with ⟨rfl, rfl⟩ | ⟨hne, hall, hlast, rfl⟩
    · have hin : i = n := by simpa [PyNum.val] using hv
      subst hin
      unfold expSuffix
      rw [hstr, show '*' :: '*' :: (natDigits i ++ ['.', '0']) =
          ((['*', '*'] ++ natDigits i) ++ ['.']) ++ ['0'] by simp,
        rstrip_snoc, rstrip_eq (c := '0') (by rw [List.getLast?_concat]; decide), rstrip_snoc,
        rstrip_eq (natDigits_notDot _ _)]
      rfl
    · exfalso
      obtain ⟨c, hc⟩ : ∃ c, fp.getLast? = some c := by
        rw [List.getLast?_eq_some_getLast hne]; exact ⟨_, rfl⟩
      have hcd : isDig c = true := List.all_eq_true.1 hall _ (List.mem_of_getLast? hc)
      have hsplit : fp = fp.dropLast ++ [c] := by
        rw [List.getLast?_eq_some_getLast hne] at hc
        simp only [Option.some.injEq] at hc
        rw [← hc, List.dropLast_append_getLast hne]
      have hval : digitsVal 0 (natDigits i ++ fp) =
          10 * digitsVal 0 (natDigits i ++ fp.dropLast) + digVal c := by
        conv_lhs => rw [hsplit]
        rw [← List.append_assoc, digitsVal_append, digitsVal_cons]; rfl
      have hpos : fp.length ≠ 0 := by simpa using hne
      obtain ⟨k, hk⟩ := Nat.exists_eq_succ_of_ne_zero hpos
      simp only [PyNum.val] at hv
      rw [div_eq_iff (by positivity)] at hv
      have hv' : digitsVal 0 (natDigits i ++ fp) = n * 10 ^ fp.length := by exact_mod_cast hv
      rw [hval, hk, pow_succ] at hv'
      have h10 := digVal_lt hcd
      have hz : digVal c = 0 := by
        have : (10 * digitsVal 0 (natDigits i ++ fp.dropLast) + digVal c) % 10 = 0 := by
          rw [hv', ← mul_assoc]; simp
        omega
      exact hlast (by rw [hc, digVal_zero hcd hz])

theorem expSuffix_val {fr : ℚ → List Char} {a b : PyNum} (ha : FaithfulExp fr a)
    (hb : FaithfulExp fr b) (h : a.val = b.val) : expSuffix fr a = expSuffix fr b := by
  have key : ∀ {m : ℤ} {x y : PyNum}, x = .int m → FaithfulExp fr x → FaithfulExp fr y →
      x.val = y.val → expSuffix fr x = expSuffix fr y := by
    rintro m x y rfl hx hy hv
    obtain ⟨n, hn⟩ := Int.eq_ofNat_of_zero_le hx.1.le
    have hvx : (PyNum.int m).val = (n : ℚ) := by simp [PyNum.val, hn]
    rw [expSuffix_nat hx hvx, expSuffix_nat hy (hv ▸ hvx)]
  cases a with
  | int m => exact key rfl ha hb h
  | float q =>
    cases b with
    | int m => exact (key rfl hb ha h.symm).symm
    | float r =>
      have : q = r := h
      subst this; rfl

theorem fmtItem_val (w : World K) {fr : ℚ → List Char} (uni : Bool) (u : UKey) {a b : PyNum}
    (ha : FaithfulExp fr a) (hb : FaithfulExp fr b) (h : a.val = b.val) :
    fmtItem w fr uni u a = fmtItem w fr uni u b := by
  unfold fmtItem
  rw [h, expSuffix_val ha hb h]

theorem neg_val (e : PyNum) : e.neg.val = - e.val := by
  cases e <;> simp [PyNum.neg, PyNum.val]

/-- Same units and values, item by item. -/
def SameItem (fr : ℚ → List Char) (x y : UKey × PyNum) : Prop :=
  x.1 = y.1 ∧ x.2.val = y.2.val ∧ PrintsExp fr x.2 ∧ PrintsExp fr y.2

theorem fmt_congr (w : World K) {fr : ℚ → List Char} (uni : Bool) {l m : List (UKey × PyNum)}
    (h : List.Forall₂ (SameItem fr) l m) :
    fmtNum w fr uni l = fmtNum w fr uni m ∧ fmtDen w fr uni l = fmtDen w fr uni m := by
  induction h with
  | nil => exact ⟨rfl, rfl⟩
  | @cons x y l m hxy _ ih =>
    obtain ⟨i1, i2⟩ := ih
    obtain ⟨h1, h2, h3, h4⟩ := hxy
    unfold fmtNum fmtDen at *
    rcases h3 with ⟨p3, f3⟩ | ⟨p3, f3⟩
    · have p4 : 0 < y.2.val := h2 ▸ p3
      have f4 : FaithfulExp fr y.2 := by
        rcases h4 with ⟨-, h⟩ | ⟨h, -⟩
        · exact h
        · exact absurd h (not_lt.2 p4.le)
      rw [List.filter_cons_of_pos (by simpa using p3), List.filter_cons_of_pos (by simpa using p4),
        List.filter_cons_of_neg (by simpa using p3.le), List.filter_cons_of_neg (by simpa using p4.le),
        List.map_cons, List.map_cons, i1, i2, h1, fmtItem_val w uni y.1 f3 f4 h2]
      exact ⟨rfl, rfl⟩
    · have p4 : y.2.val < 0 := h2 ▸ p3
      have f4 : FaithfulExp fr y.2.neg := by
        rcases h4 with ⟨h, -⟩ | ⟨-, h⟩
        · exact absurd h (not_lt.2 p4.le)
        · exact h
      rw [List.filter_cons_of_neg (by simpa using p3.le), List.filter_cons_of_neg (by simpa using p4.le),
        List.filter_cons_of_pos (by simpa using p3), List.filter_cons_of_pos (by simpa using p4),
        List.map_cons, List.map_cons, i1, i2, h1,
        fmtItem_val w uni y.1 f3 f4 (by rw [neg_val, neg_val, h2])]
      exact ⟨rfl, rfl⟩

theorem forall₂_of_map_eq {α β γ : Type _} {f : α → γ} {g : β → γ} {l : List α} {m : List β}
    (h : l.map f = m.map g) : List.Forall₂ (fun a b => f a = g b) l m := by
  induction l generalizing m with
  | nil => cases m with
    | nil => exact .nil
    | cons b m => simp at h
  | cons a l ih => cases m with
    | nil => simp at h
    | cons b m =>
      simp only [List.map_cons, List.cons.injEq] at h
      exact .cons h.1 (ih h.2)

theorem sorted_pairwise (w : World K) (d : PDim) : (PDim.sorted w d).Pairwise
    (fun a b => orderLE (w.order a.1) (w.order b.1) = true) :=
  haveI : IsTrans (UKey × PyNum) (fun a b => orderLE (w.order a.1) (w.order b.1) = true) :=
    ⟨fun _ _ _ => orderLE_trans _ _ _⟩
  haveI : Std.Total (α := UKey × PyNum) (fun a b => orderLE (w.order a.1) (w.order b.1) = true) :=
    ⟨fun a b => by simpa using orderLE_total (w.order a.1) (w.order b.1)⟩
  List.pairwise_insertionSort _ d

theorem toDim_nodup {d : PDim} (h : Dict.Nodup d) : Dict.Nodup d.toDim := by
  simpa [PDim.toDim, Dict.Nodup, List.map_map, Function.comp_def] using h

theorem perm_of_same {d e : Dim} (hd : Dict.Nodup d) (he : Dict.Nodup e) (h : SameContent d e) :
    d.Perm e := by
  refine (List.perm_ext_iff_of_nodup hd.of_map he.of_map).2 fun x => ?_
  obtain ⟨k, v⟩ := x
  constructor
  · intro hx
    have := get?_of_mem hd hx
    rw [h k] at this
    exact mem_of_get? this
  · intro hx
    have := get?_of_mem he hx
    rw [← h k] at this
    exact mem_of_get? this

theorem formatUnits_content (w : World K) {fr : ℚ → List Char} (uni : Bool) {d e : PDim}
    (hd : Dict.Nodup d) (he : Dict.Nodup e) (h : SameContent d.toDim e.toDim)
    (hinj : ∀ kv ∈ d, ∀ kv' ∈ d, w.order kv.1 = w.order kv'.1 → kv.1 = kv'.1)
    (fd : ∀ kv ∈ d, PrintsExp fr kv.2) (fe : ∀ kv ∈ e, PrintsExp fr kv.2) :
    formatUnits w fr uni d = formatUnits w fr uni e := by
  have hp : d.toDim.Perm e.toDim := perm_of_same (toDim_nodup hd) (toDim_nodup he) h
  have pd := sorted_perm w d
  have pe := sorted_perm w e
  let g : UKey × PyNum → UKey × ℚ := fun kv => (kv.1, kv.2.val)
  have hmap : (PDim.sorted w d).map g = (PDim.sorted w e).map g := by
    refine List.Perm.eq_of_pairwise
      (le := fun a b => orderLE (w.order a.1) (w.order b.1) = true) ?_
      (List.pairwise_map.2 (sorted_pairwise w d)) (List.pairwise_map.2 (sorted_pairwise w e))
      ((pd.map g).trans (hp.trans (pe.map g).symm))
    intro a b ha hb h1 h2
    have ha : a ∈ d.toDim := (pd.map g).mem_iff.1 ha
    have hb : b ∈ d.toDim := hp.mem_iff.2 ((pe.map g).mem_iff.1 hb)
    have hk : a.1 = b.1 := by
      obtain ⟨x, hx, rfl⟩ := List.mem_map.1 ha
      obtain ⟨y, hy, rfl⟩ := List.mem_map.1 hb
      exact hinj x hx y hy (orderLE_antisymm _ _ h1 h2)
    have e1 := get?_of_mem (toDim_nodup hd) ha
    have e2 := get?_of_mem (toDim_nodup hd) hb
    rw [hk, e2] at e1
    exact Prod.ext hk (Option.some.inj e1).symm
  have hF : List.Forall₂ (SameItem fr) (PDim.sorted w d) (PDim.sorted w e) := by
    have := forall₂_of_map_eq hmap
    have m1 : ∀ x ∈ PDim.sorted w d, PrintsExp fr x.2 := fun x hx => fd x (pd.mem_iff.1 hx)
    have m2 : ∀ x ∈ PDim.sorted w e, PrintsExp fr x.2 := fun x hx => fe x (pe.mem_iff.1 hx)
    clear hmap pd pe
    generalize PDim.sorted w d = l1 at *
    generalize PDim.sorted w e = l2 at *
    induction this with
    | nil => exact .nil
    | cons hab _ ih =>
      refine .cons ⟨(Prod.ext_iff.1 hab).1, (Prod.ext_iff.1 hab).2, m1 _ (by simp), m2 _ (by simp)⟩
        (ih (fun x hx => m1 x (by simp [hx])) (fun x hx => m2 x (by simp [hx])))
  obtain ⟨h1, h2⟩ := fmt_congr w uni hF
  simp only [formatUnits, h1, h2]

end PQ
