import Verif.Spec.Quantitizer
import Verif.Props.Simplified

/-!
# Property C55: functions wrapped by `quantitizer` compute with physical values
-/

namespace PQ

open Quantitizer LawfulRPow World

variable {K : Type _} [Field K] [LinearOrder K] [IsStrictOrderedRing K] [RPow K] [LawfulRPow K]
  {h : Hasher} {w : World K}

/-! ## Lemmas -/

theorem dim_simplified_loop {fuel : Nat} {d s : Dim} (hr : Dim.simplified w fuel d = .ok s) :
    ∃ rq, simplifiedLoop w fuel ⟨1, []⟩ d = .ok rq ∧ rq.dim = s := by
  unfold Dim.simplified at hr
  cases d with
  | nil =>
    simp only [List.isEmpty_nil, if_true, Except.ok.injEq] at hr
    exact ⟨⟨1, []⟩, by simp [simplifiedLoop], hr⟩
  | cons kv d =>
    rw [if_neg (by simp)] at hr
    rcases hl : simplifiedLoop w fuel ⟨1, []⟩ (kv :: d) with e | rq
    · rw [hl] at hr; exact absurd hr (by simp)
    · rw [hl] at hr
      simp only [Except.ok.injEq] at hr
      exact ⟨rq, rfl, hr⟩

theorem plain_ok (hw : Reachable h w) (hds : DefaultsSafe w) {fuel : Nat} {a : Operand K} {x : NDArr K}
    (ha : ∀ q, a = .quantity q → DimOK w q.dim) (hx : plain w fuel a = .ok x) : GivenAs w a x := by
  cases a with
  | array y => simp only [plain, Except.ok.injEq] at hx; exact hx.symm
  | quantity q =>
    simp only [plain] at hx
    rcases hr : q.simplified w fuel with e | r
    · rw [hr] at hx; exact absurd hx (by simp [Except.map])
    · rw [hr] at hx
      simp only [Except.map, Except.ok.injEq] at hx
      obtain ⟨-, h2, h3, h4⟩ := C19_value hw hds q r fuel (ha q rfl) hr
      refine ⟨r.dim, h2, h3, fun v => ?_⟩
      rw [← hx]; exact h4 v

theorem plainAll_ok (hw : Reachable h w) (hds : DefaultsSafe w) {fuel : Nat} {l : List (Operand K)}
    {xs : List (NDArr K)} (hl : ArgsOK w l) (hx : plainAll w fuel l = .ok xs) :
    List.Forall₂ (GivenAs w) l xs := by
  induction l generalizing xs with
  | nil => simp only [plainAll, Except.ok.injEq] at hx; subst hx; exact .nil
  | cons a l ih =>
    rw [plainAll] at hx
    rcases h1 : plain w fuel a with e | x
    · rw [h1] at hx; exact absurd hx (by simp)
    rw [h1] at hx; simp only at hx
    rcases h2 : plainAll w fuel l with e | ys
    · rw [h2] at hx; exact absurd hx (by simp)
    rw [h2] at hx; simp only [Except.ok.injEq] at hx; subst hx
    exact .cons (plain_ok hw hds (fun q hq => hl q (by simp [hq])) h1)
      (ih (fun q hq => hl q (List.mem_cons_of_mem _ hq)) h2)

theorem attach_ok (hw : Reachable h w) (hds : DefaultsSafe w) {fuel : Nat} {x : NDArr K} {d : Dim}
    {r : Quantity K} (hd : DimOK w d) (hs : ∀ s, Dim.simplified w fuel d = .ok s → HashSafe w s d)
    (hr : attach w fuel x d = .ok r) :
    ∃ s : Dim, SameContent r.dim d ∧ DimOK w r.dim ∧ DimOK w s ∧
      (∀ u ∈ s.map Prod.fst, IsDefaultUnit w u) ∧ Compatible w s d ∧
      (∀ v : Valuation w, v.phys r = v.phys ⟨x, s⟩) ∧
      ∃ rq, simplifiedLoop w fuel ⟨1, []⟩ d = .ok rq ∧ rq.dim = s := by
  unfold attach at hr
  rcases h1 : Dim.simplified w fuel d with e | s
  · rw [h1] at hr; exact absurd hr (by simp)
  rw [h1] at hr; simp only at hr
  obtain ⟨rq, hl, hrq⟩ := dim_simplified_loop h1
  obtain ⟨p1, p2, p3, p4, -⟩ := simplifiedLoop_spec hw.wf hds hd hl
  rw [hrq] at p2 p3 p4
  have hsafe := hs s h1
  obtain ⟨-, q2, q3, -⟩ := rescale_ok hw.wf (q := ⟨x, s⟩) p2 hd hsafe hr
  refine ⟨s, q2, q3, p2, p4, ?_, fun v => rescale_phys hw.wf (q := ⟨x, s⟩) p2 hd hsafe hr v, rq, hl, hrq⟩
  exact ⟨rq.mag⁻¹, fun v => by rw [← p3 v]; field_simp⟩

/-- The results: announced items have units, the rest are as they were. -/
theorem attachAll_ok (hw : Reachable h w) (hds : DefaultsSafe w) {fuel : Nat} (xs : List (NDArr K))
    (hs : List (Option Dim)) (os : List (Operand K)) (ha : Announceable w fuel hs)
    (hr : attachAll w fuel xs hs = .ok os) :
    os.length = xs.length ∧ ∀ i (hi : i < xs.length) (ho : i < os.length),
      ReturnedAs w xs[i] (hs[i]?.getD none) os[i] := by
  induction xs generalizing hs os with
  | nil =>
    rw [attachAll] at hr
    · simp only [List.map_nil, Except.ok.injEq] at hr; subst hr; exact ⟨rfl, by simp⟩
    · simp
    · simp
  | cons x xs ih =>
    cases hs with
    | nil =>
      rw [attachAll] at hr
      · simp only [Except.ok.injEq] at hr; subst hr
        refine ⟨by simp, fun i hi ho => ?_⟩
        have e : (([] : List (Option Dim))[i]?.getD none) = none := by simp
        rw [e]
        show _ = Operand.array _
        rw [List.getElem_map]
      · simp
      · simp
    | cons d hs =>
      have ha' : Announceable w fuel hs := fun d hd => ha d (List.mem_cons_of_mem _ hd)
      cases d with
      | none =>
        rw [attachAll] at hr
        rcases h2 : attachAll w fuel xs hs with e | r
        · rw [h2] at hr; exact absurd hr (by simp)
        rw [h2] at hr; simp only [Except.ok.injEq] at hr; subst hr
        obtain ⟨i1, i2⟩ := ih hs r ha' h2
        refine ⟨by simp [i1], fun i hi ho => ?_⟩
        cases i with
        | zero => simp [ReturnedAs]
        | succ i => simpa using i2 i (by simpa using hi) (by simpa using ho)
      | some d =>
        rw [attachAll] at hr
        rcases h1 : attach w fuel x d with e | q
        · rw [h1] at hr; exact absurd hr (by simp)
        rw [h1] at hr; simp only at hr
        rcases h2 : attachAll w fuel xs hs with e | r
        · rw [h2] at hr; exact absurd hr (by simp)
        rw [h2] at hr; simp only [Except.ok.injEq] at hr; subst hr
        obtain ⟨i1, i2⟩ := ih hs r ha' h2
        refine ⟨by simp [i1], fun i hi ho => ?_⟩
        cases i with
        | zero =>
          obtain ⟨hd, hsafe⟩ := ha d (by simp)
          obtain ⟨s, a1, -, a3, a4, a5, a6, -⟩ := attach_ok hw hds hd hsafe h1
          exact ⟨q, s, rfl, a1, a3, a4, a5, a6⟩
        | succ i => simpa using i2 i (by simpa using hi) (by simpa using ho)

/-- A call that returns went through all the steps. -/
theorem wrapped_steps {fuel : Nat} {base : Call (NDArr K) → Py (BaseOut K)}
    {handler : Call (Operand K) → Py (HandlerOut K)} {c : Call (Operand K)} {os : List (Operand K)}
    (hr : wrapped w fuel base handler c = .ok os) :
    ∃ hq args kwargs out xs hs, handler c = .ok hq ∧ plainAll w fuel c.args = .ok args ∧
      plainKw c.kwargs = .ok kwargs ∧ base ⟨args, kwargs⟩ = .ok out ∧ out.list = .ok xs ∧
      hq.list = .ok hs ∧ attachAll w fuel xs hs = .ok os := by
  unfold wrapped at hr
  rcases h1 : handler c with e | hq
  · rw [h1] at hr; exact absurd hr (by simp)
  rw [h1] at hr; simp only at hr
  rcases h2 : plainAll w fuel c.args with e | args
  · rw [h2] at hr; exact absurd hr (by simp)
  rw [h2] at hr; simp only at hr
  rcases h3 : plainKw c.kwargs with e | kwargs
  · rw [h3] at hr; exact absurd hr (by simp)
  rw [h3] at hr; simp only at hr
  rcases h4 : base ⟨args, kwargs⟩ with e | out
  · rw [h4] at hr; exact absurd hr (by simp)
  rw [h4] at hr; simp only at hr
  rcases h5 : out.list with e | xs
  · rw [h5] at hr; exact absurd hr (by simp)
  rw [h5] at hr; simp only at hr
  rcases h6 : hq.list with e | hs
  · rw [h6] at hr; exact absurd hr (by simp)
  rw [h6] at hr
  exact ⟨hq, args, kwargs, out, xs, hs, rfl, rfl, rfl, h4, h5, h6, hr⟩

theorem plainKw_ok {l : List (String × Operand K)} {xs : List (String × NDArr K)}
    (hx : plainKw l = .ok xs) : l = xs.map (fun kx => (kx.1, .array kx.2)) := by
  induction l generalizing xs with
  | nil => simp only [plainKw, Except.ok.injEq] at hx; subst hx; rfl
  | cons kv l ih =>
    obtain ⟨k, a⟩ := kv
    cases a with
    | quantity q => simp [plainKw] at hx
    | array a =>
      rw [plainKw] at hx
      rcases h2 : plainKw l with e | ys
      · rw [h2] at hx; exact absurd hx (by simp)
      rw [h2] at hx; simp only [Except.ok.injEq] at hx; subst hx
      rw [List.map_cons, ← ih h2]

theorem plainKw_arrays (xs : List (String × NDArr K)) :
    plainKw (xs.map (fun kx => (kx.1, Operand.array kx.2))) = .ok xs := by
  induction xs with
  | nil => rfl
  | cons kx xs ih => rw [List.map_cons, plainKw, ih]

theorem items_of_list {K : Type _} {out : BaseOut K} {xs : List (NDArr K)} (h : out.list = .ok xs) :
    out.Items xs := by
  cases out with
  | tuple l => simp only [BaseOut.list, Except.ok.injEq] at h; exact h.symm
  | number x => simp [BaseOut.list] at h
  | array a =>
    cases hs : a.shape with
    | nil => simp [BaseOut.list, hs] at h
    | cons n s =>
      simp only [BaseOut.list, hs, Except.ok.injEq] at h
      subst h
      simp only [BaseOut.Items, hs, List.length_map, List.length_range, List.tail_cons, true_and]
      intro j x hx
      simp only [List.getElem?_map, Option.map_eq_some_iff] at hx
      obtain ⟨k, hk, rfl⟩ := hx
      have : k = j := by
        obtain ⟨h1, h2⟩ := List.getElem?_eq_some_iff.1 hk
        simpa using h2.symm
      subst this
      exact ⟨by simp [row, hs], fun i => rfl⟩

theorem announces_of_list {K : Type _} {hq : HandlerOut K} {hs : List (Option Dim)}
    (h : hq.list = .ok hs) : hq.Announces hs := by
  cases hq with
  | tuple l => simp only [HandlerOut.list, Except.ok.injEq] at h; exact h.symm
  | number => simp [HandlerOut.list] at h
  | quantity q =>
    cases hsh : q.mag.shape with
    | nil => simp [HandlerOut.list, hsh] at h
    | cons n s =>
      simp only [HandlerOut.list, hsh, Except.ok.injEq] at h
      subst h
      simp only [HandlerOut.Announces, hsh, List.length_replicate, List.tail_cons, true_and]
      exact fun d hd => (List.mem_replicate.1 hd).2

/-! ## The theorems -/

/-- C55: what a call of a wrapped function that returns has computed.  The base function was called
with the arguments in default units; item by item, what the caller receives is the base function's
result, read in default units and expressed in the units the handler announced.  Missing from the
property: quantities as keyword arguments, which are refused. -/
theorem C55_value_partial (hw : Reachable h w) (hds : DefaultsSafe w) (fuel : Nat)
    (base : Call (NDArr K) → Py (BaseOut K)) (handler : Call (Operand K) → Py (HandlerOut K))
    (c : Call (Operand K)) (os : List (Operand K)) (hc : ArgsOK w c.args)
    (ha : ∀ hq hs, handler c = .ok hq → hq.list = .ok hs → Announceable w fuel hs)
    (hr : wrapped w fuel base handler c = .ok os) :
    ∃ (hq : HandlerOut K) (hs : List (Option Dim)) (args : List (NDArr K))
      (kwargs : List (String × NDArr K)) (out : BaseOut K) (xs : List (NDArr K)),
      handler c = .ok hq ∧ hq.Announces hs ∧
      List.Forall₂ (GivenAs w) c.args args ∧
      c.kwargs = kwargs.map (fun kx => (kx.1, .array kx.2)) ∧
      base ⟨args, kwargs⟩ = .ok out ∧ out.Items xs ∧
      os.length = xs.length ∧ ∀ i (hi : i < xs.length) (ho : i < os.length),
        ReturnedAs w xs[i] (hs[i]?.getD none) os[i] := by
  obtain ⟨hq, args, kwargs, out, xs, hs, h1, h2, h3, h4, h5, h6, h7⟩ := wrapped_steps hr
  have hann := ha hq hs h1 h6
  obtain ⟨l1, l2⟩ := attachAll_ok hw hds xs hs os hann h7
  exact ⟨hq, hs, args, kwargs, out, xs, h1, announces_of_list h6, plainAll_ok hw hds hc h2, plainKw_ok h3, h4,
    items_of_list h5, l1, l2⟩

theorem phys_inj {x y : NDArr K} {s t : Dim} (v : Valuation w) (hst : v.size s = v.size t)
    (hp : v.phys ⟨x, s⟩ = v.phys ⟨y, t⟩) : x = y := by
  unfold Valuation.phys at hp
  simp only [hst] at hp
  have hpos : v.size t ≠ 0 := (v.size_pos t).ne'
  have h1 := congrArg NDArr.shape hp
  have h2 := congrArg NDArr.elem hp
  simp only [NDArr.map] at h1 h2
  refine NDArr.ext' h1 (funext fun i => ?_)
  exact mul_right_cancel₀ hpos (congrFun h2 i)

theorem plain_same (hw : Reachable h w) (hds : DefaultsSafe w) (hg : GoodDefaults w) {f₁ f₂ : Nat}
    {a b : Operand K} {x y : NDArr K} (ha : ∀ q, a = .quantity q → DimOK w q.dim)
    (hb : ∀ q, b = .quantity q → DimOK w q.dim) (hab : SameArg w a b)
    (hx : plain w f₁ a = .ok x) (hy : plain w f₂ b = .ok y) : x = y := by
  cases a with
  | array x' =>
    cases b with
    | quantity q => exact absurd hab (by simp [SameArg])
    | array y' =>
      simp only [plain, Except.ok.injEq] at hx hy
      rw [← hx, ← hy]; exact hab
  | quantity p =>
    cases b with
    | array y => exact absurd hab (by simp [SameArg])
    | quantity q =>
      obtain ⟨hc, hv⟩ := hab
      simp only [plain] at hx hy
      rcases hp : p.simplified w f₁ with e | rp
      · rw [hp] at hx; exact absurd hx (by simp [Except.map])
      rcases hq : q.simplified w f₂ with e | rq
      · rw [hq] at hy; exact absurd hy (by simp [Except.map])
      rw [hp] at hx; rw [hq] at hy
      simp only [Except.map, Except.ok.injEq] at hx hy
      have okp := ha p rfl
      have okq := hb q rfl
      obtain ⟨-, p2, -, p4⟩ := C19_value hw hds p rp f₁ okp hp
      obtain ⟨-, q2, -, q4⟩ := C19_value hw hds q rq f₂ okq hq
      obtain ⟨sp, lp, dp, -⟩ := simplified_loop hp
      obtain ⟨sq, lq, dq, -⟩ := simplified_loop hq
      have hsame := (simplified_content hw.wf hds hg okp okq lp lq).2 hc
      obtain ⟨v⟩ := exists_valuation hw.wf
      rw [← hx, ← hy]
      refine phys_inj v (s := rp.dim) (t := rq.dim) ?_ ?_
      · rw [dp, dq]
        exact dsize_same v.val (dp ▸ p2).canon.nodup (dq ▸ q2).canon.nodup hsame
      · exact (p4 v).trans ((hv v).trans (q4 v).symm)

theorem plainAll_same (hw : Reachable h w) (hds : DefaultsSafe w) (hg : GoodDefaults w) {f₁ f₂ : Nat}
    {l m : List (Operand K)} {xs ys : List (NDArr K)} (hl : ArgsOK w l) (hm : ArgsOK w m)
    (hlm : List.Forall₂ (SameArg w) l m) (hx : plainAll w f₁ l = .ok xs) (hy : plainAll w f₂ m = .ok ys) :
    xs = ys := by
  induction hlm generalizing xs ys with
  | nil =>
    simp only [plainAll, Except.ok.injEq] at hx hy
    rw [← hx, ← hy]
  | @cons a b l m hab hlm ih =>
    rw [plainAll] at hx hy
    rcases h1 : plain w f₁ a with e | x
    · rw [h1] at hx; exact absurd hx (by simp)
    rcases h2 : plain w f₂ b with e | y
    · rw [h2] at hy; exact absurd hy (by simp)
    rcases h3 : plainAll w f₁ l with e | xs'
    · rw [h1, h3] at hx; exact absurd hx (by simp)
    rcases h4 : plainAll w f₂ m with e | ys'
    · rw [h2, h4] at hy; exact absurd hy (by simp)
    rw [h1, h3] at hx; rw [h2, h4] at hy
    simp only [Except.ok.injEq] at hx hy
    rw [← hx, ← hy]
    congr 1
    · exact plain_same hw hds hg (fun q hq => hl q (by simp [hq])) (fun q hq => hm q (by simp [hq])) hab h1 h2
    · exact ih (fun q hq => hl q (List.mem_cons_of_mem _ hq)) (fun q hq => hm q (List.mem_cons_of_mem _ hq)) h3 h4

theorem attachAll_same (hw : Reachable h w) (hds : DefaultsSafe w) (hg : GoodDefaults w) {f₁ f₂ : Nat}
    (xs : List (NDArr K)) (hs₁ hs₂ : List (Option Dim)) (os₁ os₂ : List (Operand K))
    (ha₁ : Announceable w f₁ hs₁) (ha₂ : Announceable w f₂ hs₂)
    (hsame : List.Forall₂ (SameAnnounced w) hs₁ hs₂)
    (hr₁ : attachAll w f₁ xs hs₁ = .ok os₁) (hr₂ : attachAll w f₂ xs hs₂ = .ok os₂) :
    List.Forall₂ (SameArg w) os₁ os₂ := by
  induction xs generalizing hs₁ hs₂ os₁ os₂ with
  | nil =>
    rw [attachAll] at hr₁ hr₂
    · simp only [List.map_nil, Except.ok.injEq] at hr₁ hr₂
      rw [← hr₁, ← hr₂]; exact .nil
    all_goals simp
  | cons x xs ih =>
    have refl : ∀ l : List (NDArr K), List.Forall₂ (SameArg w) (l.map .array) (l.map .array) := by
      intro l
      induction l with
      | nil => exact .nil
      | cons y l ih => exact .cons rfl ih
    cases hsame with
    | nil =>
      rw [attachAll] at hr₁ hr₂
      · simp only [Except.ok.injEq] at hr₁ hr₂
        rw [← hr₁, ← hr₂]; exact refl (x :: xs)
      all_goals simp
    | @cons d e hs₁ hs₂ hde hrest =>
      have ha₁' : Announceable w f₁ hs₁ := fun d hd => ha₁ d (List.mem_cons_of_mem _ hd)
      have ha₂' : Announceable w f₂ hs₂ := fun d hd => ha₂ d (List.mem_cons_of_mem _ hd)
      cases d with
      | none =>
        cases e with
        | some e => exact absurd hde (by simp [SameAnnounced])
        | none =>
          rw [attachAll] at hr₁ hr₂
          rcases h1 : attachAll w f₁ xs hs₁ with e | r₁
          · rw [h1] at hr₁; exact absurd hr₁ (by simp)
          rcases h2 : attachAll w f₂ xs hs₂ with e | r₂
          · rw [h2] at hr₂; exact absurd hr₂ (by simp)
          rw [h1] at hr₁; rw [h2] at hr₂
          simp only [Except.ok.injEq] at hr₁ hr₂
          rw [← hr₁, ← hr₂]
          exact .cons rfl (ih hs₁ hs₂ r₁ r₂ ha₁' ha₂' hrest h1 h2)
      | some d =>
        cases e with
        | none => exact absurd hde (by simp [SameAnnounced])
        | some e =>
          rw [attachAll] at hr₁ hr₂
          rcases k1 : attach w f₁ x d with err | q₁
          · rw [k1] at hr₁; exact absurd hr₁ (by simp)
          rcases k2 : attach w f₂ x e with err | q₂
          · rw [k2] at hr₂; exact absurd hr₂ (by simp)
          rcases h1 : attachAll w f₁ xs hs₁ with err | r₁
          · rw [k1, h1] at hr₁; exact absurd hr₁ (by simp)
          rcases h2 : attachAll w f₂ xs hs₂ with err | r₂
          · rw [k2, h2] at hr₂; exact absurd hr₂ (by simp)
          rw [k1, h1] at hr₁; rw [k2, h2] at hr₂
          simp only [Except.ok.injEq] at hr₁ hr₂
          rw [← hr₁, ← hr₂]
          obtain ⟨d1, d2⟩ := ha₁ d (by simp)
          obtain ⟨e1, e2⟩ := ha₂ e (by simp)
          obtain ⟨s, s1, s2, s3, -, s5, s6, rs, sl, sr⟩ := attach_ok hw hds d1 d2 k1
          obtain ⟨t, t1, t2, t3, -, t5, t6, rt, tl, tr⟩ := attach_ok hw hds e1 e2 k2
          have hst := (simplified_content hw.wf hds hg d1 e1 sl tl).2 hde
          rw [sr, tr] at hst
          refine .cons ⟨?_, fun v => ?_⟩ (ih hs₁ hs₂ r₁ r₂ ha₁' ha₂' hrest h1 h2)
          · exact compatible_trans (compatible_of_same s2.canon.nodup d1.canon.nodup s1)
              (compatible_trans hde (compatible_symm hw.wf
                (compatible_of_same t2.canon.nodup e1.canon.nodup t1)))
          · rw [s6 v, t6 v]
            unfold Valuation.phys
            have : v.size s = v.size t := dsize_same v.val s3.canon.nodup t3.canon.nodup hst
            simp only [this]

/-- C55: two calls with the same arguments in different units, whose announced units agree up to
conversion, give the same results up to conversion: same plain items, quantities of compatible units
and equal physical value.  Missing from the property: quantities as keyword arguments. -/
theorem C55_unit_independent_partial (hw : Reachable h w) (hds : DefaultsSafe w) (hg : GoodDefaults w)
    (fuel : Nat) (base : Call (NDArr K) → Py (BaseOut K)) (handler : Call (Operand K) → Py (HandlerOut K))
    (c₁ c₂ : Call (Operand K)) (h₁ h₂ : HandlerOut K) (l₁ l₂ : List (Option Dim))
    (os₁ os₂ : List (Operand K)) (hc₁ : ArgsOK w c₁.args) (hc₂ : ArgsOK w c₂.args)
    (hsame : List.Forall₂ (SameArg w) c₁.args c₂.args) (hkw : c₁.kwargs = c₂.kwargs)
    (hh₁ : handler c₁ = .ok h₁) (hh₂ : handler c₂ = .ok h₂) (hl₁ : h₁.list = .ok l₁)
    (hl₂ : h₂.list = .ok l₂) (hann : List.Forall₂ (SameAnnounced w) l₁ l₂)
    (ha₁ : Announceable w fuel l₁) (ha₂ : Announceable w fuel l₂)
    (hr₁ : wrapped w fuel base handler c₁ = .ok os₁) (hr₂ : wrapped w fuel base handler c₂ = .ok os₂) :
    List.Forall₂ (SameArg w) os₁ os₂ := by
  obtain ⟨hq, args, kwargs, out, xs, hs, a1, a2, a3, a4, a5, a6, a7⟩ := wrapped_steps hr₁
  obtain ⟨hq', args', kwargs', out', xs', hs', b1, b2, b3, b4, b5, b6, b7⟩ := wrapped_steps hr₂
  rw [hh₁] at a1; rw [hh₂] at b1
  simp only [Except.ok.injEq] at a1 b1
  subst a1; subst b1
  rw [hl₁] at a6; rw [hl₂] at b6
  simp only [Except.ok.injEq] at a6 b6
  subst a6; subst b6
  rw [hkw, b3] at a3
  simp only [Except.ok.injEq] at a3
  have hargs := plainAll_same hw hds hg hc₁ hc₂ hsame a2 b2
  rw [hargs, ← a3, b4] at a4
  simp only [Except.ok.injEq] at a4
  rw [← a4, b5] at a5
  simp only [Except.ok.injEq] at a5
  rw [← a5] at a7
  exact attachAll_same hw hds hg xs' l₁ l₂ os₁ os₂ ha₁ ha₂ hann a7 b7

/-! ## When it returns -/

theorem plainAll_returns (hw : Reachable h w) (hds : DefaultsSafe w) {fuel : Nat} (hf : 3 ≤ fuel)
    (l : List (Operand K)) (hl : ArgsOK w l)
    (hs : ∀ q, Operand.quantity q ∈ l → ∀ kv ∈ q.dim, Simplifies w kv.1) :
    ∃ xs, plainAll w fuel l = .ok xs := by
  induction l with
  | nil => exact ⟨[], rfl⟩
  | cons a l ih =>
    obtain ⟨xs, hx⟩ := ih (fun q hq => hl q (List.mem_cons_of_mem _ hq))
      (fun q hq => hs q (List.mem_cons_of_mem _ hq))
    have : ∃ x, plain w fuel a = .ok x := by
      cases a with
      | array a => exact ⟨a, rfl⟩
      | quantity q =>
        obtain ⟨r, hr⟩ := (C19_returns hw hds q fuel hf (hl q (by simp))).2 (hs q (by simp))
        exact ⟨r.mag, by simp [plain, hr, Except.map]⟩
    obtain ⟨x, hx'⟩ := this
    exact ⟨x :: xs, by rw [plainAll, hx', hx]⟩

theorem attach_returns (hw : Reachable h w) (hds : DefaultsSafe w) {fuel : Nat} (hf : 3 ≤ fuel)
    {d : Dim} (x : NDArr K) (hd : DimOK w d)
    (hs : ∀ s, Dim.simplified w fuel d = .ok s → HashSafe w s d)
    (hsim : ∀ kv ∈ d, Simplifies w kv.1) : ∃ r, attach w fuel x d = .ok r := by
  obtain ⟨r, hr⟩ := (C19_returns hw hds ⟨x, d⟩ fuel hf hd).2 hsim
  obtain ⟨rq, hl, -⟩ := simplified_loop hr
  simp only at hl
  have hds' : ∃ s, Dim.simplified w fuel d = .ok s := by
    unfold Dim.simplified
    split
    · exact ⟨d, rfl⟩
    · rw [hl]; exact ⟨rq.dim, rfl⟩
  obtain ⟨s, hs1⟩ := hds'
  obtain ⟨rq', hl', e⟩ := dim_simplified_loop hs1
  obtain ⟨p1, p2, p3, -⟩ := simplifiedLoop_spec hw.wf hds hd hl'
  rw [e] at p2 p3
  have hc : Compatible w s d := ⟨rq'.mag⁻¹, fun v => by rw [← p3 v]; field_simp⟩
  obtain ⟨r', hr'⟩ := (rescale_returns hw.wf (q := ⟨x, s⟩) p2 hd (hs s hs1)).2 hc
  exact ⟨r', by unfold attach; rw [hs1]; exact hr'⟩

theorem attachAll_returns (hw : Reachable h w) (hds : DefaultsSafe w) {fuel : Nat} (hf : 3 ≤ fuel)
    (xs : List (NDArr K)) (hs : List (Option Dim)) (ha : Announceable w fuel hs)
    (hsim : ∀ d, some d ∈ hs → ∀ kv ∈ d, Simplifies w kv.1) : ∃ os, attachAll w fuel xs hs = .ok os := by
  induction xs generalizing hs with
  | nil => exact ⟨[], by rw [attachAll] <;> simp⟩
  | cons x xs ih =>
    cases hs with
    | nil => exact ⟨_, by rw [attachAll] <;> simp⟩
    | cons d hs =>
      obtain ⟨os, ho⟩ := ih hs (fun d hd => ha d (List.mem_cons_of_mem _ hd))
        (fun d hd => hsim d (List.mem_cons_of_mem _ hd))
      cases d with
      | none => exact ⟨_, by rw [attachAll, ho]⟩
      | some d =>
        obtain ⟨d1, d2⟩ := ha d (by simp)
        obtain ⟨r, hr⟩ := attach_returns hw hds hf x d1 d2 (hsim d (by simp))
        exact ⟨_, by rw [attachAll, hr, ho]⟩

/-- C55: a call returns when the handler and the base function return sequences, the quantities among
the arguments and the announced units can be expressed in default units, and no keyword argument is a
quantity. -/
theorem C55_returns_partial (hw : Reachable h w) (hds : DefaultsSafe w) (fuel : Nat) (hf : 3 ≤ fuel)
    (base : Call (NDArr K) → Py (BaseOut K)) (handler : Call (Operand K) → Py (HandlerOut K))
    (c : Call (Operand K)) (hq : HandlerOut K) (hs : List (Option Dim))
    (kwargs : List (String × NDArr K)) (hc : ArgsOK w c.args)
    (hsim : ∀ q, Operand.quantity q ∈ c.args → ∀ kv ∈ q.dim, Simplifies w kv.1)
    (hk : c.kwargs = kwargs.map (fun kx => (kx.1, .array kx.2)))
    (hh : handler c = .ok hq) (hl : hq.list = .ok hs) (ha : Announceable w fuel hs)
    (hsim' : ∀ d, some d ∈ hs → ∀ kv ∈ d, Simplifies w kv.1)
    (hb : ∀ args, ∃ out xs, base ⟨args, kwargs⟩ = .ok out ∧ out.list = .ok xs) :
    Returns (wrapped w fuel base handler c) := by
  obtain ⟨args, h2⟩ := plainAll_returns hw hds hf c.args hc hsim
  obtain ⟨out, xs, h4, h5⟩ := hb args
  obtain ⟨os, h7⟩ := attachAll_returns hw hds hf xs hs ha hsim'
  refine ⟨os, ?_⟩
  unfold wrapped
  simp only [hh, h2, hk, plainKw_arrays, h4, h5, hl, h7]

/-! ## Where the property fails -/

/-- C55 as stated is false: a quantity as a keyword argument is never accepted (`simplifed`,
decorators.py 113), whatever the functions. -/
theorem C55_false_keyword (w : World K) (fuel : Nat) (base : Call (NDArr K) → Py (BaseOut K))
    (handler : Call (Operand K) → Py (HandlerOut K)) (c : Call (Operand K)) (k : String) (q : Quantity K)
    (hk : (k, Operand.quantity q) ∈ c.kwargs) : ¬ Returns (wrapped w fuel base handler c) := by
  rintro ⟨os, hr⟩
  obtain ⟨hq, args, kwargs, out, xs, hs, a1, a2, a3, a4, a5, a6, a7⟩ := wrapped_steps hr
  rw [plainKw_ok a3] at hk
  obtain ⟨x, -, hx⟩ := List.mem_map.1 hk
  simp at hx

/-- C55 as stated is false: with the default handler no call ever returns (`len(1.0)`). -/
theorem C55_false_default_handler (doc : String) (base : Call (NDArr K) → Py (BaseOut K)) :
    ∃ g, quantitizer (some doc) base none = .ok g ∧ ∀ (w : World K) fuel c, ¬ Returns (g w fuel c) := by
  refine ⟨_, rfl, fun w fuel c => ?_⟩
  rintro ⟨os, hr⟩
  obtain ⟨hq, args, kwargs, out, xs, hs, a1, a2, a3, a4, a5, a6, a7⟩ := wrapped_steps hr
  simp only [Option.getD_none, Except.ok.injEq] at a1
  rw [← a1] at a6
  simp [HandlerOut.list] at a6

/-- C55 as stated is false: the docstring allows the handler to return one quantity, but with a scalar
one no call returns. -/
theorem C55_false_single (w : World K) (fuel : Nat) (base : Call (NDArr K) → Py (BaseOut K))
    (d : Call (Operand K) → Dim) (c : Call (Operand K)) :
    ¬ Returns (wrapped w fuel base (fun c => .ok (.quantity ⟨NDArr.scalar 1, d c⟩)) c) := by
  rintro ⟨os, hr⟩
  obtain ⟨hq, args, kwargs, out, xs, hs, a1, a2, a3, a4, a5, a6, a7⟩ := wrapped_steps hr
  simp only [Except.ok.injEq] at a1
  rw [← a1] at a6
  simp [HandlerOut.list, NDArr.scalar] at a6

/-- C55 as stated is false: a base function that returns a number cannot be wrapped usefully. -/
theorem C55_false_number (w : World K) (fuel : Nat) (f : Call (NDArr K) → K)
    (handler : Call (Operand K) → Py (HandlerOut K)) (c : Call (Operand K)) :
    ¬ Returns (wrapped w fuel (fun c => .ok (.number (f c))) handler c) := by
  rintro ⟨os, hr⟩
  obtain ⟨hq, args, kwargs, out, xs, hs, a1, a2, a3, a4, a5, a6, a7⟩ := wrapped_steps hr
  simp only [Except.ok.injEq] at a4
  rw [← a4] at a5
  simp [BaseOut.list] at a5

/-- C55 as stated is false: a function without docstring cannot be wrapped. -/
theorem C55_false_undocumented (base : Call (NDArr K) → Py (BaseOut K))
    (handler : Option (Call (Operand K) → Py (HandlerOut K))) :
    quantitizer none base handler = .error .typeError := rfl

/-! ## A concrete case -/

/-- Adds its two arguments; returns a 1-tuple. -/
noncomputable def exAdd : Call (NDArr ℝ) → Py (BaseOut ℝ)
  | ⟨[a, b], _⟩ => (NDArr.bin (· + ·) a b).map (fun r => .tuple [r])
  | _ => .error .typeError

/-- Announces kilometres. -/
def exHandler : Call (Operand ℝ) → Py (HandlerOut ℝ) := fun _ => .ok (.tuple [some dKm])

/-- `add(2*km, 500*m)` -/
noncomputable def exCall : Call (Operand ℝ) :=
  ⟨[.quantity ⟨NDArr.scalar 2, dKm⟩, .quantity ⟨NDArr.scalar 500, dM⟩], []⟩

/-- `add(2000*m, 0.5*km)` -/
noncomputable def exCall' : Call (Operand ℝ) :=
  ⟨[.quantity ⟨NDArr.scalar 2000, dM⟩, .quantity ⟨NDArr.scalar (1/2), dKm⟩], []⟩

theorem exSize_km (v : Valuation exWorld) : v.size dKm = 1000 * v.size dM := by
  have := v.defined uKm _ _ rfl rfl
  unfold Valuation.size
  simp only [dKm, dM, dsize, List.map_cons, List.map_nil, List.prod_cons, List.prod_nil, mul_one, LawfulRPow.rpow_one]
  rw [this]
  simp [dsize, LawfulRPow.rpow_one]

theorem NDArr.map_scalar_eq {f g : ℝ → ℝ} {x y : ℝ} (h : f x = g y) :
    (NDArr.scalar x).map f = (NDArr.scalar y).map g := by
  simp only [NDArr.map, NDArr.scalar, h]

theorem exSimplified_km : Dim.simplified exWorld 3 dKm = .ok dM := by
  obtain ⟨cf, hcf⟩ : Returns (exWorld.convFactor dKm dM) :=
    (convFactor_returns exWorld_wf (ex_dimOK _ (by simp)) (ex_dimOK _ (by simp)) ex_safe_km_m.refs).2 ex_compat
  have h1 : unitSimplified exWorld 3 uKm = .ok ⟨cf * 1, dM⟩ := by
    rw [unitSimplified, if_pos (show uKm.cls.irreducible = true from rfl)]
    show World.rescaleS exWorld ⟨1, dKm⟩ dM = _
    unfold World.rescaleS
    rw [if_neg (by rw [ex_deq_km_m]; simp)]
    simp only [hcf]
  unfold Dim.simplified
  rw [if_neg (by simp [dKm])]
  simp only [dKm, simplifiedLoop, h1]
  decide +kernel

theorem exAnnounceable : Announceable exWorld 3 [some dKm] := by
  intro d hd
  simp only [List.mem_singleton, Option.some.injEq] at hd
  subst hd
  refine ⟨ex_dimOK dKm (by simp), fun s hs => ?_⟩
  rw [exSimplified_km] at hs
  simp only [Except.ok.injEq] at hs
  rw [← hs]
  exact ex_safe_m_km

theorem exCall_returns (a b : ℝ) (d e : Dim) (hd : d = dKm ∨ d = dM) (he : e = dKm ∨ e = dM) :
    Returns (wrapped exWorld 3 exAdd exHandler
      ⟨[.quantity ⟨NDArr.scalar a, d⟩, .quantity ⟨NDArr.scalar b, e⟩], []⟩) := by
  have hmem : ∀ q, Operand.quantity q ∈
      [Operand.quantity (⟨NDArr.scalar a, d⟩ : Quantity ℝ), .quantity ⟨NDArr.scalar b, e⟩] →
      q.dim = dKm ∨ q.dim = dM := by
    intro q hq
    simp only [List.mem_cons, Operand.quantity.injEq, List.not_mem_nil, or_false] at hq
    rcases hq with rfl | rfl
    · exact hd
    · exact he
  have hsim : ∀ c : Dim, c = dKm ∨ c = dM → ∀ kv ∈ c, Simplifies exWorld kv.1 := by
    rintro c (rfl | rfl) kv hkv
    · simp only [dKm, List.mem_singleton] at hkv; subst hkv; exact .inl ex_meets_km
    · simp only [dM, List.mem_singleton] at hkv; subst hkv; exact .inl ex_meets_m
  have hadd : ∃ r, (NDArr.bin (· + ·) (NDArr.scalar a) (NDArr.scalar b) : Py (NDArr ℝ)) = .ok r := ⟨_, rfl⟩
  obtain ⟨xs, hx⟩ := plainAll_returns exWorld_reachable ex_defaultsSafe (fuel := 3) le_rfl
    [Operand.quantity (⟨NDArr.scalar a, d⟩ : Quantity ℝ), .quantity ⟨NDArr.scalar b, e⟩]
    (fun q hq => ex_dimOK _ (by rcases hmem q hq with h | h <;> simp [h])) (fun q hq => hsim _ (hmem q hq))
  have hx' := plainAll_ok exWorld_reachable ex_defaultsSafe
    (fun q hq => ex_dimOK _ (by rcases hmem q hq with h | h <;> simp [h])) hx
  have hshape : ∃ x y : NDArr ℝ, xs = [x, y] ∧ x.shape = [] ∧ y.shape = [] := by
    obtain ⟨v⟩ := exists_valuation exWorld_wf
    cases hx' with
    | cons h1 h2 =>
      cases h2 with
      | cons h2 h3 =>
        cases h3
        obtain ⟨s, -, -, h1⟩ := h1
        obtain ⟨t, -, -, h2⟩ := h2
        exact ⟨_, _, rfl, congrArg NDArr.shape (h1 v), congrArg NDArr.shape (h2 v)⟩
  obtain ⟨x, y, rfl, sx, sy⟩ := hshape
  have hbin : ∃ r, (NDArr.bin (· + ·) x y : Py (NDArr ℝ)) = .ok r := by
    unfold NDArr.bin; rw [sx, sy]; exact ⟨_, rfl⟩
  obtain ⟨r, hr⟩ := hbin
  obtain ⟨os, ho⟩ := attachAll_returns exWorld_reachable ex_defaultsSafe (fuel := 3) le_rfl [r] [some dKm]
    exAnnounceable (by
      intro d hd
      simp only [List.mem_singleton, Option.some.injEq] at hd
      exact hsim d (.inl hd))
  refine ⟨os, ?_⟩
  unfold wrapped
  simp only [exHandler, hx, plainKw, exAdd, hr, Except.map, BaseOut.list, HandlerOut.list, ho]

/-- Both calls return, and they are given the same arguments in different units: the theorems apply. -/
example : Returns (wrapped exWorld 3 exAdd exHandler exCall) ∧
    Returns (wrapped exWorld 3 exAdd exHandler exCall') ∧
    List.Forall₂ (SameArg exWorld) exCall.args exCall'.args ∧ ArgsOK exWorld exCall.args ∧
    Announceable exWorld 3 [some dKm] ∧ GoodDefaults exWorld ∧ DefaultsSafe exWorld := by
  refine ⟨exCall_returns _ _ _ _ (by simp) (by simp), exCall_returns _ _ _ _ (by simp) (by simp),
    .cons ⟨ex_compat, ?_⟩ (.cons ⟨compatible_symm exWorld_wf ex_compat, ?_⟩ .nil), ?_, exAnnounceable,
    ex_goodDefaults, ex_defaultsSafe⟩
  · intro v
    have := exSize_km v
    unfold Valuation.phys
    refine NDArr.map_scalar_eq ?_
    linarith
  · intro v
    have := exSize_km v
    unfold Valuation.phys
    refine NDArr.map_scalar_eq ?_
    linarith
  · intro q hq
    simp only [exCall, List.mem_cons, Operand.quantity.injEq, List.not_mem_nil, or_false] at hq
    rcases hq with rfl | rfl <;> exact ex_dimOK _ (by simp)

end PQ
