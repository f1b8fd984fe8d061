import Verif.Lemmas.Uncertain3

/-! # Operators of uncertain quantities: powers, reflected operators, extrema, construction -/

namespace PQ

open Dict LawfulRPow World

namespace NDArr

theorem baxis_absorb {m n k : Nat} (h : baxis m n = some k) : baxis k n = some k ∧ baxis k m = some k := by
  unfold baxis at h ⊢
  split at h
  · simp only [Option.some.injEq] at h; subst h; simp_all
  · split at h
    · simp only [Option.some.injEq] at h; subst h; simp_all
    · split at h
      · simp only [Option.some.injEq] at h; subst h; simp_all
      · simp at h

theorem bshapeRev_nil_right (s : List Nat) : bshapeRev s [] = some s := by
  cases s <;> rfl

theorem bshapeRev_absorb {s t r : List Nat} (h : bshapeRev s t = some r) :
    bshapeRev r t = some r ∧ bshapeRev r s = some r := by
  induction s generalizing t r with
  | nil =>
    simp only [bshapeRev, Option.some.injEq] at h; subst h
    exact ⟨bshapeRev_self _, bshapeRev_nil_right _⟩
  | cons m s ih =>
    cases t with
    | nil =>
      simp only [bshapeRev, Option.some.injEq] at h; subst h
      exact ⟨rfl, bshapeRev_self _⟩
    | cons n t =>
      simp only [bshapeRev] at h
      rcases hk : baxis m n with _ | k
      · rw [hk] at h; simp at h
      · rcases hr : bshapeRev s t with _ | r'
        · rw [hk, hr] at h; simp at h
        · rw [hk, hr] at h
          simp only [Option.some.injEq] at h; subst h
          simp only [bshapeRev, (baxis_absorb hk).1, (baxis_absorb hk).2, (ih hr).1, (ih hr).2]
          exact ⟨trivial, trivial⟩

theorem bshape_absorb {s t r : List Nat} (h : bshape s t = some r) :
    bshape r t = some r ∧ bshape r s = some r := by
  unfold bshape at h ⊢
  rcases hr : bshapeRev s.reverse t.reverse with _ | r'
  · rw [hr] at h; simp at h
  · rw [hr] at h
    simp only [Option.map_some, Option.some.injEq] at h; subst h
    simp only [List.reverse_reverse, (bshapeRev_absorb hr).1, (bshapeRev_absorb hr).2, Option.map_some,
      and_self]

/-- `argbest` picks an element of the list that no element beats. -/
theorem argbest_spec {K : Type _} {lt : K → K → Bool}
    (htrans : ∀ x y z, lt x y = true → lt y z = true → lt x z = true)
    (hirr : ∀ x, lt x x = false) {l : List K} (hl : l ≠ []) :
    ∃ x, l[argbest lt l]? = some x ∧ ∀ y ∈ l, lt x y = false := by
  cases l with
  | nil => exact absurd rfl hl
  | cons a xs =>
    have key : ∀ (xs pre : List K) (s : Nat × Nat × K), s.1 = pre.length → pre[s.2.1]? = some s.2.2 →
        (∀ y ∈ pre, lt s.2.2 y = false) →
        let s' := xs.foldl (fun (s : Nat × Nat × K) y =>
          if lt s.2.2 y then (s.1 + 1, s.1, y) else (s.1 + 1, s.2.1, s.2.2)) s
        (pre ++ xs)[s'.2.1]? = some s'.2.2 ∧ ∀ y ∈ pre ++ xs, lt s'.2.2 y = false := by
      intro xs
      induction xs with
      | nil => intro pre s h1 h2 h3; simpa using ⟨h2, h3⟩
      | cons b xs ih =>
        intro pre s h1 h2 h3
        simp only [List.foldl_cons]
        rw [show pre ++ b :: xs = (pre ++ [b]) ++ xs by simp]
        by_cases hb : lt s.2.2 b = true
        · rw [if_pos hb]
          refine ih (pre ++ [b]) _ (by simp [h1]) (by simp [h1]) ?_
          intro y hy
          rcases List.mem_append.1 hy with hy | hy
          · by_contra hc
            have hc' : lt b y = true := by simpa using hc
            have := htrans _ _ _ hb hc'
            rw [h3 y hy] at this; simp at this
          · simp only [List.mem_singleton] at hy; subst hy; exact hirr _
        · rw [if_neg hb]
          have hlt : s.2.1 < pre.length := by
            by_contra hc
            rw [List.getElem?_eq_none (by omega)] at h2; simp at h2
          refine ih (pre ++ [b]) _ (by simp [h1]) ?_ ?_
          · rw [List.getElem?_append_left hlt]; exact h2
          · intro y hy
            rcases List.mem_append.1 hy with hy | hy
            · exact h3 y hy
            · simp only [List.mem_singleton] at hy; subst hy; simpa using hb
    have := key xs [a] (1, 0, a) rfl rfl (by simpa using hirr a)
    exact ⟨_, this⟩

end NDArr

variable {K : Type _}
variable [Field K] [LinearOrder K] [IsStrictOrderedRing K] [RPow K] [LawfulRPow K]

/-! ### powers -/

theorem uniformExp_ok {e : NDArr ℚ} {p : ℚ} (h : uniformExp e = .ok p) :
    ∀ i, NDArr.InB e.shape i → e.elem i = p := by
  intro i hi
  have hm : e.elem i ∈ e.toList := NDArr.mem_toList.2 ⟨i, hi, rfl⟩
  unfold uniformExp at h
  rcases hl : e.toList with _ | ⟨q, ps⟩
  · rw [hl] at hm; simp at hm
  · rw [hl] at h hm
    simp only at h
    split at h
    · rename_i hall
      simp only [Except.ok.injEq] at h; subst h
      rcases List.mem_cons.1 hm with hm | hm
      · exact hm
      · simpa using List.all_eq_true.1 hall _ hm
    · simp at h

omit [Field K] [LinearOrder K] [IsStrictOrderedRing K] [LawfulRPow K] in
theorem pow_ok {q r : Quantity K} {e : ExpArg} (h : q.pow e = .ok r) :
    ∃ p, uniformExp e.vals = .ok p ∧ r.dim = Dim.pow q.dim p ∧
      NDArr.bin (fun x p => rpow x p) q.mag e.vals = .ok r.mag := by
  unfold Quantity.pow dPower at h
  split at h
  · simp at h
  · rename_i hd
    rcases hu : uniformExp e.vals with e' | p
    · rw [hu] at h; simp at h
    · rw [hu] at h
      simp only [hd, Bool.false_eq_true, if_false] at h
      rcases hb : NDArr.bin (fun x p => rpow x p) q.mag e.vals with e' | m
      · rw [hb] at h; simp at h
      · rw [hb] at h
        simp only [Except.ok.injEq] at h; subst h
        exact ⟨p, rfl, rfl, rfl⟩

/-- Everything about a successful power. -/
theorem uq_pow_spec {w : World K} {a r : UQ K} {e : ExpArg} (ha : a.OK w)
    (h : a.pow w e = .ok r) : r.OK w ∧ ∃ p, uniformExp e.vals = .ok p ∧
      r.val.dim = Dim.pow a.val.dim p ∧ r.unc.dim = Dim.pow a.val.dim p ∧
      NDArr.bshape a.val.mag.shape e.vals.shape = some r.val.mag.shape ∧
      ∀ i, NDArr.InB r.val.mag.shape i →
        e.vals.elem (NDArr.bidx e.vals.shape i) = p ∧
        r.val.mag.elem i = rpow (a.val.mag.elem (NDArr.bidx a.val.mag.shape i)) p ∧
        r.unc.mag.elem i = r.val.mag.elem i * (p : K) *
          (a.unc.mag.elem (NDArr.bidx a.val.mag.shape i) /
            a.val.mag.elem (NDArr.bidx a.val.mag.shape i)) := by
  unfold UQ.pow at h
  rcases hr : a.val.pow e with e' | res
  · rw [hr] at h; simp [except_bind_error] at h
  · obtain ⟨p, p1, p2, p3⟩ := pow_ok hr
    obtain ⟨s1, s2⟩ := NDArr.bin_elim p3
    obtain ⟨ab1, ab2⟩ := NDArr.bshape_absorb s1
    obtain ⟨rel, hrel⟩ := relative_returns ha
    obtain ⟨t1, t2⟩ := relative_spec ha hrel
    rw [hr] at h
    simp only [except_bind_ok, mul_qa] at h
    have hb1 := NDArr.bin_intro (fun x y : K => x * y) (a := res.mag)
      (b := e.vals.map (fun p : ℚ => (p : K))) ab1
    rw [hb1] at h
    simp only [Except.map, except_bind_ok, hrel] at h
    have hb2 := NDArr.bin_intro (fun x y : K => x * y)
      (a := ⟨res.mag.shape, fun i => res.mag.elem (NDArr.bidx res.mag.shape i) *
        (e.vals.map (fun p : ℚ => (p : K))).elem
          (NDArr.bidx (e.vals.map (fun p : ℚ => (p : K))).shape i)⟩)
      (b := rel) (s := res.mag.shape) (by rw [t1]; exact ab2)
    rw [hb2] at h
    simp only [except_bind_ok] at h
    have hn : Nodup res.dim := by rw [p2]; exact (canon_pow ha.vdim.canon p).nodup
    rw [setUncertainty_same (self := ⟨res, UQ.zeroUnc res.mag []⟩) (u := ⟨⟨res.mag.shape, fun i =>
      (res.mag.elem (NDArr.bidx res.mag.shape (NDArr.bidx res.mag.shape i)) *
        (e.vals.map (fun p : ℚ => (p : K))).elem
          (NDArr.bidx (e.vals.map (fun p : ℚ => (p : K))).shape (NDArr.bidx res.mag.shape i))) *
        rel.elem (NDArr.bidx rel.shape i)⟩, res.dim⟩) hn hn (SameContent.refl _)] at h
    rw [if_pos rfl] at h
    simp only [Except.ok.injEq] at h; subst h
    have hd : DimOK w res.dim := by rw [p2]; exact ha.vdim.pow p
    refine ⟨⟨hd, hd, SameContent.refl _, rfl⟩, p, p1, p2, p2, s1, fun i hi => ?_⟩
    have ie := uniformExp_ok p1 _ (NDArr.bidx_inb_right s1 hi)
    have ia := NDArr.bidx_inb s1 hi
    refine ⟨ie, ?_, ?_⟩
    · simp only [s2 i, ie]
    · simp only [NDArr.bidx_self hi, NDArr.map, ie, t1, t2 _ ia]

/-! ### construction -/

/-- The units of a new uncertain quantity. -/
def newDim (data : Operand K) (units : Dim) : Dim := if units.isEmpty then data.dim else units

theorem mkQuantity_spec {w : World K} (hw : WF w) {o : Operand K} {d : Dim} {q : Quantity K}
    (ho : DimOK w o.dim) (hd : DimOK w d) (hs : HashSafe w o.dim d)
    (h : UQ.mkQuantity w o d = .ok q) :
    DimOK w q.dim ∧ SameContent q.dim (newDim o d) ∧ q.mag.shape = o.arr.shape ∧
      (∀ x, o = .quantity x → ∀ v : Valuation w, v.phys q = v.phys x) ∧
      (∀ m, o = .array m → q = ⟨m, d⟩) := by
  cases o with
  | quantity x =>
    simp only [UQ.mkQuantity] at h
    split at h
    · rename_i he
      simp only [Except.ok.injEq] at h; subst h
      refine ⟨ho, ?_, rfl, ?_, ?_⟩
      · simp only [newDim, he, if_true]; exact SameContent.refl _
      · intro y hy v; simp only [Operand.quantity.injEq] at hy; rw [hy]
      · intro m hm; simp at hm
    · rename_i he
      obtain ⟨h1, h2, h3, _⟩ := rescale_ok hw ho hd hs h
      refine ⟨h3, ?_, h1, ?_, ?_⟩
      · simp only [newDim, he]; exact h2
      · intro y hy v; simp only [Operand.quantity.injEq] at hy; rw [← hy]
        exact rescale_phys hw ho hd hs h v
      · intro m hm; simp at hm
  | array m =>
    simp only [UQ.mkQuantity, Except.ok.injEq] at h
    subst h
    refine ⟨hd, ?_, rfl, ?_, ?_⟩
    · unfold newDim
      split
      · rename_i he
        rw [List.isEmpty_iff] at he; simp only [he]; exact SameContent.refl _
      · exact SameContent.refl _
    · intro y hy; simp at hy
    · intro m' hm; simp only [Operand.array.injEq] at hm; rw [hm]

/-- Construction keeps the class invariant. -/
theorem new_spec {w : World K} (hw : WF w) {data : Operand K} {units : Dim}
    {unc : Option (Operand K)} {r : UQ K} (hd : DimOK w data.dim) (hu : DimOK w units)
    (hs : HashSafe w data.dim units) (ho : ∀ o, unc = some o → DimOK w o.dim)
    (hso : ∀ o, unc = some o → HashSafe w o.dim (newDim data units))
    (h : UQ.new w data units unc = .ok r) :
    r.OK w ∧ UQ.mkQuantity w data units = .ok r.val ∧
    (unc = none → r.unc = UQ.zeroUnc r.val.mag r.val.dim) ∧
    (∀ m, unc = some (.array m) → r.unc = ⟨m, r.val.dim⟩) ∧
    (∀ x, unc = some (.quantity x) → ∀ v : Valuation w, v.phys r.unc = v.phys x) := by
  unfold UQ.new at h
  rcases hq : UQ.mkQuantity w data units with e | q
  · rw [hq] at h; simp at h
  · obtain ⟨q1, q2, q3, q4, q5⟩ := mkQuantity_spec hw hd hu hs hq
    have hnd : DimOK w (newDim data units) := by unfold newDim; split <;> assumption
    rw [hq] at h
    simp only at h
    cases unc with
    | none =>
      simp only [Except.ok.injEq] at h; subst h
      exact ⟨⟨q1, q1, SameContent.refl _, rfl⟩, rfl, fun _ => rfl, fun m hm => by simp at hm, fun x hx => by simp at hx⟩
    | some o =>
      have hso' : HashSafe w o.dim q.dim :=
        (hso o rfl).congr hw (ho o rfl) (ho o rfl) hnd q1 (SameContent.refl _) q2.symm
      simp only at h
      rcases hm : UQ.mkQuantity w o q.dim with e | u
      · rw [hm] at h; simp at h
      · obtain ⟨u1, u2, u3, u4, u5⟩ := mkQuantity_spec hw (ho o rfl) q1 hso' hm
        rw [hm] at h
        simp only at h
        have hsu : HashSafe w u.dim q.dim := by
          unfold newDim at u2
          split at u2
          · exact hso'.congr hw (ho o rfl) u1 q1 q1 u2.symm (SameContent.refl _)
          · exact HashSafe.of_same hw u1 q1 u2
        obtain ⟨r1, r2, r3⟩ := setUncertainty_spec hw (self := ⟨q, UQ.zeroUnc q.mag q.dim⟩) (o := .quantity u) q1 u1 hsu h
        refine ⟨r1, by rw [r2], fun hn => by simp at hn, ?_, ?_⟩
        · intro m hm'
          simp only [Option.some.injEq] at hm'
          have hu' := u5 m hm'
          subst hu'
          unfold UQ.setUncertainty at h
          simp only [Operand.toQuantity, dne_eq, deq_self, Bool.not_true, Bool.false_eq_true, if_false] at h
          split at h
          · simp only [Except.ok.injEq] at h; subst h; rfl
          · simp at h
        · intro x hx v
          simp only [Option.some.injEq] at hx
          rw [r3 v]
          exact u4 x hx v

/-! ### reflected operators -/

theorem uq_scaleOther_plain {w : World K} (hw : WF w) {a : UQ K} {o : Operand K} {x : UOperand K}
    (ha : a.OK w) (ho : DimOK w o.dim) (hs : HashSafe w o.dim a.val.dim)
    (h : a.scaleOther w (.plain o) = .ok x) : ∃ q, x = .plain (.quantity q) ∧ DimOK w q.dim ∧
      SameContent q.dim a.val.dim ∧ q.mag.shape = o.arr.shape ∧
      ∀ v : Valuation w, v.phys q = v.physOp o := by
  unfold UQ.scaleOther at h
  simp only at h
  rcases hq : Quantity.scaleOther w a.val o with e | q
  · rw [hq] at h; simp at h
  · rw [hq] at h
    simp only [Except.ok.injEq] at h; subst h
    obtain ⟨t1, t2, t3, t4⟩ := (scaleOther_spec hw ha.vdim ho hs).2.2 q hq
    exact ⟨q, rfl, t2, t1, t3, t4⟩

/-- An exact quantity as an uncertain one. -/
theorem new_exact {w : World K} (q : Quantity K) :
    UQ.new w (.quantity q) [] none = .ok ⟨q, UQ.zeroUnc q.mag q.dim⟩ := rfl

omit [IsStrictOrderedRing K] [LawfulRPow K] in
theorem meas_exact {w : World K} (v : Valuation w) (q : Quantity K) :
    v.meas ⟨q, UQ.zeroUnc q.mag q.dim⟩ = (v.phys q).map (fun x => ⟨x, 0⟩) := by
  simp only [Valuation.meas, UQ.zeroUnc, NDArr.map, zero_mul, Valuation.phys]

/-- Everything about a successful `exact - uncertain`. -/
theorem uq_rsub_plain {w : World K} (hw : WF w) {a r : UQ K} {o : Operand K} (ha : a.OK w)
    (ho : DimOK w o.dim) (hs : HashSafe w o.dim a.val.dim) (h : a.rsub w (.plain o) = .ok r) :
    r.OK w ∧ SameContent r.val.dim a.val.dim ∧
      ∀ v : Valuation w, Elementwise IsDifference (v.measOp (.plain o)) (v.meas a) (v.meas r) := by
  unfold UQ.rsub at h
  rcases hx : a.scaleOther w (.plain o) with e | x
  · rw [hx] at h; simp [except_bind_error] at h
  · obtain ⟨q, rfl, q1, q2, q3, q4⟩ := uq_scaleOther_plain hw ha ho hs hx
    rw [hx] at h
    simp only [except_bind_ok, new_exact] at h
    have hb : (⟨q, UQ.zeroUnc q.mag q.dim⟩ : UQ K).OK w := ⟨q1, q1, SameContent.refl _, rfl⟩
    have hsq : HashSafe w a.val.dim q.dim := HashSafe.of_same hw ha.vdim q1 q2.symm
    obtain ⟨-, -, h3⟩ := uq_sumLike hw hb ha hsq (fun x y => x - y) (fun s x y => by ring) IsDifference
      (fun x y z => Iff.rfl) Quantity.sub sub_deq _ rfl
    obtain ⟨r1, r2, r3⟩ := h3 r h
    refine ⟨r1, r2.trans q2, fun v => ?_⟩
    have := r3 v
    rw [meas_exact, q4 v] at this
    exact this

/-- Everything about a successful `exact / uncertain`, for non-zero values. -/
theorem uq_rdiv_ok {w : World K} {a : UQ K} {o : Operand K} {r : UQ K} (ha : a.OK w)
    (ho : DimOK w o.dim) (h : a.rtruediv w o = .ok r) :
    r.OK w ∧ SameContent r.val.dim (Dim.div o.dim a.val.dim) ∧
      ∀ v : Valuation w, Elementwise (fun x y z => y.value ≠ 0 → IsQuotient x y z)
        (v.measOp (.plain o)) (v.meas a) (v.meas r) := by
  unfold UQ.rtruediv at h
  obtain ⟨rel, hrel⟩ := relative_returns ha
  obtain ⟨t1, t2⟩ := relative_spec ha hrel
  have hb := NDArr.bin_intro (fun x y : K => x / y) (a := rel) (b := a.val.mag) (s := a.val.mag.shape)
    (by rw [t1, NDArr.bshape_self])
  rw [hrel] at h
  simp only [except_bind_ok] at h
  rw [hb] at h
  simp only [except_bind_ok, new_arrays] at h
  rw [if_pos (show (NDArr.map (fun x => 1 / x) a.val.mag).shape = a.val.mag.shape from rfl)] at h
  simp only [except_bind_ok, UQ.rmul] at h
  set temp : UQ K := ⟨⟨a.val.mag.map (fun x => 1 / x), Dim.pow a.val.dim (-1)⟩,
    ⟨⟨a.val.mag.shape, fun i => rel.elem (NDArr.bidx rel.shape i) /
      a.val.mag.elem (NDArr.bidx a.val.mag.shape i)⟩, Dim.pow a.val.dim (-1)⟩⟩ with htemp
  have hd := ha.vdim.pow (-1)
  have htok : temp.OK w := ⟨hd, hd, SameContent.refl _, rfl⟩
  obtain ⟨-, -, h3⟩ := uq_mul_plain htok ho
  obtain ⟨r1, r2, r3⟩ := h3 r h
  refine ⟨r1, r2.trans ?_, fun v => ?_⟩
  · refine (htok.vdim.mul ho).canon.sameContent (ho.div ha.vdim).canon (fun u => ?_)
    rw [expo_mul htok.vdim.canon.nodup ho.canon.nodup, expo_div ho.canon.nodup ha.vdim.canon.nodup]
    show expo (Dim.pow a.val.dim (-1)) u + _ = _
    rw [expo_pow]; ring
  · obtain ⟨e1, e2⟩ := r3 v
    refine ⟨?_, fun i hi => ?_⟩
    · rw [NDArr.bshape_comm]; exact e1
    · intro hne
      have e3 := e2 i hi
      have ia : NDArr.InB a.val.mag.shape (NDArr.bidx a.val.mag.shape i) := NDArr.bidx_inb e1 hi
      have zs : v.size (Dim.pow a.val.dim (-1)) = (v.size a.val.dim)⁻¹ := by
        rw [Valuation.size, dsize_pow v.pos]; exact rpow_neg_one (v.size_pos _)
      simp only [IsProduct, IsProductUpToSign, Valuation.meas, htemp, NDArr.map, zs, NDArr.bidx_self ia] at e3
      rw [t1, NDArr.bidx_self ia, t2 _ ia] at e3
      simp only [Valuation.meas] at hne
      have hz := (v.size_pos a.val.dim).ne'
      have hx : a.val.mag.elem (NDArr.bidx a.val.mag.shape i) ≠ 0 := fun h0 => hne (by rw [h0, zero_mul])
      simp only [IsQuotient, IsQuotientUpToSign, Valuation.meas, ha.size v]
      obtain ⟨⟨f1, f2⟩, f3⟩ := e3
      refine ⟨⟨?_, ?_⟩, f3⟩
      · rw [f1]; field_simp
      · rw [f2]
        simp only [Valuation.measOp, NDArr.map]
        field_simp
        ring

/-! ### extrema -/

theorem uq_best_spec {w : World K} {a r : UQ K} (ha : a.OK w) (lt : K → K → Bool)
    (htrans : ∀ x y z, lt x y = true → lt y z = true → lt x z = true)
    (hirr : ∀ x, lt x x = false) (h : UQ.best lt w a = .ok r) :
    r.OK w ∧ r.val.dim = a.val.dim ∧ r.val.mag.shape = [] ∧
      ∃ i, NDArr.InB a.val.mag.shape i ∧
        (∀ j, NDArr.InB a.val.mag.shape j → lt (a.val.mag.elem i) (a.val.mag.elem j) = false) ∧
        ∀ v : Valuation w, (v.meas r).elem [] = (v.meas a).elem i := by
  unfold UQ.best NDArr.argreduce at h
  simp only at h
  split at h
  · simp [except_bind_error] at h
  · rename_i hsz
    simp only [except_bind_ok, NDArr.scalar] at h
    have hne : a.val.mag.toList ≠ [] := by
      intro h0
      have := NDArr.toList_length a.val.mag
      rw [h0] at this; simp at this; exact hsz this.symm
    obtain ⟨x, hx1, hx2⟩ := NDArr.argbest_spec htrans hirr hne
    unfold NDArr.toList at hx1
    rw [List.getElem?_map] at hx1
    unfold NDArr.toList at h
    rcases hi : (NDArr.indices a.val.mag.shape)[NDArr.argbest lt
        (List.map a.val.mag.elem (NDArr.indices a.val.mag.shape))]? with _ | i
    · rw [hi] at h; simp at h
    · rw [hi] at h hx1
      simp only [Option.map_some, Option.some.injEq] at hx1
      simp only at h
      have hin : NDArr.InB a.val.mag.shape i := NDArr.mem_indices.1 (List.mem_of_getElem? hi)
      obtain ⟨g1, g2, g3⟩ := (uq_getitem_spec ha _).2 r h
      have hsh : r.val.mag.shape = [] ∧ ∀ v : Valuation w, (v.meas r).elem [] = (v.meas a).elem i := by
        have hk : ∀ v : Valuation w, (⟨[], fun _ => (v.meas a).elem i⟩ : NDArr (Meas K)) = v.meas r := by
          intro v
          have := g3 v
          simp only [NDArr.select, Except.ok.injEq] at this
          exact this
        refine ⟨?_, fun v => by rw [← hk v]⟩
        unfold UQ.getitem Quantity.getitem NDArr.select at h
        simp only [except_bind_ok] at h
        rw [new_array_same ha.vdim.canon.nodup (u := ⟨⟨[], fun _ => a.unc.mag.elem i⟩, a.unc.dim⟩) ha.udim.canon.nodup ha.aligned.1] at h
        split at h
        · simp only [Except.ok.injEq] at h; subst h; rfl
        · simp at h
      refine ⟨g1, g2, hsh.1, i, hin, fun j hj => ?_, hsh.2⟩
      rw [hx1]
      exact hx2 _ (NDArr.mem_toList.2 ⟨j, hj, rfl⟩)

end PQ
