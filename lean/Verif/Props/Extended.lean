import Verif.Lemmas.Extended
import Verif.Props.Broadcast
import Verif.Props.Dispatch
import Verif.Props.Along
import Verif.Props.RoundedSums

/-!
# Property C139: infinities and nan
-/

namespace PQ

open Dict World NDArr

variable {K : Type _} [Field K] [LinearOrder K] [IsStrictOrderedRing K] [RPow K] [LawfulRPow K] {h : Hasher}
  {w : World K}

/-- C139: `rescale` succeeds exactly when the units are compatible (otherwise `ValueError`), whatever the elements are;
it keeps the physical value, and finite elements stay finite, infinite ones infinite with their sign, nan stays nan. -/
theorem C139_rescale (hw : Reachable h w) (q : Quantity (XFloat K)) (d : Dim) (hq : DimOK w q.dim) (hd : DimOK w d)
    (hs : HashSafe w q.dim d) :
    (Returns (q.rescale w.ext d) ↔ Compatible w q.dim d) ∧
    (∀ e, q.rescale w.ext d = .error e → e = .valueError) ∧
    ∀ r, q.rescale w.ext d = .ok r → SameContent r.dim d ∧ r.mag.shape = q.mag.shape ∧
      (∀ v : Valuation w, v.extPhys r = v.extPhys q) ∧
      ∀ i, XFloat.SameKind (r.mag.elem i) (q.mag.elem i) := by
  obtain ⟨h1, h2, h3⟩ := ext_rescale hw.wf hq hd hs
  refine ⟨h1, h2, fun r hr => ?_⟩
  obtain ⟨a1, -, a3, ⟨c, -, a4⟩, a5⟩ := h3 r hr
  refine ⟨a1, a3, a5, fun i => ?_⟩
  rw [a4]
  show XFloat.SameKind (XFloat.inUnit c (q.mag.elem i)) (q.mag.elem i)
  cases q.mag.elem i <;> simp [XFloat.inUnit, XFloat.SameKind]

/-- The other operand in the units of `self`. -/
private theorem scaled (hw : WF w) {self : Quantity (XFloat K)} {o : Operand (XFloat K)} (hq : DimOK w self.dim)
    (ho : DimOK w o.dim) (hs : HashSafe w o.dim self.dim) :
    (Returns (Quantity.scaleOther w.ext self o) ↔ Compatible w o.dim self.dim) ∧
    (∀ e, Quantity.scaleOther w.ext self o = .error e → e = .valueError) ∧
    ∀ r, Quantity.scaleOther w.ext self o = .ok r → SameContent r.dim self.dim ∧ DimOK w r.dim ∧
      r.mag.shape = o.arr.shape ∧ ∀ v : Valuation w, v.extPhys r = v.extPhysOp o := by
  have hd' : o.toQuantity.dim = o.dim := Operand.toQuantity_dim o
  have hm : o.toQuantity.mag = o.arr := by cases o <;> rfl
  have hsc : Quantity.scaleOther w.ext self o = o.toQuantity.rescale w.ext self.dim :=
    by
      show (if w.ext.dne o.toQuantity.dim self.dim = true then o.toQuantity.rescale w.ext self.dim else .ok o.toQuantity) = _
      by_cases hd : w.ext.deq o.toQuantity.dim self.dim = true
      · rw [if_neg (by rw [dne_eq, hd]; simp)]
        unfold Quantity.rescale
        rw [if_pos hd]
      · rw [if_pos (by rw [dne_eq]; simpa using hd)]
  have hp : ∀ v : Valuation w, v.extPhys o.toQuantity = v.extPhysOp o := by
    intro v
    cases o with
    | quantity q => rfl
    | array a =>
      refine NDArr.map_id' (fun x => ?_) a
      show XFloat.inUnit (v.size []) x = x
      rw [show v.size [] = 1 from dsize_nil _, XFloat.inUnit_one]
  rw [hsc]
  obtain ⟨h1, h2, h3⟩ := ext_rescale hw (q := o.toQuantity) (by rw [hd']; exact ho) hq (by rw [hd']; exact hs)
  refine ⟨by rw [h1, hd'], h2, fun r hr => ?_⟩
  obtain ⟨a1, a2, a3, -, a5⟩ := h3 r hr
  exact ⟨a1, a2, by rw [a3, hm], fun v => (a5 v).trans (hp v)⟩

private theorem sumLike (hw : WF w) {a : Quantity (XFloat K)} {b : Operand (XFloat K)} (ha : DimOK w a.dim)
    (hb : DimOK w b.dim) (hs : HashSafe w b.dim a.dim) (f : UF2)
    (hf : ∀ x y, ufunc2Dim w.ext f x y = dCheckUniform w.ext x y) (g : XFloat K → XFloat K → XFloat K)
    (hg : ∀ (s : K) (x y : XFloat K), g (x.inUnit s) (y.inUnit s) = (g x y).inUnit s) (res : Py (Quantity (XFloat K)))
    (hres : res = (match Quantity.scaleOther w.ext a b with
      | .error e => .error e
      | .ok o => applyUF2 w.ext f g (.quantity a) (.quantity o))) :
    (Returns res ↔ Compatible w b.dim a.dim ∧ Broadcastable a.mag.shape b.arr.shape) ∧
    (∀ e, res = .error e → e = .valueError) ∧
    (∀ r, res = .ok r → r.dim = a.dim ∧ ∀ v : Valuation w, BroadcastOf g (v.extPhys a) (v.extPhysOp b) (v.extPhys r)) := by
  obtain ⟨s1, s2, s3⟩ := scaled hw ha hb hs
  rcases hso : Quantity.scaleOther w.ext a b with e | o
  · rw [hso] at hres s1
    refine ⟨⟨fun hh => ?_, fun hh => absurd (s1.2 hh.1) (not_returns_error _)⟩, fun e' he' => ?_, fun r hr => ?_⟩
    · rw [hres] at hh; exact absurd hh (not_returns_error _)
    · rw [hres] at he'; cases he'; exact s2 _ hso
    · rw [hres] at hr; cases hr
  · obtain ⟨t1, t2, t3, t4⟩ := s3 o hso
    have hc : Compatible w b.dim a.dim := s1.1 (by rw [hso]; exact returns_ok _)
    have hdim : ufunc2Dim w.ext f (.quantity a) (.quantity o) = .ok a.dim := by
      rw [hf]
      show (if w.ext.deq a.dim o.dim then _ else _) = _
      rw [ext_deq, if_pos (deq_same ha.canon.nodup t2.canon.nodup t1.symm)]
    rw [hso] at hres
    have hres' : res = applyUF2 w.ext f g (.quantity a) (.quantity o) := hres
    unfold applyUF2 at hres'
    rw [hdim] at hres'
    simp only [Operand.arr] at hres'
    have hsize : ∀ v : Valuation w, v.size o.dim = v.size a.dim := fun v =>
      dsize_same v.val t2.canon.nodup ha.canon.nodup t1
    have hbv := NDArr.bin_ok_iff g a.mag o.mag
    rw [t3, bshape_isSome_iff] at hbv
    rcases hbin : NDArr.bin g a.mag o.mag with e | m
    · rw [hbin] at hres' hbv
      refine ⟨⟨fun hh => ?_, fun hh => absurd (hbv.2 hh.2) (not_returns_error _)⟩, fun e' he' => ?_, fun r hr => ?_⟩
      · rw [hres'] at hh; exact absurd hh (not_returns_error _)
      · rw [hres'] at he'; cases he'; exact NDArr.bin_error hbin
      · rw [hres'] at hr; cases hr
    · rw [hbin] at hres' hbv
      refine ⟨⟨fun _ => ⟨hc, hbv.1 (returns_ok _)⟩, fun _ => hres' ▸ returns_ok _⟩, fun e' he' => ?_, fun r hr => ?_⟩
      · rw [hres'] at he'; cases he'
      · rw [hres'] at hr
        cases hr
        refine ⟨rfl, fun v => bin_broadcast ?_⟩
        rw [← t4 v]
        show NDArr.bin g (a.mag.map _) (o.mag.map _) = _
        rw [NDArr.bin_map, hsize v, NDArr.bin_congr (hg _), ← NDArr.map_bin g (XFloat.inUnit (v.size a.dim)), hbin]
        rfl

/-- C139: `a + b` and `a - b` succeed exactly when the units are compatible and the shapes broadcast (otherwise
`ValueError`), have the units of `a`, and as physical values are numpy's sum and difference, `inf - inf` being nan. -/
theorem C139_add_sub (hw : Reachable h w) (a : Quantity (XFloat K)) (b : Operand (XFloat K)) (ha : DimOK w a.dim)
    (hb : DimOK w b.dim) (hs : HashSafe w b.dim a.dim) :
    ((Returns (a.add w.ext b) ↔ Compatible w b.dim a.dim ∧ Broadcastable a.mag.shape b.arr.shape) ∧
      (∀ e, a.add w.ext b = .error e → e = .valueError) ∧
      ∀ r, a.add w.ext b = .ok r → r.dim = a.dim ∧ ∀ v : Valuation w,
        BroadcastOf (fun x y => x + y) (v.extPhys a) (v.extPhysOp b) (v.extPhys r)) ∧
    ((Returns (a.sub w.ext b) ↔ Compatible w b.dim a.dim ∧ Broadcastable a.mag.shape b.arr.shape) ∧
      (∀ e, a.sub w.ext b = .error e → e = .valueError) ∧
      ∀ r, a.sub w.ext b = .ok r → r.dim = a.dim ∧ ∀ v : Valuation w,
        BroadcastOf (fun x y => x - y) (v.extPhys a) (v.extPhysOp b) (v.extPhys r)) :=
  ⟨sumLike hw.wf ha hb hs .add (fun _ _ => rfl) (fun x y => x + y) (fun s x y => XFloat.inUnit_add s x y) _
      (by unfold Quantity.add; cases Quantity.scaleOther w.ext a b <;> rfl),
    sumLike hw.wf ha hb hs .subtract (fun _ _ => rfl) (fun x y => x - y) (fun s x y => XFloat.inUnit_sub s x y) _
      (by unfold Quantity.sub; cases Quantity.scaleOther w.ext a b <;> rfl)⟩

private theorem extPhysOp_eq (v : Valuation w) (o : Operand (XFloat K)) :
    v.extPhysOp o = o.arr.map (XFloat.inUnit (v.size o.dim)) := by
  cases o with
  | quantity q => rfl
  | array a => exact (NDArr.map_id' (fun x => by
      show XFloat.inUnit (v.size []) x = x
      rw [show v.size [] = 1 from dsize_nil _, XFloat.inUnit_one]) _).symm

private theorem prodLike {a b : Operand (XFloat K)} {f : UF2} {g : XFloat K → XFloat K → XFloat K} {d : Dim}
    (hd : ufunc2Dim w.ext f a b = .ok d)
    (hg : ∀ (v : Valuation w) (x y : XFloat K), g (x.inUnit (v.size a.dim)) (y.inUnit (v.size b.dim)) = (g x y).inUnit (v.size d)) :
    (Returns (applyUF2 w.ext f g a b) ↔ Broadcastable a.arr.shape b.arr.shape) ∧
    (∀ r, applyUF2 w.ext f g a b = .ok r → r.dim = d ∧
      ∀ v : Valuation w, BroadcastOf g (v.extPhysOp a) (v.extPhysOp b) (v.extPhys r)) := by
  have h1 := NDArr.bin_ok_iff g a.arr b.arr
  rw [bshape_isSome_iff] at h1
  unfold applyUF2
  rw [hd]
  simp only
  rcases hbin : NDArr.bin g a.arr b.arr with e | m
  · rw [hbin] at h1
    exact ⟨⟨fun h => absurd h (not_returns_error _), fun h => absurd (h1.2 h) (not_returns_error _)⟩,
      fun r hr => by cases hr⟩
  · rw [hbin] at h1
    refine ⟨⟨fun _ => h1.1 (returns_ok _), fun _ => returns_ok _⟩, fun r hr => ?_⟩
    cases hr
    refine ⟨rfl, fun v => bin_broadcast ?_⟩
    rw [extPhysOp_eq, extPhysOp_eq, NDArr.bin_map, NDArr.bin_congr (hg v), ← NDArr.map_bin g (XFloat.inUnit (v.size d)), hbin]
    rfl

/-- C139: `a * b` and `a / b` succeed exactly when the shapes broadcast, and as physical values are numpy's product and
quotient: `inf * 0`, `0 / 0` and `inf / inf` are nan, `x / 0` is infinite. -/
theorem C139_mul_div (a : Quantity (XFloat K)) (b : Operand (XFloat K)) (ha : DimOK w a.dim) (hb : DimOK w b.dim) :
    ((Returns (a.mul w.ext b) ↔ Broadcastable a.mag.shape b.arr.shape) ∧
      ∀ r, a.mul w.ext b = .ok r → (∀ u, expo r.dim u = expo a.dim u + expo b.dim u) ∧ ∀ v : Valuation w,
        BroadcastOf (fun x y => x * y) (v.extPhys a) (v.extPhysOp b) (v.extPhys r)) ∧
    ((Returns (a.truediv w.ext b) ↔ Broadcastable a.mag.shape b.arr.shape) ∧
      ∀ r, a.truediv w.ext b = .ok r → (∀ u, expo r.dim u = expo a.dim u - expo b.dim u) ∧ ∀ v : Valuation w,
        BroadcastOf (fun x y => x / y) (v.extPhys a) (v.extPhysOp b) (v.extPhys r)) := by
  cases b with
  | quantity q =>
    have h1 := prodLike (w := w) (a := .quantity a) (b := .quantity q) (f := .multiply) (g := fun x y => x * y) rfl
      (fun v x y => by
        rw [XFloat.inUnit_times (v.size_pos _) (v.size_pos _)]
        exact congrArg (fun s => XFloat.inUnit s (x * y)) (dsize_mul v.pos a.dim q.dim).symm)
    have h2 := prodLike (w := w) (a := .quantity a) (b := .quantity q) (f := .trueDivide) (g := fun x y => x / y) rfl
      (fun v x y => by
        rw [XFloat.inUnit_over (v.size_pos _) (v.size_pos _)]
        exact congrArg (fun s => XFloat.inUnit s (x / y)) (dsize_div v.pos a.dim q.dim).symm)
    refine ⟨⟨h1.1, fun r hr => ⟨fun u => ?_, (h1.2 r hr).2⟩⟩, ⟨h2.1, fun r hr => ⟨fun u => ?_, (h2.2 r hr).2⟩⟩⟩
    · rw [(h1.2 r hr).1]; exact expo_mul ha.canon.nodup hb.canon.nodup u
    · rw [(h2.2 r hr).1]; exact expo_div ha.canon.nodup hb.canon.nodup u
  | array m =>
    have h1 := prodLike (w := w) (a := .quantity a) (b := .array m) (f := .multiply) (g := fun x y => x * y) (d := a.dim) rfl
      (fun v x y => by
        rw [XFloat.inUnit_times (v.size_pos _) (v.size_pos _)]
        refine congrArg (fun s => XFloat.inUnit s (x * y)) ?_
        show v.size a.dim * v.size [] = _
        rw [show v.size [] = 1 from dsize_nil _, mul_one])
    have h2 := prodLike (w := w) (a := .quantity a) (b := .array m) (f := .trueDivide) (g := fun x y => x / y) (d := a.dim)
      rfl (fun v x y => by
        rw [XFloat.inUnit_over (v.size_pos _) (v.size_pos _)]
        refine congrArg (fun s => XFloat.inUnit s (x / y)) ?_
        show v.size a.dim / v.size [] = _
        rw [show v.size [] = 1 from dsize_nil _, div_one])
    refine ⟨⟨h1.1, fun r hr => ⟨fun u => ?_, (h1.2 r hr).2⟩⟩, ⟨h2.1, fun r hr => ⟨fun u => ?_, (h2.2 r hr).2⟩⟩⟩
    · rw [(h1.2 r hr).1]; simp [Operand.dim]
    · rw [(h2.2 r hr).1]; simp [Operand.dim]

private theorem compared (hw : WF w) {a b : Quantity (XFloat K)} (ha : DimOK w a.dim) (hb : DimOK w b.dim)
    (hs : HashSafe w b.dim a.dim) (hc : Compatible w b.dim a.dim) (r : XFloat K → XFloat K → Bool)
    (hr : ∀ (s : K), 0 < s → ∀ x y : XFloat K, r (x.inUnit s) (y.inUnit s) = r x y) :
    ∃ b', b.rescale w.ext a.dim = .ok b' ∧ ∀ v : Valuation w,
      NDArr.bin r a.mag b'.mag = NDArr.bin r (v.extPhys a) (v.extPhys b) := by
  obtain ⟨h1, -, h3⟩ := ext_rescale hw (q := b) hb ha hs
  obtain ⟨b', hb'⟩ := h1.2 hc
  obtain ⟨t1, t2, t3, -, t5⟩ := h3 b' hb'
  refine ⟨b', hb', fun v => ?_⟩
  rw [← t5 v]
  show _ = NDArr.bin r (a.mag.map _) (b'.mag.map _)
  have : v.size b'.dim = v.size a.dim := dsize_same v.val t2.canon.nodup ha.canon.nodup t1
  rw [this, NDArr.bin_map, NDArr.bin_congr (hr _ (v.size_pos _))]

/-- C139: the comparisons of quantities in compatible units compare the physical values as numpy compares floats:
every ordering with nan is False. -/
theorem C139_order (hw : Reachable h w) (a b : Quantity (XFloat K)) (ha : DimOK w a.dim) (hb : DimOK w b.dim)
    (hs : HashSafe w b.dim a.dim) (hc : Compatible w b.dim a.dim) (v : Valuation w) :
    (∀ m, a.lt w.ext (.quantity b) = .ok m → BroadcastOf (fun x y => decide (x < y)) (v.extPhys a) (v.extPhys b) m) ∧
    (∀ m, a.le w.ext (.quantity b) = .ok m → BroadcastOf (fun x y => decide (x ≤ y)) (v.extPhys a) (v.extPhys b) m) ∧
    (∀ m, a.gt w.ext (.quantity b) = .ok m → BroadcastOf (fun x y => decide (y < x)) (v.extPhys a) (v.extPhys b) m) ∧
    (∀ m, a.ge w.ext (.quantity b) = .ok m → BroadcastOf (fun x y => decide (y ≤ x)) (v.extPhys a) (v.extPhys b) m) ∧
    (Broadcastable a.mag.shape b.mag.shape → Returns (a.lt w.ext (.quantity b)) ∧ Returns (a.le w.ext (.quantity b)) ∧
      Returns (a.gt w.ext (.quantity b)) ∧ Returns (a.ge w.ext (.quantity b))) := by
  have key : ∀ r : XFloat K → XFloat K → Bool, (∀ (s : K), 0 < s → ∀ x y : XFloat K, r (x.inUnit s) (y.inUnit s) = r x y) →
      Quantity.compare r w.ext a (.quantity b) = NDArr.bin r (v.extPhys a) (v.extPhys b) := by
    intro r hr
    obtain ⟨b', hb', hbin⟩ := compared hw.wf ha hb hs hc r hr
    have hwrap : Quantity.wrapComparison w.ext a (.quantity b) = .ok b'.mag := by
      show (if w.ext.dne b.dim a.dim = true then _ else _) = _
      by_cases hd : w.ext.deq b.dim a.dim = true
      · rw [if_neg (by rw [dne_eq, hd]; simp)]
        unfold Quantity.rescale at hb'
        rw [if_pos hd] at hb'
        cases hb'; rfl
      · rw [if_pos (by rw [dne_eq]; simpa using hd), hb']
    unfold Quantity.compare
    rw [hwrap]
    exact hbin v
  have k1 := key (fun x y => decide (x < y)) (fun s hs' x y => XFloat.inUnit_lt hs' x y)
  have k2 := key (fun x y => decide (x ≤ y)) (fun s hs' x y => XFloat.inUnit_le hs' x y)
  have k3 := key (fun x y => decide (y < x)) (fun s hs' x y => XFloat.inUnit_lt hs' y x)
  have k4 := key (fun x y => decide (y ≤ x)) (fun s hs' x y => XFloat.inUnit_le hs' y x)
  have ret : ∀ r : XFloat K → XFloat K → Bool, Broadcastable a.mag.shape b.mag.shape →
      Returns (NDArr.bin r (v.extPhys a) (v.extPhys b)) := fun r hbr =>
    (NDArr.bin_ok_iff _ _ _).2 ((bshape_isSome_iff _ _).2 hbr)
  refine ⟨fun m hm => bin_broadcast (k1.symm.trans hm), fun m hm => bin_broadcast (k2.symm.trans hm),
    fun m hm => bin_broadcast (k3.symm.trans hm), fun m hm => bin_broadcast (k4.symm.trans hm), fun hbr => ?_⟩
  refine ⟨?_, ?_, ?_, ?_⟩
  · show Returns (Quantity.compare _ w.ext a (.quantity b)); rw [k1]; exact ret _ hbr
  · show Returns (Quantity.compare _ w.ext a (.quantity b)); rw [k2]; exact ret _ hbr
  · show Returns (Quantity.compare _ w.ext a (.quantity b)); rw [k3]; exact ret _ hbr
  · show Returns (Quantity.compare _ w.ext a (.quantity b)); rw [k4]; exact ret _ hbr

/-- C139: `==` and `!=` of quantities compare the physical values as floats, and in incompatible units everything is
different; nan differs from everything: `q == q` is False, and `q != q` True, exactly where `q` is nan. -/
theorem C139_equality (hw : Reachable h w) (a b : Quantity (XFloat K)) (ha : DimOK w a.dim) (hb : DimOK w b.dim)
    (hs : HashSafe w b.dim a.dim) :
    (Compatible w b.dim a.dim → ∀ v : Valuation w,
      (∀ m, a.eqExt w.ext (.quantity b) = .ok m → BroadcastOf XFloat.beq (v.extPhys a) (v.extPhys b) m) ∧
      (∀ m, a.neExt w.ext (.quantity b) = .ok m →
        BroadcastOf (fun x y => !(XFloat.beq x y)) (v.extPhys a) (v.extPhys b) m)) ∧
    (¬ Compatible w b.dim a.dim →
      (∃ m, a.eqExt w.ext (.quantity b) = .ok m ∧ m.shape = a.mag.shape ∧ NDArr.All (fun x => x = false) m) ∧
      (∃ m, a.neExt w.ext (.quantity b) = .ok m ∧ m.shape = a.mag.shape ∧ NDArr.All (fun x => x = true) m)) ∧
    (∃ m n, a.eqExt w.ext (.quantity a) = .ok m ∧ a.neExt w.ext (.quantity a) = .ok n ∧ m.shape = a.mag.shape ∧
      n.shape = a.mag.shape ∧
      ∀ i, InB a.mag.shape i → (m.elem i = false ↔ a.mag.elem i = .nan) ∧ (n.elem i = true ↔ a.mag.elem i = .nan)) := by
  refine ⟨fun hc v => ⟨fun m hm => ?_, fun m hm => ?_⟩, fun hc => ?_, ?_⟩
  · obtain ⟨b', hb', hbin⟩ := compared hw.wf ha hb hs hc XFloat.beq (fun s hs' x y => XFloat.inUnit_beq hs' x y)
    have : a.eqExt w.ext (.quantity b) = NDArr.bin XFloat.beq a.mag b'.mag := by
      unfold Quantity.eqExt; simp only [hb']
    exact bin_broadcast ((hbin v).symm.trans (this.symm.trans hm))
  · obtain ⟨b', hb', hbin⟩ := compared hw.wf ha hb hs hc (fun x y => !(XFloat.beq x y))
      (fun s hs' x y => by rw [XFloat.inUnit_beq hs' x y])
    have : a.neExt w.ext (.quantity b) = NDArr.bin (fun x y => !(XFloat.beq x y)) a.mag b'.mag := by
      unfold Quantity.neExt; simp only [hb']
    exact bin_broadcast ((hbin v).symm.trans (this.symm.trans hm))
  · obtain ⟨h1, h2, -⟩ := ext_rescale hw.wf (q := b) hb ha hs
    have he : b.rescale w.ext a.dim = .error .valueError := by
      rcases hr : b.rescale w.ext a.dim with e | r
      · rw [h2 e hr]
      · exact absurd (h1.1 ⟨r, hr⟩) hc
    refine ⟨⟨⟨a.mag.shape, fun _ => false⟩, by unfold Quantity.eqExt; simp only [he], rfl, fun i _ => rfl⟩,
      ⟨⟨a.mag.shape, fun _ => true⟩, by unfold Quantity.neExt; simp only [he], rfl, fun i _ => rfl⟩⟩
  · have he : a.rescale w.ext a.dim = .ok a := by
      unfold Quantity.rescale
      rw [ext_deq, if_pos (deq_same ha.canon.nodup ha.canon.nodup (SameContent.refl _))]
    obtain ⟨m, hm⟩ := (NDArr.bin_ok_iff XFloat.beq a.mag a.mag).2 (by rw [NDArr.bshape_self]; rfl)
    obtain ⟨n, hn⟩ := (NDArr.bin_ok_iff (fun x y => !(XFloat.beq x y)) a.mag a.mag).2 (by rw [NDArr.bshape_self]; rfl)
    obtain ⟨m1, m2⟩ := NDArr.bin_elim_same hm rfl
    obtain ⟨n1, n2⟩ := NDArr.bin_elim_same hn rfl
    refine ⟨m, n, by unfold Quantity.eqExt; simp only [he]; exact hm, by unfold Quantity.neExt; simp only [he]; exact hn,
      m1, n1, fun i hi => ?_⟩
    rw [m2 i hi, n2 i hi]
    cases a.mag.elem i <;> simp [XFloat.beq]

/-- C139: `q.sum(axis)` is the sum of the physical values in the arithmetic of floats: nan if one of them is nan or
both infinities occur, infinite if an infinity occurs. -/
theorem C139_sum (q : Quantity (XFloat K)) (ax : Axis) :
    (Returns (q.sumBy List.sum ax) ↔ ∃ S, NamesAxes q.mag.shape.length ax S) ∧
    (∀ r, q.sumBy List.sum ax = .ok r → r.dim = q.dim ∧ ∀ v : Valuation w, ∃ S, NamesAxes q.mag.shape.length ax S ∧
      Along (fun l x => x = l.sum) S (v.extPhys q) (v.extPhys r)) ∧
    (∀ l : List (XFloat K), (l.sum = .nan ↔ .nan ∈ l ∨ (.inf true ∈ l ∧ .inf false ∈ l)) ∧
      ∀ n, l.sum = .inf n ↔ .nan ∉ l ∧ .inf n ∈ l ∧ .inf (!n) ∉ l) := by
  have hsum : q.sumBy List.sum ax = attach (NDArr.reduce List.sum ax q.mag) q.dim := rfl
  refine ⟨?_, fun r hr => ?_, fun l => ?_⟩
  · rw [hsum]
    have hr := reduce_returns (List.sum : List (XFloat K) → XFloat K) ax q.mag
    rw [← hr]
    unfold attach
    rcases NDArr.reduce (List.sum : List (XFloat K) → XFloat K) ax q.mag with e | m
    · exact ⟨fun h => absurd h (not_returns_error _), fun h => absurd h (not_returns_error _)⟩
    · exact ⟨fun _ => ⟨_, rfl⟩, fun _ => ⟨_, rfl⟩⟩
  · rw [hsum] at hr
    obtain ⟨hrd, hm⟩ := attach_ok' hr
    obtain ⟨m, d⟩ := r
    cases hrd
    refine ⟨rfl, fun v => ?_⟩
    have : NDArr.reduce List.sum ax (v.extPhys q) = .ok (v.extPhys ⟨m, q.dim⟩) := by
      have := NDArr.reduce_map (f := (List.sum : List (XFloat K) → XFloat K)) (f' := List.sum)
        (g := XFloat.inUnit (v.size q.dim)) (g' := XFloat.inUnit (v.size q.dim)) (by
          intro l
          induction l with
          | nil => exact congrArg XFloat.fin (zero_mul _).symm
          | cons x l ih => rw [List.map_cons, List.sum_cons, List.sum_cons, ih, XFloat.inUnit_add]) ax q.mag
      rw [hm] at this
      exact this
    exact reduce_along this
  · exact XFloat.sum_spec l

/-- `[1, inf, nan] km`. -/
noncomputable def exExt : Quantity (XFloat ℝ) := ⟨⟨[3], fun i => [.fin 1, .inf false, .nan].getD (i.getD 0 0) .nan⟩, dKm⟩

/-- It converts to metres, where it is `[_, inf, nan]`. -/
example : ∃ r, exExt.rescale exWorld.ext dM = .ok r ∧ r.mag.elem [1] = .inf false ∧ r.mag.elem [2] = .nan := by
  obtain ⟨h1, -, h3⟩ := C139_rescale exWorld_reachable exExt dM (ex_dimOK dKm (by simp)) (ex_dimOK dM (by simp)) ex_safe_km_m
  obtain ⟨r, hr⟩ := h1.2 ex_compat
  obtain ⟨-, -, -, hk⟩ := h3 r hr
  have k1 := hk [1]
  have k2 := hk [2]
  refine ⟨r, hr, ?_, ?_⟩
  · change XFloat.SameKind (r.mag.elem [1]) (.inf false) at k1
    cases hx : r.mag.elem [1] <;> rw [hx] at k1 <;> simp_all [XFloat.SameKind]
  · change XFloat.SameKind (r.mag.elem [2]) .nan at k2
    cases hx : r.mag.elem [2] <;> rw [hx] at k2 <;> simp_all [XFloat.SameKind]

/-- `exExt - exExt` succeeds. -/
example : Returns (exExt.sub exWorld.ext (.quantity exExt)) :=
  (C139_add_sub exWorld_reachable exExt (.quantity exExt) (ex_dimOK dKm (by simp)) (ex_dimOK dKm (by simp))
    (HashSafe.of_same exWorld_wf (ex_dimOK dKm (by simp)) (ex_dimOK dKm (by simp)) (SameContent.refl _))).2.1.2
    ⟨compatible_refl _ _, fun _ => .inl rfl⟩

end PQ
