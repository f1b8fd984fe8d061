import Verif.Lemmas.Size

/-! # Invariants of reachable worlds -/

namespace PQ

open Dict LawfulRPow World

variable {K : Type _}

/-- A canonical dimensionality over base units (units without definition). -/
structure BaseDim (w : World K) (d : Dim) : Prop extends DimOK w d where
  base : ∀ kv ∈ d, w.convRef kv.1 = none

section
variable [Field K] [LinearOrder K] [RPow K]

/-- The invariant of reachable worlds. -/
structure WF (w : World K) : Prop where
  nodup : Dict.Nodup w.units
  conv : ∀ u i, w.info u = some i → i.convRef = i.definition.map w.reference
  defOK : ∀ u i q, w.info u = some i → i.definition = some q → 0 < q.mag ∧ DimOK w q.dim
  refBase : ∀ u r, w.convRef u = some r → 0 < r.mag ∧ BaseDim w r.dim
  refSize : ∀ u r (v : Valuation w), w.convRef u = some r → v.val u = r.mag * v.size r.dim
  dimless : ∀ u, u.cls = .dimensionless → w.convRef u = none
  defaultsOK : ∀ c d, w.defaults c = some d → DimOK w d
  registered : ∀ l u, Dict.get? w.registry l = some u → u ∈ w.units.map Prod.fst

end

theorem BaseDim.nil (w : World K) : BaseDim w [] := ⟨⟨Canon.nil, by simp, by simp⟩, by simp⟩

theorem DimOK.nil (w : World K) : DimOK w [] := ⟨Canon.nil, by simp, by simp⟩

theorem DimOK.sublist {w : World K} {d d' : Dim} (h : DimOK w d) (hs : d'.Sublist d) : DimOK w d' :=
  ⟨⟨h.canon.nodup.sublist (hs.map _), fun kv hk => h.canon.nonzero kv (hs.subset hk)⟩,
    fun kv hk => h.known kv (hs.subset hk), fun kv hk => h.notDimless kv (hs.subset hk)⟩

/-- Keys of a product come from the factors. -/
theorem mem_keys_mul {a b : Dim} {u : UKey} (h : u ∈ (Dim.mul a b).map Prod.fst) :
    u ∈ a.map Prod.fst ∨ u ∈ b.map Prod.fst := by
  unfold Dim.mul at h
  induction b generalizing a with
  | nil => exact Or.inl h
  | cons kv b ih =>
    rw [List.foldl_cons] at h
    rcases ih h with h | h
    · unfold Dim.mulStep at h
      rcases hg : get? a kv.1 with _ | e
      · rw [hg] at h
        rcases (mem_keys_set _ _ _ _).1 h with h | h
        · right; simp [h]
        · exact Or.inl h
      · rw [hg] at h
        simp only at h
        split at h
        · have := ((pop_sublist _ _).map Prod.fst).subset h
          rcases (mem_keys_set _ _ _ _).1 this with h | h
          · right; simp [h]
          · exact Or.inl h
        · rcases (mem_keys_set _ _ _ _).1 h with h | h
          · right; simp [h]
          · exact Or.inl h
    · right; simp only [List.map_cons, List.mem_cons]; exact Or.inr h

theorem mem_keys_pow {a : Dim} {p : ℚ} {u : UKey} (h : u ∈ (Dim.pow a p).map Prod.fst) :
    u ∈ a.map Prod.fst := by
  unfold Dim.pow at h
  split at h
  · simp at h
  · simpa [List.map_map, Function.comp_def] using h

theorem mem_keys_div {a b : Dim} {u : UKey} (h : u ∈ (Dim.div a b).map Prod.fst) :
    u ∈ a.map Prod.fst ∨ u ∈ b.map Prod.fst := by
  rw [div_eq_mul] at h
  rcases mem_keys_mul h with h | h
  · exact Or.inl h
  · right; simpa [negDim, List.map_map, Function.comp_def] using h

/-- A predicate on keys, for all keys of a dimensionality. -/
theorem forall_key {d : Dim} {P : UKey → Prop} :
    (∀ kv ∈ d, P kv.1) ↔ ∀ u ∈ d.map Prod.fst, P u := by
  simp

theorem DimOK.mul {w : World K} {a b : Dim} (ha : DimOK w a) (hb : DimOK w b) :
    DimOK w (Dim.mul a b) := by
  refine ⟨canon_mul ha.canon hb.canon.nonzero, ?_, ?_⟩
  · rw [forall_key (P := fun u => u ∈ w.units.map Prod.fst)]
    intro u hu
    rcases mem_keys_mul hu with h | h
    · exact (forall_key (P := fun u => u ∈ w.units.map Prod.fst)).1 ha.known u h
    · exact (forall_key (P := fun u => u ∈ w.units.map Prod.fst)).1 hb.known u h
  · rw [forall_key (P := fun u => u.cls ≠ .dimensionless)]
    intro u hu
    rcases mem_keys_mul hu with h | h
    · exact (forall_key (P := fun u => u.cls ≠ .dimensionless)).1 ha.notDimless u h
    · exact (forall_key (P := fun u => u.cls ≠ .dimensionless)).1 hb.notDimless u h

theorem DimOK.pow {w : World K} {a : Dim} (ha : DimOK w a) (p : ℚ) : DimOK w (Dim.pow a p) := by
  refine ⟨canon_pow ha.canon p, ?_, ?_⟩
  · rw [forall_key (P := fun u => u ∈ w.units.map Prod.fst)]
    exact fun u hu =>
      (forall_key (P := fun u => u ∈ w.units.map Prod.fst)).1 ha.known u (mem_keys_pow hu)
  · rw [forall_key (P := fun u => u.cls ≠ .dimensionless)]
    exact fun u hu =>
      (forall_key (P := fun u => u.cls ≠ .dimensionless)).1 ha.notDimless u (mem_keys_pow hu)

theorem DimOK.div {w : World K} {a b : Dim} (ha : DimOK w a) (hb : DimOK w b) :
    DimOK w (Dim.div a b) := by
  have h1 : Dim.div a b = Dim.mul a (Dim.pow b (-1)) := by
    rw [div_eq_mul]; congr 1
    unfold negDim Dim.pow; rw [if_neg (by norm_num)]; simp
  rw [h1]; exact ha.mul (hb.pow _)

theorem BaseDim.mul {w : World K} {a b : Dim} (ha : BaseDim w a) (hb : BaseDim w b) :
    BaseDim w (Dim.mul a b) := by
  refine ⟨ha.toDimOK.mul hb.toDimOK, ?_⟩
  rw [forall_key (P := fun u => w.convRef u = none)]
  intro u hu
  rcases mem_keys_mul hu with h | h
  · exact (forall_key (P := fun u => w.convRef u = none)).1 ha.base u h
  · exact (forall_key (P := fun u => w.convRef u = none)).1 hb.base u h

theorem BaseDim.pow {w : World K} {a : Dim} (ha : BaseDim w a) (p : ℚ) :
    BaseDim w (Dim.pow a p) := by
  refine ⟨ha.toDimOK.pow p, ?_⟩
  rw [forall_key (P := fun u => w.convRef u = none)]
  exact fun u hu => (forall_key (P := fun u => w.convRef u = none)).1 ha.base u (mem_keys_pow hu)

theorem convRef_of_info {w : World K} {u : UKey} {i : UnitInfo K} (h : w.info u = some i) :
    w.convRef u = i.convRef := by simp [World.convRef, h]

theorem unitDim_ok {w : World K} {u : UKey} (h : u ∈ w.units.map Prod.fst) : DimOK w (unitDim u) := by
  unfold unitDim
  split
  · exact DimOK.nil w
  · rename_i hc
    exact ⟨⟨by simp [Dict.Nodup], by simp⟩, by simpa using h, by simpa using hc⟩

section
variable [Field K] [LinearOrder K] [IsStrictOrderedRing K] [RPow K] [LawfulRPow K]

theorem Valuation.size_pos {w : World K} (v : Valuation w) (d : Dim) : 0 < v.size d :=
  dsize_pos v.pos d

/-- The reference of a known non-dimensionless unit. -/
theorem unitRef_spec {w : World K} (hw : WF w) {u : UKey} (hk : u ∈ w.units.map Prod.fst)
    (hd : u.cls ≠ .dimensionless) :
    0 < (w.unitRef u).mag ∧ BaseDim w (w.unitRef u).dim ∧
      ∀ v : Valuation w, (w.unitRef u).mag * v.size (w.unitRef u).dim = v.val u := by
  unfold World.unitRef
  rcases h : w.convRef u with _ | r
  · refine ⟨one_pos, ⟨unitDim_ok hk, ?_⟩, ?_⟩
    · intro kv hkv; simp only [unitDim, hd, if_false, List.mem_singleton] at hkv
      subst hkv; exact h
    · intro v
      simp [Valuation.size, unitDim, hd, dsize_cons, rpow_one]
  · obtain ⟨h1, h2⟩ := hw.refBase u r h
    exact ⟨h1, h2, fun v => (hw.refSize u r v h).symm⟩

/-- The state of the loop of `_reference` after processing some items. -/
theorem refFold_spec {w : World K} (hw : WF w) (d : Dim)
    (hk : ∀ kv ∈ d, kv.1 ∈ w.units.map Prod.fst) (hd : ∀ kv ∈ d, kv.1.cls ≠ .dimensionless)
    (rq : SQ K) (h0 : 0 < rq.mag) (hb : BaseDim w rq.dim) :
    0 < (d.foldl (refStep w) rq).mag ∧ BaseDim w (d.foldl (refStep w) rq).dim ∧
      ∀ v : Valuation w, (d.foldl (refStep w) rq).mag * v.size (d.foldl (refStep w) rq).dim
        = rq.mag * v.size rq.dim * v.size d := by
  induction d generalizing rq with
  | nil => exact ⟨h0, hb, fun v => by simp [Valuation.size]⟩
  | cons kv d ih =>
    rw [List.foldl_cons]
    obtain ⟨r1, r2, r3⟩ := unitRef_spec hw (hk kv (by simp)) (hd kv (by simp))
    have s1 : 0 < (refStep w rq kv).mag := mul_pos h0 (rpow_pos _ _ r1)
    have s2 : BaseDim w (refStep w rq kv).dim := hb.mul (r2.pow _)
    obtain ⟨t1, t2, t3⟩ := ih (fun x hx => hk x (by simp [hx])) (fun x hx => hd x (by simp [hx]))
      _ s1 s2
    refine ⟨t1, t2, fun v => ?_⟩
    rw [t3 v]
    simp only [refStep, Valuation.size]
    rw [dsize_mul v.pos, dsize_pow v.pos, dsize_cons, ← r3 v, mul_rpow _ _ _ r1 (v.size_pos _)]
    simp only [Valuation.size]; ring

/-- What `_reference` computes for one unit of dimensionality `d`. -/
theorem refUnits_spec {w : World K} (hw : WF w) {d : Dim} (h : DimOK w d) :
    0 < (w.refUnits d).mag ∧ BaseDim w (w.refUnits d).dim ∧
      ∀ v : Valuation w, (w.refUnits d).mag * v.size (w.refUnits d).dim = v.size d := by
  obtain ⟨h1, h2, h3⟩ := refFold_spec hw d h.known h.notDimless ⟨1, []⟩ one_pos (BaseDim.nil w)
  exact ⟨h1, h2, fun v => by rw [World.refUnits, h3 v]; simp [Valuation.size]⟩

/-! ### Existence of valuations -/

/-- Every choice of positive sizes for the base units extends to a valuation. -/
def mkVal (w : World K) (b : UKey → K) (u : UKey) : K :=
  match w.convRef u with
  | some r => r.mag * dsize b r.dim
  | none => if u.cls = .dimensionless then 1 else b u

omit [LinearOrder K] [IsStrictOrderedRing K] [LawfulRPow K] in
theorem mkVal_base {w : World K} {b : UKey → K} {u : UKey} (h : w.convRef u = none)
    (hd : u.cls ≠ .dimensionless) : mkVal w b u = b u := by simp [mkVal, h, hd]

theorem mkVal_pos {w : World K} (hw : WF w) {b : UKey → K} (hb : ∀ u, 0 < b u) (u : UKey) :
    0 < mkVal w b u := by
  unfold mkVal
  rcases h : w.convRef u with _ | r
  · simp only; split
    · exact one_pos
    · exact hb u
  · exact mul_pos (hw.refBase u r h).1 (dsize_pos hb _)

theorem refFold_mkVal {w : World K} (hw : WF w) {b : UKey → K} (hb : ∀ u, 0 < b u) (d : Dim)
    (hd : ∀ kv ∈ d, kv.1.cls ≠ .dimensionless) (rq : SQ K) :
    (d.foldl (refStep w) rq).mag * dsize b (d.foldl (refStep w) rq).dim
      = rq.mag * dsize b rq.dim * dsize (mkVal w b) d := by
  induction d generalizing rq with
  | nil => simp
  | cons kv d ih =>
    rw [List.foldl_cons, ih (fun x hx => hd x (by simp [hx])), dsize_cons]
    simp only [refStep]
    rw [dsize_mul hb, dsize_pow hb]
    have : rpow (mkVal w b kv.1) kv.2
        = rpow (w.unitRef kv.1).mag kv.2 * rpow (dsize b (w.unitRef kv.1).dim) kv.2 := by
      unfold mkVal World.unitRef
      rcases h : w.convRef kv.1 with _ | r
      · have hdk := hd kv (by simp)
        simp [hdk, unitDim, dsize_cons, rpow_one, rpow_one_left]
      · simp only; rw [mul_rpow _ _ _ (hw.refBase _ r h).1 (dsize_pos hb _)]
    rw [this]; ring

/-- The valuation extending a choice of base-unit sizes. -/
def mkValuation {w : World K} (hw : WF w) (b : UKey → K) (hb : ∀ u, 0 < b u) : Valuation w where
  val := mkVal w b
  pos := mkVal_pos hw hb
  dimless u hu := by unfold mkVal; rw [hw.dimless u hu]; simp [hu]
  defined u i q hi hq := by
    have hc := hw.conv u i hi
    rw [hq, Option.map_some] at hc
    have hcr : w.convRef u = some (w.reference q) := by rw [convRef_of_info hi, hc]
    have : mkVal w b u = (w.reference q).mag * dsize b (w.reference q).dim := by
      simp [mkVal, hcr]
    rw [this]
    simp only [World.reference, World.refUnits]
    have h := refFold_mkVal hw hb q.dim (hw.defOK u i q hi hq).2.notDimless ⟨1, []⟩
    simp only [one_mul, dsize_nil] at h
    rw [← h]; ring

omit [IsStrictOrderedRing K] [LawfulRPow K] in
theorem dsize_update {b : UKey → K} {k : UKey} {x : K} {d : Dim} (hd : Nodup d)
    (hb : ∀ u, u ≠ k → b u = 1) (hx : b k = x) (h1 : ∀ p : ℚ, rpow (1 : K) p = 1)
    (h0 : rpow x 0 = 1) : dsize b d = rpow x (expo d k) := by
  induction d with
  | nil => simp [h0]
  | cons kv d ih =>
    simp only [Dict.Nodup, List.map_cons, List.nodup_cons] at hd
    rw [dsize_cons, expo_cons]
    by_cases h : kv.1 = k
    · subst h
      have hz : expo d kv.1 = 0 := by simp [expo, (get?_eq_none_iff d kv.1).2 hd.1]
      rw [ih hd.2, hz, h0, hx]; simp
    · rw [hb _ h, h1, one_mul, ih hd.2, if_neg h]

/-- Base dimensionalities whose sizes have a fixed ratio have the same content. -/
theorem base_content_of_ratio {w : World K} (hw : WF w) {a b : Dim} (ha : BaseDim w a)
    (hb : BaseDim w b) (c : K) (h : ∀ v : Valuation w, v.size a = c * v.size b) :
    SameContent a b := by
  have two : (1 : K) < 2 := one_lt_two
  have c1 : c = 1 := by
    have := h (mkValuation hw (fun _ => 1) (fun _ => one_pos))
    have e : ∀ d, BaseDim w d → (mkValuation hw (fun _ => 1) (fun _ => one_pos)).size d = 1 := by
      intro d hd
      unfold Valuation.size
      rw [dsize_congr (val' := fun _ => (1 : K))]
      · unfold dsize; simp [rpow_one_left]
      · intro kv hkv
        exact mkVal_base (hd.base kv hkv) (hd.notDimless kv hkv)
    rw [e a ha, e b hb, mul_one] at this
    exact this.symm
  refine ha.canon.sameContent hb.canon fun k => ?_
  let f : UKey → K := fun u => if u = k then 2 else 1
  have hf : ∀ u, 0 < f u := by
    intro u; simp only [f]; split
    · exact zero_lt_two
    · exact one_pos
  have hv := h (mkValuation hw f hf)
  have e : ∀ d, BaseDim w d → (mkValuation hw f hf).size d = rpow (2 : K) (expo d k) := by
    intro d hd
    unfold Valuation.size
    rw [dsize_congr (val' := f)]
    · exact dsize_update hd.canon.nodup (fun u hu => by simp [f, hu]) (by simp [f]) rpow_one_left
        (rpow_zero _)
    · intro kv hkv
      exact mkVal_base (hd.base kv hkv) (hd.notDimless kv hkv)
  rw [e a ha, e b hb, c1, one_mul] at hv
  by_contra hne
  have h2 : rpow (2 : K) (expo a k - expo b k) = 1 := by
    have h3 : rpow (2 : K) (expo a k - expo b k) * rpow (2 : K) (expo b k) = 1 * rpow 2 (expo b k) := by
      rw [← rpow_add _ _ _ zero_lt_two, sub_add_cancel, hv, one_mul]
    exact mul_right_cancel₀ (rpow_pos _ _ zero_lt_two).ne' h3
  exact rpow_ne_one 2 _ two (sub_ne_zero.2 hne) h2

/-- Compatibility is equality of reference units. -/
theorem compatible_iff {w : World K} (hw : WF w) {a b : Dim} (ha : DimOK w a) (hb : DimOK w b) :
    Compatible w a b ↔ SameContent (w.refUnits a).dim (w.refUnits b).dim := by
  obtain ⟨a1, a2, a3⟩ := refUnits_spec hw ha
  obtain ⟨b1, b2, b3⟩ := refUnits_spec hw hb
  constructor
  · rintro ⟨c, hc⟩
    refine base_content_of_ratio hw a2 b2 (c * (w.refUnits b).mag / (w.refUnits a).mag) fun v => ?_
    have := hc v
    rw [← a3 v, ← b3 v] at this
    field_simp
    rw [mul_comm, this]; ring
  · intro h
    refine ⟨(w.refUnits a).mag / (w.refUnits b).mag, fun v => ?_⟩
    have hs : v.size (w.refUnits a).dim = v.size (w.refUnits b).dim :=
      dsize_same v.val a2.canon.nodup b2.canon.nodup h
    rw [← a3 v, ← b3 v, hs]; field_simp

end
end PQ
