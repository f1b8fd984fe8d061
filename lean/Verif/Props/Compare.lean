import Verif.Lemmas.Arith
import Verif.Lemmas.Example

/-!
# Properties C17, C18, C43: comparisons of quantities
-/

namespace PQ

open Dict LawfulRPow World

variable {K : Type _} [Field K] [LinearOrder K] [IsStrictOrderedRing K] [RPow K] [LawfulRPow K]
variable {h : Hasher} {w : World K}

/-! ## C17 -/

/-- A comparison that does not change when both sides are multiplied by a positive number. -/
private def ScaleInv (r : K → K → Bool) : Prop := ∀ s x y : K, 0 < s → r (x * s) (y * s) = r x y

private theorem compare_spec (hw : Reachable h w) (r : K → K → Bool) (hr : ScaleInv r)
    (a b : Quantity K) (ha : DimOK w a.dim) (hb : DimOK w b.dim) (hs : HashSafe w b.dim a.dim) :
    (Returns (Quantity.compare r w a (.quantity b)) ↔ Compatible w b.dim a.dim ∧
      (NDArr.bshape a.mag.shape b.mag.shape).isSome) ∧
    (∀ e, Quantity.compare r w a (.quantity b) = .error e → e = .valueError) ∧
    (∀ m, Quantity.compare r w a (.quantity b) = .ok m →
      ∀ v : Valuation w, NDArr.bin r (v.phys a) (v.phys b) = .ok m) := by
  have hwc : Quantity.wrapComparison w a (.quantity b)
      = (Quantity.scaleOther w a (.quantity b)).map Quantity.mag := by
    unfold Quantity.wrapComparison Quantity.scaleOther Operand.toQuantity
    simp only
    split
    · rcases b.rescale w a.dim with e | o <;> rfl
    · rfl
  obtain ⟨s1, s2, s3⟩ := scaleOther_spec hw.wf (other := .quantity b) ha hb hs
  unfold Quantity.compare
  rw [hwc]
  rcases hso : Quantity.scaleOther w a (.quantity b) with e | o
  · rw [hso] at s1 s2
    refine ⟨⟨fun h => absurd h (not_returns_error _),
      fun h => absurd (s1.2 h.1) (not_returns_error _)⟩, ?_, fun m hm => absurd hm (by simp [Except.map])⟩
    intro e' he'
    have : e = e' := by simpa [Except.map] using he'
    exact this ▸ s2 e rfl
  · obtain ⟨t1, t2, t3, t4⟩ := s3 o hso
    have hc : Compatible w b.dim a.dim := s1.1 (by rw [hso]; exact returns_ok _)
    have t3' : o.mag.shape = b.mag.shape := t3
    have hb1 := NDArr.bin_ok_iff r a.mag o.mag
    rw [t3'] at hb1
    simp only [Except.map]
    refine ⟨by rw [hb1]; exact ⟨fun h => ⟨hc, h⟩, fun h => h.2⟩, fun e he => NDArr.bin_error he, ?_⟩
    intro m hm v
    have t4' : v.phys o = v.phys b := t4 v
    have hsz : v.size o.dim = v.size a.dim :=
      dsize_same v.val t2.canon.nodup ha.canon.nodup t1
    rw [← t4', Valuation.phys, Valuation.phys, NDArr.bin_map, ← hm]
    exact NDArr.bin_congr (fun x y => by rw [hsz]; exact hr _ _ _ (v.size_pos _)) _ _

/-- C17 (`a < b`): returns exactly for compatible units and broadcastable shapes, else `ValueError`,
and compares the physical values. -/
theorem C17_lt (hw : Reachable h w) (a b : Quantity K) (ha : DimOK w a.dim) (hb : DimOK w b.dim)
    (hs : HashSafe w b.dim a.dim) :
    (Returns (a.lt w (.quantity b)) ↔ Compatible w b.dim a.dim ∧
      (NDArr.bshape a.mag.shape b.mag.shape).isSome) ∧
    (∀ e, a.lt w (.quantity b) = .error e → e = .valueError) ∧
    (∀ m, a.lt w (.quantity b) = .ok m → ∀ v : Valuation w,
      NDArr.bin (fun x y => decide (x < y)) (v.phys a) (v.phys b) = .ok m) :=
  compare_spec hw _ (fun s x y hs => by simp [mul_lt_mul_iff_left₀ hs]) a b ha hb hs

/-- C17 (`a <= b`). -/
theorem C17_le (hw : Reachable h w) (a b : Quantity K) (ha : DimOK w a.dim) (hb : DimOK w b.dim)
    (hs : HashSafe w b.dim a.dim) :
    (Returns (a.le w (.quantity b)) ↔ Compatible w b.dim a.dim ∧
      (NDArr.bshape a.mag.shape b.mag.shape).isSome) ∧
    (∀ e, a.le w (.quantity b) = .error e → e = .valueError) ∧
    (∀ m, a.le w (.quantity b) = .ok m → ∀ v : Valuation w,
      NDArr.bin (fun x y => decide (x ≤ y)) (v.phys a) (v.phys b) = .ok m) :=
  compare_spec hw _ (fun s x y hs => by simp [mul_le_mul_iff_left₀ hs]) a b ha hb hs

/-- C17 (`a > b`). -/
theorem C17_gt (hw : Reachable h w) (a b : Quantity K) (ha : DimOK w a.dim) (hb : DimOK w b.dim)
    (hs : HashSafe w b.dim a.dim) :
    (Returns (a.gt w (.quantity b)) ↔ Compatible w b.dim a.dim ∧
      (NDArr.bshape a.mag.shape b.mag.shape).isSome) ∧
    (∀ e, a.gt w (.quantity b) = .error e → e = .valueError) ∧
    (∀ m, a.gt w (.quantity b) = .ok m → ∀ v : Valuation w,
      NDArr.bin (fun x y => decide (x > y)) (v.phys a) (v.phys b) = .ok m) :=
  compare_spec hw _ (fun s x y hs => by simp [mul_lt_mul_iff_left₀ hs]) a b ha hb hs

/-- C17 (`a >= b`). -/
theorem C17_ge (hw : Reachable h w) (a b : Quantity K) (ha : DimOK w a.dim) (hb : DimOK w b.dim)
    (hs : HashSafe w b.dim a.dim) :
    (Returns (a.ge w (.quantity b)) ↔ Compatible w b.dim a.dim ∧
      (NDArr.bshape a.mag.shape b.mag.shape).isSome) ∧
    (∀ e, a.ge w (.quantity b) = .error e → e = .valueError) ∧
    (∀ m, a.ge w (.quantity b) = .ok m → ∀ v : Valuation w,
      NDArr.bin (fun x y => decide (x ≥ y)) (v.phys a) (v.phys b) = .ok m) :=
  compare_spec hw _ (fun s x y hs => by simp [mul_le_mul_iff_left₀ hs]) a b ha hb hs

/-- The two equality operators differ from `compare` only when units are incompatible. -/
private theorem rescale_compare (hw : Reachable h w) (r : K → K → Bool) (hr : ScaleInv r)
    (a b o : Quantity K) (ha : DimOK w a.dim) (hb : DimOK w b.dim) (hs : HashSafe w b.dim a.dim)
    (ho : b.rescale w a.dim = .ok o) (v : Valuation w) :
    NDArr.bin r a.mag o.mag = NDArr.bin r (v.phys a) (v.phys b) := by
  obtain ⟨-, -, -, hz, -⟩ := rescale_ok hw.wf hb ha hs ho
  rw [← rescale_phys hw.wf hb ha hs ho v, Valuation.phys, Valuation.phys, NDArr.bin_map, hz v]
  exact NDArr.bin_congr (fun x y => (hr _ _ _ (v.size_pos _)).symm) _ _

private theorem scaleInv_eq : ScaleInv (fun x y : K => decide (x = y)) := fun s x y hs => by
  simp [hs.ne']

private theorem scaleInv_ne : ScaleInv (fun x y : K => decide (x ≠ y)) := fun s x y hs => by
  simp [hs.ne']

/-- C17 (`a == b`, `a != b`), compatible units: elementwise comparison of the physical values. -/
theorem C17_eq_compatible (hw : Reachable h w) (a b : Quantity K) (ha : DimOK w a.dim)
    (hb : DimOK w b.dim) (hs : HashSafe w b.dim a.dim) (hc : Compatible w b.dim a.dim)
    (v : Valuation w) :
    a.eq w (.quantity b) = NDArr.bin (fun x y => decide (x = y)) (v.phys a) (v.phys b) ∧
    a.ne w (.quantity b) = NDArr.bin (fun x y => decide (x ≠ y)) (v.phys a) (v.phys b) := by
  obtain ⟨o, ho⟩ := (rescale_returns hw.wf hb ha hs).2 hc
  refine ⟨?_, ?_⟩
  · rw [← rescale_compare hw _ scaleInv_eq a b o ha hb hs ho v]
    simp only [Quantity.eq, ho]
  · rw [← rescale_compare hw _ scaleInv_ne a b o ha hb hs ho v]
    simp only [Quantity.ne, ho]

/-- C17 (`a == b`, `a != b`), incompatible units: all `False`, all `True`, without exception. -/
theorem C17_eq_incompatible (hw : Reachable h w) (a b : Quantity K) (ha : DimOK w a.dim)
    (hb : DimOK w b.dim) (hs : HashSafe w b.dim a.dim) (hc : ¬ Compatible w b.dim a.dim) :
    (∃ m, a.eq w (.quantity b) = .ok m ∧ m.shape = a.mag.shape ∧ NDArr.All (· = false) m) ∧
    (∃ m, a.ne w (.quantity b) = .ok m ∧ m.shape = a.mag.shape ∧ NDArr.All (· = true) m) := by
  have he := (rescale_eq_error_iff hw.wf hb ha hs).2 hc
  refine ⟨⟨⟨a.mag.shape, fun _ => false⟩, by simp only [Quantity.eq, he], rfl, fun _ _ => rfl⟩,
    ⟨⟨a.mag.shape, fun _ => true⟩, by simp only [Quantity.ne, he], rfl, fun _ _ => rfl⟩⟩

/-- 2 km and 500 m. -/
noncomputable def exC1 : Quantity ℝ := ⟨NDArr.scalar 2, dKm⟩
noncomputable def exC2 : Quantity ℝ := ⟨NDArr.scalar 500, dM⟩
/-- 7 s. -/
noncomputable def exC3 : Quantity ℝ := ⟨NDArr.scalar 7, dS⟩

example : HashSafe exWorld exC2.dim exC1.dim ∧ Compatible exWorld exC2.dim exC1.dim ∧
    Returns (exC1.lt exWorld (.quantity exC2)) :=
  ⟨ex_safe_m_km, compatible_symm exWorld_wf ex_compat,
    (C17_lt exWorld_reachable exC1 exC2 (ex_dimOK _ (by simp [exC1])) (ex_dimOK _ (by simp [exC2]))
      ex_safe_m_km).1.2 ⟨compatible_symm exWorld_wf ex_compat, by decide⟩⟩

example : HashSafe exWorld exC1.dim exC3.dim ∧ ¬ Compatible exWorld exC1.dim exC3.dim :=
  ⟨ex_safe_km_s, ex_incompat⟩

/-! ## C18 -/

/-- `a == b` for scalar quantities: the single boolean. -/
def eqScalar (w : World K) (a b : Quantity K) : Prop :=
  ∃ m, a.eq w (.quantity b) = .ok m ∧ m.elem [] = true

/-- What `==` means on scalars: equal physical values in compatible units. -/
theorem C18_eq_meaning (hw : Reachable h w) (a b : Quantity K) (ha : DimOK w a.dim)
    (hb : DimOK w b.dim) (hs : HashSafe w b.dim a.dim) (sa : a.mag.shape = []) (sb : b.mag.shape = []) :
    eqScalar w a b ↔ Compatible w b.dim a.dim ∧
      ∀ v : Valuation w, (v.phys a).elem [] = (v.phys b).elem [] := by
  constructor
  · rintro ⟨m, hm, ht⟩
    by_cases hc : Compatible w b.dim a.dim
    · refine ⟨hc, fun v => ?_⟩
      have h1 := (C17_eq_compatible hw a b ha hb hs hc v).1
      rw [hm] at h1
      have hsh : NDArr.bshape (v.phys a).shape (v.phys b).shape = some [] := by
        simp only [Valuation.phys, NDArr.map_shape, sa, sb]; rfl
      unfold NDArr.bin at h1
      rw [hsh] at h1
      simp only [Except.ok.injEq] at h1
      subst h1
      have h2 := of_decide_eq_true ht
      simpa [Valuation.phys, sa, sb, NDArr.bidx] using h2
    · obtain ⟨⟨m', hm', hs', ha'⟩, -⟩ := C17_eq_incompatible hw a b ha hb hs hc
      rw [hm] at hm'
      simp only [Except.ok.injEq] at hm'; subst hm'
      have := ha' [] (by rw [hs', sa]; exact List.Forall₂.nil)
      rw [this] at ht; exact absurd ht (by simp)
  · rintro ⟨hc, hv⟩
    obtain ⟨v⟩ := exists_valuation hw.wf
    have h1 := (C17_eq_compatible hw a b ha hb hs hc v).1
    have hsh : NDArr.bshape (v.phys a).shape (v.phys b).shape = some [] := by
      simp only [Valuation.phys, NDArr.map_shape, sa, sb]; rfl
    unfold NDArr.bin at h1
    rw [hsh] at h1
    refine ⟨_, h1, ?_⟩
    have := hv v
    simp only [Valuation.phys, NDArr.map_shape, sa, sb, NDArr.bidx] at this ⊢
    simpa using this

/-- C18: on scalar quantities `==` is reflexive, symmetric and transitive.  (Bare numbers: C64.) -/
theorem C18_equivalence (hw : Reachable h w) (a b c : Quantity K) (ha : DimOK w a.dim)
    (hb : DimOK w b.dim) (hc : DimOK w c.dim) (sab : HashSafe w a.dim b.dim)
    (sbc : HashSafe w b.dim c.dim) (sac : HashSafe w a.dim c.dim)
    (sa : a.mag.shape = []) (sb : b.mag.shape = []) (sc : c.mag.shape = []) :
    eqScalar w a a ∧ (eqScalar w a b → eqScalar w b a) ∧
    (eqScalar w a b → eqScalar w b c → eqScalar w a c) := by
  rw [C18_eq_meaning hw a a ha ha (HashSafe.refl _ _) sa sa,
    C18_eq_meaning hw a b ha hb sab.symm sa sb, C18_eq_meaning hw b a hb ha sab sb sa,
    C18_eq_meaning hw b c hb hc sbc.symm sb sc, C18_eq_meaning hw a c ha hc sac.symm sa sc]
  refine ⟨⟨compatible_refl _ _, fun v => rfl⟩, fun h => ⟨compatible_symm hw.wf h.1, fun v => (h.2 v).symm⟩,
    fun h1 h2 => ⟨compatible_trans h2.1 h1.1, fun v => (h1.2 v).trans (h2.2 v)⟩⟩

example : eqScalar exWorld exC1 exC1 :=
  (C18_equivalence exWorld_reachable exC1 exC1 exC1 (ex_dimOK _ (by simp [exC1]))
    (ex_dimOK _ (by simp [exC1])) (ex_dimOK _ (by simp [exC1])) (HashSafe.refl _ _) (HashSafe.refl _ _)
    (HashSafe.refl _ _) rfl rfl rfl).1

/-- C64 as stated is false: `1 km == 1` and `1 m == 1` are both `True` (a bare number is compared
with the magnitude), while `1 km == 1 m` is `False`. -/
theorem C64_transitive_false :
    (∃ m, (⟨NDArr.scalar 1, dKm⟩ : Quantity ℝ).eq exWorld (.array (NDArr.scalar 1)) = .ok m ∧
      m.elem [] = true) ∧
    (∃ m, (⟨NDArr.scalar 1, dM⟩ : Quantity ℝ).eq exWorld (.array (NDArr.scalar 1)) = .ok m ∧
      m.elem [] = true) ∧
    ¬ eqScalar exWorld ⟨NDArr.scalar 1, dKm⟩ ⟨NDArr.scalar 1, dM⟩ := by
  refine ⟨⟨_, rfl, by simp [NDArr.scalar]⟩, ⟨_, rfl, by simp [NDArr.scalar]⟩, ?_⟩
  rw [C18_eq_meaning exWorld_reachable _ _ (ex_dimOK _ (by simp)) (ex_dimOK _ (by simp)) ex_safe_m_km
    rfl rfl]
  rintro ⟨-, hv⟩
  obtain ⟨v⟩ := exists_valuation exWorld_wf
  have h1 := hv v
  have hkm : v.size dKm = 1000 * v.size dM := by
    have := v.defined uKm (exWorld.info uKm |>.get (by rfl)) ⟨1000, dM⟩ (by rfl) (by rfl)
    simp only [Valuation.size, dKm, dM, dsize_cons, dsize_nil, mul_one, LawfulRPow.rpow_one] at this ⊢
    exact this
  simp only [Valuation.phys, NDArr.map, NDArr.scalar, one_mul, hkm] at h1
  have hp := v.size_pos dM
  nlinarith

/-- C64 (partial: for quantities whose units are `dimensionless`; with other units a number is compared with
the bare magnitude, `C64_compare_false`): comparing with an array of plain numbers returns exactly when the
shapes broadcast, and compares the numbers with the physical values. -/
theorem C64_dimensionless_partial (a : Quantity K) (n : NDArr K) (ha : a.dim = []) (v : Valuation w) :
    a.lt w (.array n) = NDArr.bin (fun x y => decide (x < y)) (v.phys a) n ∧
    a.le w (.array n) = NDArr.bin (fun x y => decide (x ≤ y)) (v.phys a) n ∧
    a.gt w (.array n) = NDArr.bin (fun x y => decide (x > y)) (v.phys a) n ∧
    a.ge w (.array n) = NDArr.bin (fun x y => decide (x ≥ y)) (v.phys a) n ∧
    a.eq w (.array n) = NDArr.bin (fun x y => decide (x = y)) (v.phys a) n ∧
    a.ne w (.array n) = NDArr.bin (fun x y => decide (x ≠ y)) (v.phys a) n := by
  have hp : v.phys a = a.mag := by
    unfold Valuation.phys
    rw [ha]
    simp only [Valuation.size, dsize_nil, mul_one]
    rfl
  rw [hp]
  exact ⟨rfl, rfl, rfl, rfl, rfl, rfl⟩

/-- `a == n` for a scalar quantity and a number. -/
def eqNumber (w : World K) (a : Quantity K) (x : K) : Prop :=
  ∃ m, a.eq w (.array (NDArr.scalar x)) = .ok m ∧ m.elem [] = true

/-- C64 (partial): through a number, `==` is transitive between scalars with the same units; in particular
between dimensionless ones. -/
theorem C64_transitive_partial (hw : Reachable h w) (a b : Quantity K) (x : K) (ha : DimOK w a.dim)
    (hb : DimOK w b.dim) (sa : a.mag.shape = []) (sb : b.mag.shape = []) (hs : HashSafe w b.dim a.dim)
    (hd : SameContent a.dim b.dim) :
    (eqNumber w a x → eqNumber w b x → eqScalar w a b) ∧ (eqScalar w a b → eqNumber w b x → eqNumber w a x) := by
  have num : ∀ q : Quantity K, q.mag.shape = [] → (eqNumber w q x ↔ q.mag.elem [] = x) := by
    intro q hq
    have hsh : NDArr.bshape q.mag.shape (NDArr.scalar x).shape = some [] := by rw [hq]; rfl
    unfold eqNumber Quantity.eq NDArr.bin
    simp only [hsh]
    constructor
    · rintro ⟨m, hm, ht⟩
      simp only [Except.ok.injEq] at hm
      subst hm
      have := of_decide_eq_true ht
      simpa [hq, NDArr.bidx, NDArr.scalar] using this
    · intro hx
      refine ⟨_, rfl, ?_⟩
      simp [hq, NDArr.bidx, NDArr.scalar, hx]
  have hsz : ∀ v : Valuation w, v.size a.dim = v.size b.dim := fun v =>
    dsize_same v.val ha.canon.nodup hb.canon.nodup hd
  have hcomp : Compatible w b.dim a.dim := ⟨1, fun v => by rw [hsz v, one_mul]⟩
  rw [num a sa, num b sb, C18_eq_meaning hw a b ha hb hs sa sb]
  constructor
  · intro h1 h2
    refine ⟨hcomp, fun v => ?_⟩
    simp only [Valuation.phys, NDArr.map, h1, h2, hsz v]
  · rintro ⟨-, h1⟩ h2
    obtain ⟨v⟩ := exists_valuation hw.wf
    have := h1 v
    simp only [Valuation.phys, NDArr.map, hsz v, h2] at this
    exact mul_right_cancel₀ (v.size_pos _).ne' this

/-- Met by 2 km and 2 km, and by the number 2. -/
example : eqNumber exWorld exC1 2 ∧ eqScalar exWorld exC1 exC1 := by
  have h1 : eqNumber exWorld exC1 2 := ⟨_, rfl, by simp [exC1, NDArr.scalar]⟩
  exact ⟨h1, (C64_transitive_partial exWorld_reachable exC1 exC1 2 (ex_dimOK _ (by simp [exC1]))
    (ex_dimOK _ (by simp [exC1])) rfl rfl (HashSafe.refl _ _) (SameContent.refl _)).1 h1 h1⟩

/-! ## C43 -/

/-- C64 as stated is false of comparisons: `2 km > 1` returns `True` although km is not
dimensionless. -/
theorem C64_compare_false :
    (∃ m, exC1.gt exWorld (.array (NDArr.scalar 1)) = .ok m ∧ m.elem [] = true) ∧
    ¬ Compatible exWorld exC1.dim [] := by
  refine ⟨⟨_, rfl, ?_⟩, ?_⟩
  · simp [exC1, NDArr.scalar]
  · rw [compatible_iff exWorld_wf (ex_dimOK _ (by simp [exC1])) (DimOK.nil _)]
    intro h
    have := h uM
    rw [show exC1.dim = dKm from rfl, exRef_km] at this
    simp [Dict.get?_cons, World.refUnits] at this

end PQ
