import Verif.Lemmas.Threads

/-! # The shared state under any schedule -/

namespace PQ

set_option linter.unusedSectionVars false

open Dict LawfulRPow World Prog

universe u v v'

variable {K : Type u} {ρ : Type v} [Field K] [LinearOrder K] [IsStrictOrderedRing K] [RPow K]
  [LawfulRPow K]

theorem Later.reference {w w' : World K} (h : Later w w') {q : SQ K} (hq : DimOK w q.dim) :
    w'.reference q = w.reference q := by
  simp only [World.reference, h.refUnits hq]

theorem Later.refDef {w w' : World K} (h : Later w w') {a : NewUnit K} (hv : (Op.newUnit a).Valid w) :
    a.definition.toDef.map w'.reference = a.definition.toDef.map w.reference := by
  cases hq : a.definition.toDef with
  | none => rfl
  | some q => simp only [Option.map_some, h.reference (hv.1 q hq).2]

theorem Later.valid {w w' : World K} (h : Later w w') {a : NewUnit K} (hv : (Op.newUnit a).Valid w) :
    (Op.newUnit a).Valid w' :=
  ⟨fun q hq => ⟨(hv.1 q hq).1, h.dimOK (hv.1 q hq).2⟩, hv.2⟩

theorem convRefP_holds {w : World K} {a : NewUnit K} (hv : (Op.newUnit a).Valid w) :
    Holds (fun _ => True) (fun _ r => r = a.definition.toDef.map w.reference)
      (convRefP a.definition.toDef) w := by
  cases hq : a.definition.toDef with
  | none => exact Holds.ret fun _ _ _ => rfl
  | some q => exact Holds.seq (referenceP_holds (hv.1 q hq).2) (Holds.ret fun _ _ _ => rfl)

/-- What holds of a constructor call at each point. -/
def Creator.OK (w : World K) : Creator K → Prop
  | .defining a p => (Op.newUnit a).Valid w ∧ a.cls ≠ .dimensionless ∧
      p.Holds (fun _ => True) (fun _ r => r = a.definition.toDef.map w.reference) w
  | .numbering a r => (Op.newUnit a).Valid w ∧ a.cls ≠ .dimensionless ∧
      r = a.definition.toDef.map w.reference
  | .done _ _ => True
  | c => (⟨c.arg.cls, c.arg.name⟩ : UKey) ∈ w.units.map Prod.fst

def Setter.OK (w : World K) : Setter K → Prop
  | .reading _ a => DimOK w a.dim
  | .checking _ d _ => DimOK w d
  | .storing _ d => DimOK w d
  | .done _ => True

def Thread.OK (w : World K) : Thread K ρ → Prop
  | .reader _ => True
  | .creator c => c.OK w
  | .setter s => s.OK w

theorem Creator.OK.later {w w' : World K} {c : Creator K} (h : c.OK w) (hl : Later w w') : c.OK w' := by
  cases c with
  | defining a p =>
    obtain ⟨h1, h2, h3⟩ := h
    refine ⟨hl.valid h1, h2, ?_⟩
    rw [hl.refDef h1]; exact h3.later hl
  | numbering a r =>
    obtain ⟨h1, h2, h3⟩ := h
    exact ⟨hl.valid h1, h2, by rw [hl.refDef h1]; exact h3⟩
  | done a e => trivial
  | counting a => exact hl.known h
  | counted a n => exact hl.known h
  | labelling a n => exact hl.known h
  | binding a n m => exact hl.known h
  | defaulting a => exact hl.known h
  | setting a => exact hl.known h

theorem Thread.OK.later {w w' : World K} {t : Thread K ρ} (h : t.OK w) (hl : Later w w') : t.OK w' := by
  cases t with
  | reader p => trivial
  | creator c => exact Creator.OK.later h hl
  | setter s =>
    cases s with
    | reading c a => exact hl.dimOK h
    | checking c d p => exact hl.dimOK h
    | storing c d => exact hl.dimOK h
    | done e => trivial

/-- Changes outside the table of units. -/
theorem WF.sameUnits {w w' : World K} (hw : WF w) (hu : w'.units = w.units)
    (hdef : ∀ c d, w'.defaults c = some d → DimOK w' d)
    (hreg : ∀ l x, Dict.get? w'.registry l = some x → x ∈ w'.units.map Prod.fst) : WF w' := by
  have e : ∀ x, w'.info x = w.info x := fun x => by unfold World.info; rw [hu]
  exact hw.extend ⟨.dimensionless, ""⟩ (fun x i hi => by rw [e]; exact hi)
    (fun x i hi => Or.inl (by rw [← e]; exact hi)) (by rw [hu]; exact hw.nodup) hdef hreg

theorem DimOK.congr {w w' : World K} (hu : w'.units = w.units) {d : Dim} (h : DimOK w d) : DimOK w' d :=
  h.mono fun x hx => by rw [hu]; exact hx

theorem nodup_set {κ ν : Type _} [DecidableEq κ] {d : Dict κ ν} (h : Dict.Nodup d) (k : κ) (x : ν)
    (hk : get? d k = none) : Dict.Nodup (Dict.set d k x) := by
  rw [set_fresh hk]
  unfold Dict.Nodup
  rw [List.map_append, List.nodup_append]
  refine ⟨h, by simp, ?_⟩
  intro a ha b hb
  simp only [List.map_cons, List.map_nil, List.mem_singleton] at hb
  subst hb
  intro e; subst e
  exact (get?_eq_none_iff _ _).1 hk ha

theorem creator_ok {w : World K} (hw : WF w) {c : Creator K} (h : c.OK w) :
    WF (c.step w).1 ∧ (c.step w).2.OK (c.step w).1 := by
  cases c with
  | defining a p =>
    obtain ⟨h1, h2, h3⟩ := h
    cases p with
    | ret r => exact ⟨hw, h1, h2, h3 w (Later.refl _) trivial⟩
    | read f => exact ⟨hw, h1, h2, h3 w (Later.refl _) trivial⟩
  | numbering a r =>
    obtain ⟨h1, h2, h3⟩ := h
    subst h3
    simp only [Creator.step]
    set i0 : UnitInfo K :=
      { definition := a.definition.toDef, convRef := a.definition.toDef.map w.reference,
        symbol := a.symbol, uSymbol := a.uSymbol,
        aliases := a.aliases, order := (a.cls.primaryOrder, w.counter a.cls) } with hi0
    cases hf : w.info ⟨a.cls, a.name⟩ with
    | some i => exact ⟨hw.sameUnits rfl hw.defaultsOK hw.registered, known_of_info hf⟩
    | none =>
      simp only
      have hg : ∀ x, get? (Dict.set w.units ⟨a.cls, a.name⟩ i0) x =
          if (⟨a.cls, a.name⟩ : UKey) = x then some i0 else w.info x := fun x => get?_set _ _ _ _
      have hkn : ∀ x, x ∈ w.units.map Prod.fst →
          x ∈ (Dict.set w.units ⟨a.cls, a.name⟩ i0).map Prod.fst := fun x hx =>
        (mem_keys_set _ _ _ _).2 (Or.inr hx)
      refine ⟨hw.extend ⟨a.cls, a.name⟩ ?_ ?_ (nodup_set hw.nodup _ _ hf) ?_ ?_, ?_⟩
      · intro x i hi
        change get? _ _ = _
        rw [hg, if_neg]
        · exact hi
        · intro e; subst e; rw [hf] at hi; exact absurd hi (by simp)
      · intro x i hi
        change get? _ _ = _ at hi
        rw [hg] at hi
        split at hi
        · rename_i e
          simp only [Option.some.injEq] at hi
          subst hi
          refine Or.inr ⟨e.symm, rfl, h1.1, ?_⟩
          intro hc; rw [← e] at hc; exact absurd hc h2
        · exact Or.inl hi
      · exact fun c d hd => (hw.defaultsOK c d hd).mono hkn
      · exact fun l x hx => hkn x (hw.registered l x hx)
      · exact (mem_keys_set _ _ _ _).2 (Or.inl rfl)
  | counting a => exact ⟨hw, h⟩
  | counted a n =>
    exact ⟨hw.sameUnits rfl (fun c d hd =>
      DimOK.congr (w := w) (w' := (Creator.step w (.counted a n)).1) rfl (hw.defaultsOK c d hd)) hw.registered, h⟩
  | labelling a ls =>
    cases ls with
    | nil =>
      refine ⟨hw, ?_⟩
      simp only [Creator.step]
      split
      · exact h
      · trivial
    | cons l ls =>
      simp only [Creator.step]
      split
      · split
        · exact ⟨hw, h⟩
        · exact ⟨hw, trivial⟩
      · exact ⟨hw, h⟩
  | binding a l ls =>
    refine ⟨hw.sameUnits rfl (fun c d hd => DimOK.congr (w := w) (w' := (Creator.step w (.binding a l ls)).1) rfl (hw.defaultsOK c d hd)) ?_, h⟩
    intro l' x hx
    simp only [Creator.step] at hx
    rw [get?_set] at hx
    split at hx
    · simp only [Option.some.injEq] at hx; subst hx; exact h
    · exact hw.registered l' x hx
  | defaulting a =>
    refine ⟨hw, ?_⟩
    simp only [Creator.step]
    split
    · exact h
    · trivial
  | setting a =>
    refine ⟨hw.sameUnits rfl ?_ hw.registered, trivial⟩
    intro c d hd
    simp only [Creator.step] at hd
    refine DimOK.congr (w := w) (w' := (Creator.step w (.setting a)).1) rfl ?_
    split at hd
    · simp only [Option.some.injEq] at hd; subst hd; exact unitDim_ok h
    · exact hw.defaultsOK c d hd
  | done a e => exact ⟨hw, trivial⟩

theorem setter_ok {w : World K} (hw : WF w) {c : Setter K} (h : c.OK w) :
    WF (c.step w).1 ∧ (c.step w).2.OK (c.step w).1 := by
  cases c with
  | reading c a =>
    simp only [Setter.step]
    split
    · exact ⟨hw, trivial⟩
    · refine ⟨hw, ?_⟩
      simp only
      split
      · exact h
      · trivial
  | checking c d p =>
    cases p with
    | ret r => cases r <;> exact ⟨hw, by first | exact h | trivial⟩
    | read f => exact ⟨hw, h⟩
  | storing c d =>
    refine ⟨hw.sameUnits rfl ?_ hw.registered, trivial⟩
    intro c' d' hd
    simp only [Setter.step] at hd
    refine DimOK.congr (w := w) (w' := (Setter.step w (.storing c d)).1) rfl ?_
    split at hd
    · simp only [Option.some.injEq] at hd; subst hd; exact h
    · exact hw.defaultsOK c' d' hd
  | done e => exact ⟨hw, trivial⟩

/-- The invariant of a system of threads. -/
structure Sys.OK (s : Sys K ρ) : Prop where
  wf : WF s.world
  threads : ∀ (i : Nat) (t : Thread K ρ), s.threads[i]? = some t → t.OK s.world

theorem thread_ok {w : World K} (hw : WF w) {t : Thread K ρ} (h : t.OK w) :
    WF (t.step w).1 ∧ (t.step w).2.OK (t.step w).1 := by
  cases t with
  | reader p => cases p <;> exact ⟨hw, trivial⟩
  | creator c => exact creator_ok hw h
  | setter s => exact setter_ok hw h

theorem Sys.OK.step {s : Sys K ρ} (h : s.OK) (i : Nat) : (s.step i).OK := by
  cases hi : s.threads[i]? with
  | none => unfold Sys.step; rw [hi]; exact h
  | some t =>
    obtain ⟨h1, h2⟩ := step_self hi
    obtain ⟨k1, k2⟩ := thread_ok h.wf (h.threads i t hi)
    refine ⟨by rw [h2]; exact k1, fun j x hx => ?_⟩
    by_cases e : i = j
    · subst e
      rw [h1] at hx
      simp only [Option.some.injEq] at hx
      subst hx
      rw [h2]; exact k2
    · rw [step_other e] at hx
      exact (h.threads j x hx).later (step_later s i)

theorem Sys.OK.run {s : Sys K ρ} (h : s.OK) (σ : List Nat) : (s.run σ).OK := by
  induction σ generalizing s with
  | nil => exact h
  | cons i σ ih => exact ih (h.step i)

theorem Thread.Starts.ok {w : World K} {t : Thread K ρ} (h : t.Starts w) : t.OK w := by
  cases h with
  | reader p => trivial
  | setDefault c a hd => exact hd
  | create a hv hc =>
    exact ⟨hv, hc, convRefP_holds hv⟩

theorem starts_ok {w : World K} (hw : WF w) {ts : List (Thread K ρ)} (h : ∀ t ∈ ts, t.Starts w) :
    (⟨w, ts⟩ : Sys K ρ).OK :=
  ⟨hw, fun i t ht => (h t (List.mem_of_getElem? ht)).ok⟩

/-! ## `simplified` -/

/-- What simplifying one unit delivers while others work. -/
structure SimpT (w : World K) (s : SQ K) (x : UKey) : Prop where
  pos : 0 < s.mag
  ok : DimOK w s.dim
  value : ∀ v : Valuation w, s.mag * v.size s.dim = v.val x

theorem SimpT.later {w w' : World K} {s : SQ K} {x : UKey} (h : SimpT w s x) (hl : Later w w') :
    SimpT w' s x :=
  ⟨h.pos, hl.dimOK h.ok, fun v => h.value (v.restrict hl.info)⟩

/-- The loop of `simplified` after the units `d`. -/
structure LoopT (w : World K) (rq rq' : SQ K) (d : Dim) : Prop where
  pos : 0 < rq'.mag
  ok : DimOK w rq'.dim
  value : ∀ v : Valuation w, rq'.mag * v.size rq'.dim = rq.mag * v.size rq.dim * v.size d

/-- States in which no comparison of a unit with a default hits a hash collision. -/
def Sound (w : World K) : Prop := WF w ∧ DefaultsSafe w

theorem simplifiedLoopP_holds {fuel : Nat} {w : World K}
    (ih : ∀ (x : UKey) (w : World K), x ∈ w.units.map Prod.fst → x.cls ≠ .dimensionless →
      Holds Sound (fun w' r => ∀ s, r = .ok s → SimpT w' s x) (unitSimplifiedP fuel x) w)
    (d : Dim) (hk : ∀ kv ∈ d, kv.1 ∈ w.units.map Prod.fst)
    (hd : ∀ kv ∈ d, kv.1.cls ≠ .dimensionless) (rq : SQ K) (h0 : 0 < rq.mag) (hok : DimOK w rq.dim) :
    Holds Sound (fun w' r => ∀ rq', r = .ok rq' → LoopT w' rq rq' d) (simplifiedLoopP fuel rq d) w := by
  induction d generalizing rq w with
  | nil =>
    rw [simplifiedLoopP]
    refine Holds.ret fun w' hl _ rq' e => ?_
    simp only [Except.ok.injEq] at e; subst e
    exact ⟨h0, hl.dimOK hok, fun v => by simp [Valuation.size]⟩
  | cons kv d ihd =>
    obtain ⟨x, p⟩ := kv
    rw [simplifiedLoopP]
    refine Holds.bind ((ih x w (hk (x, p) List.mem_cons_self) (hd (x, p) List.mem_cons_self)).weaken ?_)
    intro w' r hl _ hr
    cases r with
    | error e => exact Holds.ret fun _ _ _ _ h => by simp at h
    | ok s =>
      have su := hr s rfl
      refine (ihd (w := w') (fun kv hkv => hl.known (hk kv (by simp [hkv])))
        (fun kv hkv => hd kv (by simp [hkv]))
        ⟨rq.mag * rpow s.mag p, Dim.mul rq.dim (Dim.pow s.dim p)⟩ (mul_pos h0 (rpow_pos _ _ su.pos))
        ((hl.dimOK hok).mul (su.ok.pow p))).weaken ?_
      intro w'' r hl' _ hq rq' e
      have hr := hq rq' e
      have su := su.later hl'
      refine ⟨hr.pos, hr.ok, fun v => ?_⟩
      rw [hr.value v]
      have e1 : v.size (Dim.mul rq.dim (Dim.pow s.dim p)) = v.size rq.dim * rpow (v.size s.dim) p := by
        simp only [Valuation.size]; rw [dsize_mul v.pos, dsize_pow v.pos]
      have e2 : v.size ((x, p) :: d) = rpow (v.val x) p * v.size d := by
        simp only [Valuation.size, dsize_cons]
      rw [e1, e2, ← su.value v, mul_rpow _ _ _ su.pos (v.size_pos _)]
      ring

theorem unitSimplifiedP_holds (fuel : Nat) (x : UKey) (w : World K) (hk : x ∈ w.units.map Prod.fst)
    (hd : x.cls ≠ .dimensionless) :
    Holds Sound (fun w' r => ∀ s, r = .ok s → SimpT w' s x) (unitSimplifiedP fuel x) w := by
  induction fuel using Nat.strong_induction_on generalizing x w with
  | _ fuel ih =>
    cases fuel with
    | zero => rw [unitSimplifiedP]; exact Holds.ret fun _ _ _ _ h => by simp at h
    | succ fuel =>
      rw [unitSimplifiedP]
      split
      · rename_i hi
        intro w' hl hg
        cases hdf : w'.defaults x.cls with
        | none => simp only [hdf]; exact Holds.ret fun _ _ _ _ h => by simp at h
        | some d =>
          simp only [hdf]
          refine ((rescaleSP_holds (q := ⟨1, unitDim x⟩) (unitDim_ok (hl.known hk))
            (hg.1.defaultsOK _ d hdf)).const Sound).weaken ?_
          intro w'' r hl' _ hr s hs
          have so := irreducible_simpOK hg.1 hg.2 (hl.known hk) hi hdf (hr.symm.trans hs)
          exact SimpT.later ⟨so.pos, so.ok, so.value⟩ hl'
      · intro w' hl hg
        cases hc : w'.convRef x with
        | none => simp only [hc]; exact ih fuel (Nat.lt_succ_self _) x w' (hl.known hk) hd
        | some r =>
          simp only [hc]
          cases fuel with
          | zero => rw [scalarSimplifiedP]; exact Holds.ret fun _ _ _ _ h => by simp at h
          | succ fuel =>
            rw [scalarSimplifiedP]
            obtain ⟨rpos, rbase⟩ := hg.1.refBase x r hc
            refine Holds.bind ((simplifiedLoopP_holds (fun y w => ih fuel (by omega) y w) r.dim
              rbase.known rbase.notDimless ⟨1, []⟩ one_pos (DimOK.nil w')).weaken ?_)
            intro w'' rq hl' _ hrq
            cases rq with
            | error e => exact Holds.ret fun _ _ _ _ h => by simp at h
            | ok rq =>
              refine Holds.ret fun w3 hl3 _ s hs => ?_
              simp only [Except.ok.injEq] at hs; subst hs
              have L := hrq rq rfl
              have hur : w'.unitRef x = r := by unfold World.unitRef; rw [hc]
              refine SimpT.later (w := w'') ⟨mul_pos L.pos rpos, L.ok, fun v => ?_⟩ hl3
              have h1 := L.value v
              have h2 := (unitRef_spec hg.1 (hl.known hk) hd).2.2 (v.restrict hl'.info)
              rw [hur] at h2
              have h3 : v.size ([] : Dim) = 1 := rfl
              rw [h3, one_mul, one_mul] at h1
              change r.mag * v.size r.dim = v.val x at h2
              change rq.mag * r.mag * v.size rq.dim = v.val x
              rw [← h2, ← h1]; ring

theorem simplifiedP_holds (fuel : Nat) (q : Quantity K) (w : World K) (hq : DimOK w q.dim) :
    Holds Sound (fun w' r => ∀ s, r = .ok s → s.mag.shape = q.mag.shape ∧ DimOK w' s.dim ∧
      ∀ v : Valuation w', v.phys s = v.phys q) (simplifiedP fuel q) w := by
  refine Holds.bind ((simplifiedLoopP_holds (fun y w => unitSimplifiedP_holds fuel y w) q.dim
    hq.known hq.notDimless ⟨1, []⟩ one_pos (DimOK.nil w)).weaken ?_)
  intro w' rq hl _ hrq
  cases rq with
  | error e => exact Holds.ret fun _ _ _ _ h => by simp at h
  | ok rq =>
    refine Holds.ret fun w'' hl' _ s hs => ?_
    simp only [Except.ok.injEq] at hs; subst hs
    have L := hrq rq rfl
    refine ⟨rfl, hl'.dimOK L.ok, fun v => ?_⟩
    have h1 := L.value (v.restrict hl'.info)
    change rq.mag * v.size rq.dim = 1 * 1 * v.size q.dim at h1
    unfold Valuation.phys
    simp only [NDArr.map_map]
    exact NDArr.map_congr (fun x => by
      change rq.mag * x * v.size rq.dim = x * v.size q.dim
      rw [one_mul, one_mul] at h1
      rw [← h1]; ring) _

end PQ
