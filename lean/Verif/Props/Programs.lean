import Verif.Lemmas.Programs
import Verif.Lemmas.Example

/-!
# C100, C101: whole programs

C100: a program that does not look at magnitudes or units cannot tell in which units its inputs are expressed.
C101: a program whose units check in advance computes what the same program computes on bare numbers.
-/

set_option linter.unusedSectionVars false

namespace PQ
namespace Client

variable {K : Type _} [Field K] [LinearOrder K] [IsStrictOrderedRing K] [RPow K] [LawfulRPow K] [PyFloor K]
variable {h : Hasher} {w : World K}

/-! ## C100 -/

theorem PhysEq.refl {x : Quantity K} (hx : DimOK w x.dim) : PhysEq w x x :=
  ⟨hx, hx, compatible_refl w _, fun _ => NDArr.Same.refl _⟩

/-- Outcomes whose physical values agree. -/
theorem lift (hw : Reachable h w) {res res' : Py (Quantity K)} {d d' : Dim} (hc : Compatible w d d')
    (hv : ∀ v : Valuation w, OutRel NDArr.Same (res.map v.phys) (res'.map v.phys))
    (h1 : ∀ r, res = .ok r → DimOK w r.dim ∧ Compatible w r.dim d)
    (h2 : ∀ r, res' = .ok r → DimOK w r.dim ∧ Compatible w r.dim d') : OutRel (PhysEq w) res res' := by
  obtain ⟨v0⟩ := exists_valuation hw.wf
  have h0 := hv v0
  rcases res with e | r <;> rcases res' with e' | r'
  · exact h0
  · exact h0.elim
  · exact h0.elim
  · obtain ⟨a1, a2⟩ := h1 r rfl
    obtain ⟨b1, b2⟩ := h2 r' rfl
    exact ⟨a1, b1, compatible_trans a2 (compatible_trans hc (compatible_symm hw.wf b2)), fun v => hv v⟩

theorem physOp_quantity (v : Valuation w) (y : Quantity K) : v.physOp (.quantity y) = v.phys y := rfl

theorem physOp_array (v : Valuation w) (c : NDArr K) : v.physOp (.array c) = c := rfl

/-- An operator applied to equal physical quantities. -/
theorem ap_rel (hw : Reachable h w) (op : Arith) {x x' : Quantity K} {o o' : Operand K} (hx : PhysEq w x x')
    (ho : DimOK w o.dim) (ho' : DimOK w o'.dim) (hoc : Compatible w o.dim o'.dim)
    (hos : ∀ v : Valuation w, NDArr.Same (v.physOp o) (v.physOp o'))
    (hs : HashSafe w o.dim x.dim) (hs' : HashSafe w o'.dim x'.dim) :
    OutRel (PhysEq w) (op.ap w x o) (op.ap w x' o') := by
  obtain ⟨f1, n1⟩ := ap_spec hw op x o hx.left ho hs
  obtain ⟨f2, n2⟩ := ap_spec hw op x' o' hx.right ho' hs'
  by_cases hf : op.Fits w x.dim o.dim
  · have hf' := (fits_congr hw op hx.compatible hoc).1 hf
    refine lift hw (kind_congr op hx.compatible hoc) (fun v => ?_) (f1 hf).2 (f2 hf').2
    rw [(f1 hf).1 v, (f2 hf').1 v]
    exact bin_rel _ (hx.same v) (hos v)
  · have hf' := fun q => hf ((fits_congr hw op hx.compatible hoc).2 q)
    rw [n1 hf, n2 hf']
    rfl

theorem lap_rel (hw : Reachable h w) (op : LArith) {x x' : Quantity K} (c : NDArr K) (hx : PhysEq w x x')
    (hs : HashSafe w [] x.dim) (hs' : HashSafe w [] x'.dim) :
    OutRel (PhysEq w) (op.ap w x c) (op.ap w x' c) := by
  obtain ⟨f1, n1⟩ := lap_spec hw op x c hx.left hs
  obtain ⟨f2, n2⟩ := lap_spec hw op x' c hx.right hs'
  by_cases hf : op.Fits w x.dim
  · have hf' := (lfits_congr hw op hx.compatible).1 hf
    refine lift hw (lkind_congr hw op hx.compatible) (fun v => ?_) (f1 hf).2 (f2 hf').2
    rw [(f1 hf).1 v, (f2 hf').1 v]
    exact bin_rel _ (NDArr.Same.refl _) (hx.same v)
  · have hf' := fun q => hf ((lfits_congr hw op hx.compatible).2 q)
    rw [n1 hf, n2 hf']
    rfl

theorem un_ap_rel (hw : Reachable h w) (u : Un) {x x' : Quantity K} (hx : PhysEq w x x') :
    OutRel (PhysEq w) (u.ap w x) (u.ap w x') := by
  obtain ⟨a1, a2⟩ := un_denotes hw u x
  obtain ⟨b1, b2⟩ := un_denotes hw u x'
  refine lift hw hx.compatible (fun v => ?_) (fun r hr => ?_) (fun r hr => ?_)
  · rw [← a2 v, ← b2 v]
    exact un_rel u (hx.same v)
  · rw [a1 r hr]; exact ⟨hx.left, compatible_refl w _⟩
  · rw [b1 r hr]; exact ⟨hx.right, compatible_refl w _⟩

theorem pow_rel (hw : Reachable h w) {x x' : Quantity K} (p : ℚ) (hx : PhysEq w x x') (hp : LiteralPow x.mag p)
    (hp' : LiteralPow x'.mag p) :
    OutRel (PhysEq w) (x.pow ⟨NDArr.scalar p, none⟩) (x'.pow ⟨NDArr.scalar p, none⟩) := by
  obtain ⟨r, hr, r1, r2, r3⟩ := pow_spec hw x p hx.left hp
  obtain ⟨s, hs, s1, s2, s3⟩ := pow_spec hw x' p hx.right hp'
  rw [hr, hs]
  exact ⟨r1, s1, compatible_trans r2 (compatible_trans (compatible_pow hw hx.compatible p)
    (compatible_symm hw.wf s2)), fun v => (r3 v).trans ((map_rel _ (hx.same v)).trans (s3 v).symm)⟩

theorem rescale_rel (hw : Reachable h w) {x x' : Quantity K} (d : Dim) (hx : PhysEq w x x') (hd : DimOK w d)
    (hs : HashSafe w x.dim d) (hs' : HashSafe w x'.dim d) :
    OutRel (PhysEq w) (x.rescale w d) (x'.rescale w d) := by
  obtain ⟨a1, a2⟩ := rescale_out hw x d hx.left hd hs
  obtain ⟨b1, b2⟩ := rescale_out hw x' d hx.right hd hs'
  by_cases hc : Compatible w x.dim d
  · have hc' : Compatible w x'.dim d := compatible_trans (compatible_symm hw.wf hx.compatible) hc
    obtain ⟨r, hr, r1, r2, r3⟩ := a1 hc
    obtain ⟨s, hs, s1, s2, s3⟩ := b1 hc'
    rw [hr, hs]
    refine ⟨r1, s1, compatible_of_same r1.canon.nodup s1.canon.nodup (r2.trans s2.symm), fun v => ?_⟩
    rw [r3 v, s3 v]
    exact hx.same v
  · have hc' : ¬ Compatible w x'.dim d := fun q => hc (compatible_trans hx.compatible q)
    rw [a2 hc, b2 hc']
    rfl

/-- C100: the value of an expression is the same physical quantity, and it raises the same exception, whatever the
units in which the variables are expressed. -/
theorem C100_term (hw : Reachable h w) (t : Term K) (ρ σ : Env (Quantity K)) (hρ : EnvRel (PhysEq w) ρ σ)
    (hs : t.Safe w ρ) (hs' : t.Safe w σ) : OutRel (PhysEq w) (t.eval w ρ) (t.eval w σ) := by
  induction t with
  | var x =>
    simp only [Term.eval, getVar]
    have := hρ x
    rcases h1 : ρ x with _ | q <;> rcases h2 : σ x with _ | q' <;> rw [h1, h2] at this
    · rfl
    · cases this
    · cases this
    · cases this with | some hq => exact hq
  | const q => exact PhysEq.refl hs
  | bin op a b iha ihb =>
    simp only [Term.eval]
    refine OutRel.bind (iha hs.1 hs'.1) (fun x x' hx hx' hxx => ?_)
    refine OutRel.bind (ihb hs.2.1 hs'.2.1) (fun y y' hy hy' hyy => ?_)
    exact ap_rel hw op hxx hyy.left hyy.right hyy.compatible hyy.same (hs.2.2 x y hx hy) (hs'.2.2 x' y' hx' hy')
  | binr op a c ih =>
    simp only [Term.eval]
    refine OutRel.bind (ih hs.1 hs'.1) (fun x x' hx hx' hxx => ?_)
    exact ap_rel hw op (o := .array c) (o' := .array c) hxx (DimOK.nil w) (DimOK.nil w) (compatible_refl w _)
      (fun _ => NDArr.Same.refl _) (hs.2 x hx) (hs'.2 x' hx')
  | binl op c a ih =>
    simp only [Term.eval]
    refine OutRel.bind (ih hs.1 hs'.1) (fun x x' hx hx' hxx => ?_)
    exact lap_rel hw op c hxx (hs.2 x hx) (hs'.2 x' hx')
  | pow a p ih =>
    simp only [Term.eval]
    refine OutRel.bind (ih hs.1 hs'.1) (fun x x' hx hx' hxx => ?_)
    exact pow_rel hw p hxx (hs.2 x hx) (hs'.2 x' hx')
  | un u a ih =>
    simp only [Term.eval]
    exact OutRel.bind (ih hs hs') (fun x x' hx hx' hxx => un_ap_rel hw u hxx)
  | inUnits a d ih =>
    simp only [Term.eval]
    refine OutRel.bind (ih hs.1 hs'.1) (fun x x' hx hx' hxx => ?_)
    exact rescale_rel hw d hxx hs.2.1 (hs.2.2 x hx) (hs'.2.2 x' hx')

theorem all_toList {m m' : NDArr Bool} {b : Bool} (hs : m.shape = m'.shape) (hm : NDArr.All (· = b) m)
    (hm' : NDArr.All (· = b) m') : NDArr.Same m m' :=
  ⟨hs, fun i hi => (hm i hi).trans (hm' i (hs ▸ hi)).symm⟩

theorem phys_shape (v : Valuation w) (x : Quantity K) : (v.phys x).shape = x.mag.shape := rfl

/-- A comparison of equal physical quantities. -/
theorem cmp_rel (hw : Reachable h w) (op : CmpOp) {x x' y y' : Quantity K} (hx : PhysEq w x x')
    (hy : PhysEq w y y') (hs : HashSafe w y.dim x.dim) (hs' : HashSafe w y'.dim x'.dim) :
    OutRel NDArr.Same (x.cmp w op (.quantity y)) (x'.cmp w op (.quantity y')) := by
  obtain ⟨v0⟩ := exists_valuation hw.wf
  obtain ⟨a1, a2⟩ := cmp_quantity hw op x y hx.left hy.left hs
  obtain ⟨b1, b2⟩ := cmp_quantity hw op x' y' hx.right hy.right hs'
  have hsh : x.mag.shape = x'.mag.shape := (hx.same v0).1
  by_cases hc : Compatible w y.dim x.dim
  · have hc' := (compatible_congr hw hy.compatible hx.compatible).1 hc
    rw [a1 hc v0, b1 hc' v0]
    exact bin_rel _ (hx.same v0) (hy.same v0)
  · have hc' := fun q => hc ((compatible_congr hw hy.compatible hx.compatible).2 q)
    have A := a2 hc
    have B := b2 hc'
    cases op with
    | eq =>
      obtain ⟨m, hm, s1, m1⟩ := A
      obtain ⟨n, hn, s2, n1⟩ := B
      rw [hm, hn]
      exact all_toList (s1.trans (hsh.trans s2.symm)) m1 n1
    | ne =>
      obtain ⟨m, hm, s1, m1⟩ := A
      obtain ⟨n, hn, s2, n1⟩ := B
      rw [hm, hn]
      exact all_toList (s1.trans (hsh.trans s2.symm)) m1 n1
    | _ =>
      simp only at A B
      rw [A, B]
      rfl

/-- C100: a condition has the same outcome, the exception included. -/
theorem C100_cond (hw : Reachable h w) (c : Cond K) (ρ σ : Env (Quantity K)) (hρ : EnvRel (PhysEq w) ρ σ)
    (hs : c.Safe w ρ) (hs' : c.Safe w σ) : c.eval w ρ = c.eval w σ := by
  induction c with
  | cmp op a b =>
    simp only [Cond.eval]
    refine OutRel.eq (OutRel.bind (C100_term hw a ρ σ hρ hs.1 hs'.1) (fun x x' hx hx' hxx => ?_))
    refine OutRel.bind (C100_term hw b ρ σ hρ hs.2.1 hs'.2.1) (fun y y' hy hy' hyy => ?_)
    exact (cmp_rel hw op hxx hyy (hs.2.2 x y hx hy) (hs'.2.2 x' y' hx' hy')).map (fun _ _ => allTrue_same)
  | not c ih => simp only [Cond.eval, ih hs hs']
  | and c d ih ihd =>
    simp only [Cond.eval]
    have hc := ih hs.1 hs'.1
    rw [← hc]
    rcases h1 : c.eval w ρ with e | b
    · rfl
    · cases b
      · rfl
      · exact ihd (hs.2 h1) (hs'.2 (hc ▸ h1))
  | or c d ih ihd =>
    simp only [Cond.eval]
    have hc := ih hs.1 hs'.1
    rw [← hc]
    rcases h1 : c.eval w ρ with e | b
    · rfl
    · cases b
      · exact ihd (hs.2 h1) (hs'.2 (hc ▸ h1))
      · rfl

theorem EnvRel.set {α β : Type _} {R : α → β → Prop} {ρ : Env α} {σ : Env β} (h : EnvRel R ρ σ) (x : String) {a : α}
    {b : β} (hab : R a b) : EnvRel R (ρ.set x a) (σ.set x b) := fun y => by
  unfold Env.set
  by_cases hy : y = x
  · rw [if_pos hy, if_pos hy]; exact .some hab
  · rw [if_neg hy, if_neg hy]; exact h y

/-- C100: a whole program ends in the same way, and every variable denotes the same physical quantity at the end,
whatever the units in which its inputs are expressed. -/
theorem C100_program (hw : Reachable h w) (fuel : Nat) (s : Stmt K) (ρ σ : Env (Quantity K))
    (hρ : EnvRel (PhysEq w) ρ σ) (hs : s.Safe w fuel ρ) (hs' : s.Safe w fuel σ) :
    ResultRel (PhysEq w) (s.run w fuel ρ) (s.run w fuel σ) := by
  induction fuel generalizing s ρ σ with
  | zero =>
    induction s generalizing ρ σ with
    | skip => simp only [Stmt.run]; exact .done hρ
    | assign x t =>
      simp only [Stmt.run]
      simp only [Stmt.Safe] at hs hs'
      have := C100_term hw t ρ σ hρ hs hs'
      rcases h1 : t.eval w ρ with e | q <;> rcases h2 : t.eval w σ with e' | q' <;> rw [h1, h2] at this
      · cases (this : e = e'); exact .raised e
      · exact this.elim
      · exact this.elim
      · exact .done (hρ.set x this)
    | seq s t ihs iht =>
      simp only [Stmt.run]
      simp only [Stmt.Safe] at hs hs'
      have := ihs ρ σ hρ hs.1 hs'.1
      have k := hs.2
      have k' := hs'.2
      revert this k k'
      generalize s.run w 0 ρ = A
      generalize s.run w 0 σ = B
      intro this k k'
      cases this with
      | running => exact .running
      | raised e => exact .raised e
      | done hd => exact iht _ _ hd (k _ rfl) (k' _ rfl)
    | ite c s t ihs iht =>
      simp only [Stmt.run]
      simp only [Stmt.Safe] at hs hs'
      have hc := C100_cond hw c ρ σ hρ hs.1 hs'.1
      rw [← hc] at hs' ⊢
      rcases h1 : c.eval w ρ with e | b
      · exact .raised e
      · cases b
        · exact iht _ _ hρ (hs.2.2 h1) (hs'.2.2 h1)
        · exact ihs _ _ hρ (hs.2.1 h1) (hs'.2.1 h1)
    | loop c s ih => simp only [Stmt.run]; exact .running
  | succ n ihn =>
    induction s generalizing ρ σ with
    | skip => simp only [Stmt.run]; exact .done hρ
    | assign x t =>
      simp only [Stmt.run]
      simp only [Stmt.Safe] at hs hs'
      have := C100_term hw t ρ σ hρ hs hs'
      rcases h1 : t.eval w ρ with e | q <;> rcases h2 : t.eval w σ with e' | q' <;> rw [h1, h2] at this
      · cases (this : e = e'); exact .raised e
      · exact this.elim
      · exact this.elim
      · exact .done (hρ.set x this)
    | seq s t ihs iht =>
      simp only [Stmt.run]
      simp only [Stmt.Safe] at hs hs'
      have := ihs ρ σ hρ hs.1 hs'.1
      have k := hs.2
      have k' := hs'.2
      revert this k k'
      generalize s.run w (n + 1) ρ = A
      generalize s.run w (n + 1) σ = B
      intro this k k'
      cases this with
      | running => exact .running
      | raised e => exact .raised e
      | done hd => exact iht _ _ hd (k _ rfl) (k' _ rfl)
    | ite c s t ihs iht =>
      simp only [Stmt.run]
      simp only [Stmt.Safe] at hs hs'
      have hc := C100_cond hw c ρ σ hρ hs.1 hs'.1
      rw [← hc] at hs' ⊢
      rcases h1 : c.eval w ρ with e | b
      · exact .raised e
      · cases b
        · exact iht _ _ hρ (hs.2.2 h1) (hs'.2.2 h1)
        · exact ihs _ _ hρ (hs.2.1 h1) (hs'.2.1 h1)
    | loop c s ih =>
      simp only [Stmt.run]
      simp only [Stmt.Safe] at hs hs'
      have hc := C100_cond hw c ρ σ hρ hs.1 hs'.1
      rw [← hc] at hs' ⊢
      rcases h1 : c.eval w ρ with e | b
      · exact .raised e
      · cases b
        · exact .done hρ
        · have hb := hs.2 h1
          have hb' := hs'.2 h1
          have := ihn s ρ σ hρ hb.1 hb'.1
          have k := hb.2
          have k' := hb'.2
          revert this k k'
          generalize s.run w n ρ = A
          generalize s.run w n σ = B
          intro this k k'
          cases this with
          | running => exact .running
          | raised e => exact .raised e
          | done hd => exact ihn _ _ _ hd (k _ rfl) (k' _ rfl)

/-- C100: what is printed after a final conversion to given units is the same array of numbers. -/
theorem C100_report (hw : Reachable h w) (t : Term K) (d : Dim) (ρ σ : Env (Quantity K))
    (hρ : EnvRel (PhysEq w) ρ σ) (hs : (t.inUnits d).Safe w ρ) (hs' : (t.inUnits d).Safe w σ) :
    OutRel (fun x y => NDArr.Same x.mag y.mag ∧ SameContent x.dim d ∧ SameContent y.dim d)
      ((t.inUnits d).eval w ρ) ((t.inUnits d).eval w σ) := by
  have key : ∀ (τ : Env (Quantity K)) r, (t.inUnits d).Safe w τ → (∀ q, t.eval w τ = .ok q → DimOK w q.dim) →
      (t.inUnits d).eval w τ = .ok r → SameContent r.dim d := fun τ r h1 h2 h3 => by
    simp only [Term.eval] at h3
    rcases hq : t.eval w τ with e | q
    · rw [hq] at h3; exact absurd h3 (by rintro ⟨⟩)
    · rw [hq] at h3
      have h3' : q.rescale w d = .ok r := h3
      exact (rescale_ok hw.wf (h2 q hq) h1.2.1 (h1.2.2 q hq) h3').2.1
  have ht := C100_term hw t ρ σ hρ hs.1 hs'.1
  obtain ⟨v⟩ := exists_valuation hw.wf
  refine (C100_term hw (t.inUnits d) ρ σ hρ hs hs').mono (fun x y hx hy hxy => ?_)
  have sx : SameContent x.dim d := key ρ x hs (fun q hq => by
    obtain ⟨b, -, hb⟩ := ht.ok_left hq
    exact hb.left) hx
  have sy : SameContent y.dim d := key σ y hs' (fun q hq => by
    rw [hq] at ht
    rcases hp : t.eval w ρ with e | p <;> rw [hp] at ht
    · exact ht.elim
    · exact PhysEq.right ht) hy
  refine ⟨⟨(hxy.same v).1, fun i hi => ?_⟩, sx, sy⟩
  have := (hxy.same v).2 i hi
  have hz : v.size x.dim = v.size y.dim :=
    dsize_same v.val hxy.left.canon.nodup hxy.right.canon.nodup (sx.trans sy.symm)
  simp only [Valuation.phys, NDArr.map, hz] at this
  exact mul_right_cancel₀ (v.size_pos _).ne' this

/-! ## C101 -/

/-- The quantity has units of the kind of `d` and its value, in the units of `v`, is `m`. -/
structure Denotes (w : World K) (v : Valuation w) (d : Dim) (r : Quantity K) (m : NDArr K) : Prop where
  ok : DimOK w r.dim
  kind : Compatible w r.dim d
  same : NDArr.Same (v.phys r) m

/-- The value of a quantity, in the units of `v`. -/
def IsValue (v : Valuation w) (r : Quantity K) (m : NDArr K) : Prop := NDArr.Same (v.phys r) m

theorem Denotes.of_map {v : Valuation w} {d : Dim} {res : Py (Quantity K)} {m : Py (NDArr K)}
    (h1 : OutRel NDArr.Same (res.map v.phys) m) (h2 : ∀ r, res = .ok r → DimOK w r.dim ∧ Compatible w r.dim d) :
    OutRel (Denotes w v d) res m := by
  rcases res with e | r <;> rcases m with e' | m
  · exact h1
  · exact h1.elim
  · exact h1.elim
  · exact ⟨(h2 r rfl).1, (h2 r rfl).2, h1⟩

theorem ap_num (hw : Reachable h w) (v : Valuation w) (op : Arith) {x : Quantity K} {o : Operand K} {m n : NDArr K}
    {d e : Dim} (hx : Denotes w v d x m) (ho : DimOK w o.dim) (hoc : Compatible w o.dim e)
    (hos : NDArr.Same (v.physOp o) n) (hs : HashSafe w o.dim x.dim) (hf : op.Fits w d e) :
    OutRel (Denotes w v (op.kind d e)) (op.ap w x o) (NDArr.bin op.fn m n) := by
  obtain ⟨f1, -⟩ := ap_spec hw op x o hx.ok ho hs
  have hf' := (fits_congr hw op hx.kind hoc).2 hf
  obtain ⟨g1, g2⟩ := f1 hf'
  refine Denotes.of_map ?_ (fun r hr => ⟨(g2 r hr).1, compatible_trans (g2 r hr).2 (kind_congr op hx.kind hoc)⟩)
  rw [g1 v]
  exact bin_rel _ hx.same hos

theorem lap_num (hw : Reachable h w) (v : Valuation w) (op : LArith) {x : Quantity K} {m : NDArr K} (c : NDArr K)
    {d : Dim} (hx : Denotes w v d x m) (hs : HashSafe w [] x.dim) (hf : op.Fits w d) :
    OutRel (Denotes w v (op.kind d)) (op.ap w x c) (NDArr.bin op.fn c m) := by
  obtain ⟨f1, -⟩ := lap_spec hw op x c hx.ok hs
  obtain ⟨g1, g2⟩ := f1 ((lfits_congr hw op hx.kind).2 hf)
  refine Denotes.of_map ?_ (fun r hr => ⟨(g2 r hr).1, compatible_trans (g2 r hr).2 (lkind_congr hw op hx.kind)⟩)
  rw [g1 v]
  exact bin_rel _ (NDArr.Same.refl _) hx.same

theorem Denotes.conv {v : Valuation w} {d e : Dim} {r : Quantity K} {m : NDArr K} (hr : Denotes w v d r m)
    (hc : Compatible w d e) : Denotes w v e r m := ⟨hr.ok, compatible_trans hr.kind hc, hr.same⟩

/-- C101: an expression whose units check has the units announced, its value is the one computed with bare numbers,
and it raises only the exceptions that numpy raises on bare numbers. -/
theorem C101_term (hw : Reachable h w) (v : Valuation w) (Γ : Env Dim) (t : Term K) (d : Dim)
    (ht : HasUnits w Γ t d) (ρ : Env (Quantity K)) (σ : Env (NDArr K)) (hρ : Declares w Γ ρ)
    (hσ : EnvRel (IsValue v) ρ σ) (hs : t.Safe w ρ) :
    OutRel (Denotes w v d) (t.eval w ρ) (t.num v σ) := by
  induction ht with
  | @var x d hx =>
    obtain ⟨-, q, hq, q1, q2⟩ := hρ x d hx
    have := hσ x
    simp only [Term.eval, Term.num, getVar]
    rw [hq] at this ⊢
    rcases hm : σ x with _ | m <;> rw [hm] at this
    · cases this
    · cases this with | some hh => exact ⟨q1, q2, hh⟩
  | const q => exact ⟨hs, compatible_refl w _, NDArr.Same.refl _⟩
  | @sum op a b d e hop ha hb hc iha ihb =>
    simp only [Term.eval, Term.num]
    refine OutRel.bind (iha hs.1) (fun x m hx _ hxm => ?_)
    refine OutRel.bind (ihb hs.2.1) (fun y n hy _ hyn => ?_)
    have := ap_num hw v op (o := .quantity y) hxm hyn.ok hyn.kind hyn.same (hs.2.2 x y hx hy) (Or.inr (Or.inr hc))
    rcases hop with rfl | rfl | rfl <;> exact this
  | @mul a b d e ha hb iha ihb =>
    simp only [Term.eval, Term.num]
    refine OutRel.bind (iha hs.1) (fun x m hx _ hxm => ?_)
    refine OutRel.bind (ihb hs.2.1) (fun y n hy _ hyn => ?_)
    exact ap_num hw v .mul (o := .quantity y) hxm hyn.ok hyn.kind hyn.same (hs.2.2 x y hx hy) (Or.inl rfl)
  | @div a b d e ha hb iha ihb =>
    simp only [Term.eval, Term.num]
    refine OutRel.bind (iha hs.1) (fun x m hx _ hxm => ?_)
    refine OutRel.bind (ihb hs.2.1) (fun y n hy _ hyn => ?_)
    exact ap_num hw v .div (o := .quantity y) hxm hyn.ok hyn.kind hyn.same (hs.2.2 x y hx hy)
      (Or.inr (Or.inl rfl))
  | @sumr op a d c hop ha hc iha =>
    simp only [Term.eval, Term.num]
    refine OutRel.bind (iha hs.1) (fun x m hx _ hxm => ?_)
    have := ap_num hw v op (o := .array c) (n := c) (e := []) hxm (DimOK.nil w) (compatible_refl w _)
      (NDArr.Same.refl _) (hs.2 x hx) (Or.inr (Or.inr hc))
    rcases hop with rfl | rfl | rfl <;> exact this
  | @mulr op a d c hop ha iha =>
    simp only [Term.eval, Term.num]
    refine OutRel.bind (iha hs.1) (fun x m hx _ hxm => ?_)
    have := ap_num hw v op (o := .array c) (n := c) (e := []) hxm (DimOK.nil w) (compatible_refl w _)
      (NDArr.Same.refl _) (hs.2 x hx) (by rcases hop with rfl | rfl; exacts [Or.inl rfl, Or.inr (Or.inl rfl)])
    rcases hop with rfl | rfl <;> exact this
  | @suml op a d c hop ha hc iha =>
    simp only [Term.eval, Term.num]
    refine OutRel.bind (iha hs.1) (fun x m hx _ hxm => ?_)
    have := lap_num hw v op c hxm (hs.2 x hx) (by unfold LArith.Fits; tauto)
    rcases hop with rfl | rfl <;> exact this
  | @mull a d c ha iha =>
    simp only [Term.eval, Term.num]
    refine OutRel.bind (iha hs.1) (fun x m hx _ hxm => ?_)
    exact lap_num hw v .mul c hxm (hs.2 x hx) (by unfold LArith.Fits; tauto)
  | @divl a d c ha iha =>
    simp only [Term.eval, Term.num]
    refine OutRel.bind (iha hs.1) (fun x m hx _ hxm => ?_)
    exact lap_num hw v .div c hxm (hs.2 x hx) (by unfold LArith.Fits; tauto)
  | @pow a d p ha iha =>
    simp only [Term.eval, Term.num]
    refine OutRel.bind (iha hs.1) (fun x m hx _ hxm => ?_)
    obtain ⟨r, hr, r1, r2, r3⟩ := pow_spec hw x p hxm.ok (hs.2 x hx)
    rw [hr]
    exact ⟨r1, compatible_trans r2 (compatible_pow hw hxm.kind p), (r3 v).trans (map_rel _ hxm.same)⟩
  | @un a d u ha iha =>
    simp only [Term.eval, Term.num]
    refine OutRel.bind (iha hs) (fun x m hx _ hxm => ?_)
    obtain ⟨a1, a2⟩ := un_denotes hw u x
    refine Denotes.of_map ?_ (fun r hr => by rw [a1 r hr]; exact ⟨hxm.ok, hxm.kind⟩)
    rw [← a2 v]
    exact un_rel u hxm.same
  | @inUnits a d e ha hc iha =>
    have ih := iha hs.1
    simp only [Term.eval, Term.num]
    rcases hx : a.eval w ρ with err | x <;> rcases hm : a.num v σ with err' | m <;> rw [hx, hm] at ih
    · exact ih
    · exact ih.elim
    · exact ih.elim
    · obtain ⟨r, hr, r1, r2, r3⟩ := (rescale_out hw x e ih.ok hs.2.1 (hs.2.2 x hx)).1 (compatible_trans ih.kind hc)
      show OutRel _ (x.rescale w e) _
      rw [hr]
      exact ⟨r1, compatible_of_same r1.canon.nodup hs.2.1.canon.nodup r2, by rw [r3 v]; exact ih.same⟩
  | @conv a d e ha hc iha =>
    exact (iha hs).mono (fun r m _ _ hrm => hrm.conv hc)

/-- C101: a condition whose units check has the outcome it has on bare numbers. -/
theorem C101_cond (hw : Reachable h w) (v : Valuation w) (Γ : Env Dim) (c : Cond K) (hc : c.Checks w Γ)
    (ρ : Env (Quantity K)) (σ : Env (NDArr K)) (hρ : Declares w Γ ρ) (hσ : EnvRel (IsValue v) ρ σ)
    (hs : c.Safe w ρ) : c.eval w ρ = c.num v σ := by
  induction hc with
  | @cmp op a b d ha hb =>
    simp only [Cond.eval, Cond.num]
    refine OutRel.eq (OutRel.bind (C101_term hw v Γ a d ha ρ σ hρ hσ hs.1) (fun x m hx _ hxm => ?_))
    refine OutRel.bind (C101_term hw v Γ b d hb ρ σ hρ hσ hs.2.1) (fun y n hy _ hyn => ?_)
    rw [(cmp_quantity hw op x y hxm.ok hyn.ok (hs.2.2 x y hx hy)).1
      (compatible_trans hyn.kind (compatible_symm hw.wf hxm.kind)) v]
    exact (bin_rel _ hxm.same hyn.same).map (fun _ _ => allTrue_same)
  | not hc ih => simp only [Cond.eval, Cond.num, ih hs]
  | @and c d hc hd ih ihd =>
    simp only [Cond.eval, Cond.num]
    rw [← ih hs.1]
    rcases h1 : c.eval w ρ with e | b
    · rfl
    · cases b
      · rfl
      · exact ihd (hs.2 h1)
  | @or c d hc hd ih ihd =>
    simp only [Cond.eval, Cond.num]
    rw [← ih hs.1]
    rcases h1 : c.eval w ρ with e | b
    · rfl
    · cases b
      · exact ihd (hs.2 h1)
      · rfl

theorem Declares.set {Γ : Env Dim} {ρ : Env (Quantity K)} (hρ : Declares w Γ ρ) {x : String} {d : Dim}
    (hx : Γ x = some d) {q : Quantity K} (h1 : DimOK w q.dim) (h2 : Compatible w q.dim d) :
    Declares w Γ (ρ.set x q) := fun y e hy => by
  refine ⟨(hρ y e hy).1, ?_⟩
  unfold Env.set
  by_cases hyx : y = x
  · subst hyx
    rw [hx] at hy
    cases hy
    exact ⟨q, if_pos rfl, h1, h2⟩
  · rw [if_neg hyx]
    exact (hρ y e hy).2

/-- C101: a program whose units check runs exactly as it does on bare numbers: it takes the same branches, goes
round its loops as often, ends with variables that have these values, and raises only what numpy raises on bare
numbers.  The declarations still hold at the end. -/
theorem C101_program (hw : Reachable h w) (v : Valuation w) (Γ : Env Dim) (fuel : Nat) (s : Stmt K)
    (hc : s.Checks w Γ) (ρ : Env (Quantity K)) (σ : Env (NDArr K)) (hρ : Declares w Γ ρ)
    (hσ : EnvRel (IsValue v) ρ σ) (hs : s.Safe w fuel ρ) :
    ResultRel (IsValue v) (s.run w fuel ρ) (s.num v fuel σ) ∧
    ∀ ρ', s.run w fuel ρ = .done ρ' → Declares w Γ ρ' := by
  have seqs : ∀ {A : Result (Quantity K)} {B : Result (NDArr K)} {f : Env (Quantity K) → Result (Quantity K)}
      {g : Env (NDArr K) → Result (NDArr K)},
      (ResultRel (IsValue v) A B ∧ ∀ ρ', A = .done ρ' → Declares w Γ ρ') →
      (∀ ρ' σ', A = .done ρ' → EnvRel (IsValue v) ρ' σ' → Declares w Γ ρ' →
        ResultRel (IsValue v) (f ρ') (g σ') ∧ ∀ ρ'', f ρ' = .done ρ'' → Declares w Γ ρ'') →
      ResultRel (IsValue v) (match A with | .done ρ' => f ρ' | r => r) (match B with | .done σ' => g σ' | r => r) ∧
      ∀ ρ'', (match A with | .done ρ' => f ρ' | r => r) = .done ρ'' → Declares w Γ ρ'' := by
    intro A B f g h1 h2
    obtain ⟨h1, h3⟩ := h1
    cases h1 with
    | running => exact ⟨.running, fun _ q => by cases q⟩
    | raised e => exact ⟨.raised e, fun _ q => by cases q⟩
    | done hd => exact h2 _ _ rfl hd (h3 _ rfl)
  have assigns : ∀ (x : String) (t : Term K) (d : Dim) (ρ : Env (Quantity K)) (σ : Env (NDArr K)),
      Declares w Γ ρ → EnvRel (IsValue v) ρ σ → t.Safe w ρ → Γ x = some d → HasUnits w Γ t d →
      ResultRel (IsValue v) (match t.eval w ρ with | .ok q => .done (ρ.set x q) | .error e => .raised e)
        (match t.num v σ with | .ok q => .done (σ.set x q) | .error e => .raised e) ∧
      ∀ ρ', (match t.eval w ρ with | .ok q => Result.done (ρ.set x q) | .error e => .raised e) = .done ρ' →
        Declares w Γ ρ' := by
    intro x t d ρ σ hρ hσ hs hx ht
    have := C101_term hw v Γ t d ht ρ σ hρ hσ hs
    rcases h1 : t.eval w ρ with e | q <;> rcases h2 : t.num v σ with e' | q' <;> rw [h1, h2] at this
    · cases (this : e = e'); exact ⟨.raised e, fun _ q => by cases q⟩
    · exact this.elim
    · exact this.elim
    · refine ⟨.done (hσ.set x this.same), fun ρ' hq => ?_⟩
      cases hq
      exact hρ.set hx this.ok this.kind
  induction fuel generalizing s ρ σ with
  | zero =>
    induction hc generalizing ρ σ with
    | skip => simp only [Stmt.run, Stmt.num]; exact ⟨.done hσ, fun _ q => by cases q; exact hρ⟩
    | @assign x t d hx ht =>
      simp only [Stmt.run, Stmt.num]
      simp only [Stmt.Safe] at hs
      exact assigns x t d ρ σ hρ hσ hs hx ht
    | @seq s t hs' ht' ihs iht =>
      simp only [Stmt.run, Stmt.num]
      simp only [Stmt.Safe] at hs
      exact seqs (ihs ρ σ hρ hσ hs.1) (fun ρ' σ' h1 h2 h3 => iht ρ' σ' h3 h2 (hs.2 ρ' h1))
    | @ite c s t hc hs' ht' ihs iht =>
      simp only [Stmt.run, Stmt.num]
      simp only [Stmt.Safe] at hs
      rw [← C101_cond hw v Γ c hc ρ σ hρ hσ hs.1]
      rcases h1 : c.eval w ρ with e | b
      · exact ⟨.raised e, fun _ q => by cases q⟩
      · cases b
        · exact iht ρ σ hρ hσ (hs.2.2 h1)
        · exact ihs ρ σ hρ hσ (hs.2.1 h1)
    | loop hc hs' ih => simp only [Stmt.run, Stmt.num]; exact ⟨.running, fun _ q => by cases q⟩
  | succ n ihn =>
    induction hc generalizing ρ σ with
    | skip => simp only [Stmt.run, Stmt.num]; exact ⟨.done hσ, fun _ q => by cases q; exact hρ⟩
    | @assign x t d hx ht =>
      simp only [Stmt.run, Stmt.num]
      simp only [Stmt.Safe] at hs
      exact assigns x t d ρ σ hρ hσ hs hx ht
    | @seq s t hs' ht' ihs iht =>
      simp only [Stmt.run, Stmt.num]
      simp only [Stmt.Safe] at hs
      exact seqs (ihs ρ σ hρ hσ hs.1) (fun ρ' σ' h1 h2 h3 => iht ρ' σ' h3 h2 (hs.2 ρ' h1))
    | @ite c s t hc hs' ht' ihs iht =>
      simp only [Stmt.run, Stmt.num]
      simp only [Stmt.Safe] at hs
      rw [← C101_cond hw v Γ c hc ρ σ hρ hσ hs.1]
      rcases h1 : c.eval w ρ with e | b
      · exact ⟨.raised e, fun _ q => by cases q⟩
      · cases b
        · exact iht ρ σ hρ hσ (hs.2.2 h1)
        · exact ihs ρ σ hρ hσ (hs.2.1 h1)
    | @loop c s hc hs' ih =>
      simp only [Stmt.run, Stmt.num]
      simp only [Stmt.Safe] at hs
      rw [← C101_cond hw v Γ c hc ρ σ hρ hσ hs.1]
      rcases h1 : c.eval w ρ with e | b
      · exact ⟨.raised e, fun _ q => by cases q⟩
      · cases b
        · exact ⟨.done hσ, fun _ q => by cases q; exact hρ⟩
        · have hb := hs.2 h1
          exact seqs (ihn s hs' ρ σ hρ hσ hb.1)
            (fun ρ' σ' h1 h2 h3 => ihn _ (.loop hc hs') ρ' σ' h3 h2 (hb.2 ρ' h1))

/-- C101: dimensional homogeneity.  Computing with bare numbers in another coherent system of units changes the
number obtained only by the ratio of the two systems' units for the dimension announced. -/
theorem C101_homogeneous (hw : Reachable h w) (v v' : Valuation w) (Γ : Env Dim) (t : Term K) (d : Dim)
    (ht : HasUnits w Γ t d) (ρ : Env (Quantity K)) (σ σ' : Env (NDArr K)) (hρ : Declares w Γ ρ)
    (hσ : EnvRel (IsValue v) ρ σ) (hσ' : EnvRel (IsValue v') ρ σ') (hs : t.Safe w ρ) :
    OutRel (fun m m' => NDArr.Same (m.map (· * (v'.size d / v.size d))) m') (t.num v σ) (t.num v' σ') := by
  have h1 := C101_term hw v Γ t d ht ρ σ hρ hσ hs
  have h2 := C101_term hw v' Γ t d ht ρ σ' hρ hσ' hs
  rcases hr : t.eval w ρ with e | r <;> rcases hm : t.num v σ with e1 | m <;>
    rcases hm' : t.num v' σ' with e2 | m' <;> rw [hr] at h1 h2 <;> rw [hm] at h1 <;> rw [hm'] at h2
  · exact (h1 : e = e1).symm.trans h2
  all_goals first | exact h1.elim | exact h2.elim | skip
  obtain ⟨c, hc⟩ := h1.kind
  refine ⟨h1.same.1.symm.trans h2.same.1, fun i hi => ?_⟩
  have a1 := h1.same.2 i (h1.same.1 ▸ hi)
  have a2 := h2.same.2 i (h1.same.1 ▸ hi)
  simp only [NDArr.map]
  rw [← a1, ← a2]
  have k1 := hc v
  have k2 := hc v'
  have p1 := (v.size_pos d).ne'
  simp only [Valuation.phys, NDArr.map]
  rw [k1, k2]
  field_simp

/-! ## A program that meets the hypotheses -/

/-- `while all(x < y): x = x + x`. -/
def exLoop : Stmt ℝ :=
  .loop (.cmp .lt (.var "x") (.var "y")) (.assign "x" (.bin .add (.var "x") (.var "x")))

/-- The variables `x` and `y`. -/
noncomputable def exEnv (x y : Quantity ℝ) : Env (Quantity ℝ) :=
  fun n => if n = "x" then some x else if n = "y" then some y else none

/-- Whatever happens, the loop compares only units of `d` and `e`. -/
theorem exLoop_safe {d e : Dim} (hd : DimOK exWorld d) (he : DimOK exWorld e) (hs : HashSafe exWorld e d)
    (fuel : Nat) (ρ : Env (Quantity ℝ)) (x y : Quantity ℝ) (h1 : ρ "x" = some x) (h2 : ρ "y" = some y)
    (hx : DimOK exWorld x.dim) (hxd : SameContent x.dim d) (hy : y.dim = e) : exLoop.Safe exWorld fuel ρ := by
  induction fuel generalizing ρ x with
  | zero => simp only [exLoop, Stmt.Safe]
  | succ n ih =>
    simp only [exLoop, Stmt.Safe, Cond.Safe, Term.Safe, Term.eval, getVar, h1, h2]
    refine ⟨⟨trivial, trivial, ?_⟩, fun _ => ⟨⟨trivial, trivial, ?_⟩, ?_⟩⟩
    · intro a b ha hb
      cases ha; cases hb
      exact hs.congr exWorld_wf he (hy ▸ he) hd hx (by rw [hy]; exact SameContent.refl _) hxd.symm
    · intro a b ha hb
      cases ha; cases hb
      exact HashSafe.refl _ _
    · intro ρ' hrun
      simp only [Stmt.run, Term.eval, getVar, h1] at hrun
      rcases hq : Arith.ap exWorld .add x (.quantity x) with er | q
      · rw [show (Except.ok x >>= fun x_1 => Except.ok x >>= fun y => Arith.ap exWorld .add x_1 (.quantity y)) =
          Arith.ap exWorld .add x (.quantity x) from rfl, hq] at hrun
        cases hrun
      · rw [show (Except.ok x >>= fun x_1 => Except.ok x >>= fun y => Arith.ap exWorld .add x_1 (.quantity y)) =
          Arith.ap exWorld .add x (.quantity x) from rfl, hq] at hrun
        have hρ' : ρ' = ρ.set "x" q := by cases hrun; rfl
        subst hρ'
        obtain ⟨-, -, k⟩ := C13_add exWorld_reachable x (.quantity x) hx hx (HashSafe.refl _ _)
        obtain ⟨k1, -⟩ := k q hq
        have k2 := ((ap_spec exWorld_reachable .add x (.quantity x) hx hx (HashSafe.refl _ _)).1
          (Or.inr (Or.inr (compatible_refl _ _)))).2 q hq |>.1
        refine ih (ρ.set "x" q) q ?_ ?_ k2 (k1.trans hxd)
        · simp [Env.set]
        · rw [← h2]; simp [Env.set]

/-- 2 km and 2000 m. -/
noncomputable def exKm2 : Quantity ℝ := ⟨NDArr.scalar 2, dKm⟩
noncomputable def exM2000 : Quantity ℝ := ⟨NDArr.scalar 2000, dM⟩

theorem exSizeKm (v : Valuation exWorld) : v.size dKm = 1000 * v.size dM := by
  have := v.defined uKm (exWorld.info uKm |>.get (by rfl)) ⟨1000, dM⟩ (by rfl) (by rfl)
  simp only [Valuation.size, dKm, dM, dsize_cons, dsize_nil, mul_one, LawfulRPow.rpow_one] at this ⊢
  exact this

theorem ex_physEq : PhysEq exWorld exKm2 exM2000 := by
  refine ⟨ex_dimOK _ (by simp [exKm2]), ex_dimOK _ (by simp [exM2000]), ex_compat, fun v => ⟨rfl, fun i _ => ?_⟩⟩
  have hkm : v.size dKm = 1000 * v.size dM := exSizeKm v
  show (2 : ℝ) * v.size dKm = 2000 * v.size dM
  rw [hkm]; ring

theorem ex_envRel : EnvRel (PhysEq exWorld) (exEnv exKm2 exM2000) (exEnv exM2000 exKm2) := fun n => by
  unfold exEnv
  by_cases h1 : n = "x"
  · rw [if_pos h1, if_pos h1]; exact .some ex_physEq
  · by_cases h2 : n = "y"
    · rw [if_neg h1, if_pos h2, if_neg h1, if_pos h2]
      exact .some ⟨ex_physEq.right, ex_physEq.left, compatible_symm exWorld_wf ex_physEq.compatible,
        fun v => (ex_physEq.same v).symm⟩
    · rw [if_neg h1, if_neg h2, if_neg h1, if_neg h2]; exact .none

/-- The loop, with `x` in km and `y` in m, and the other way round. -/
example (fuel : Nat) : ResultRel (PhysEq exWorld) (exLoop.run exWorld fuel (exEnv exKm2 exM2000))
    (exLoop.run exWorld fuel (exEnv exM2000 exKm2)) :=
  C100_program exWorld_reachable fuel exLoop _ _ ex_envRel
    (exLoop_safe (ex_dimOK dKm (by simp)) (ex_dimOK dM (by simp)) ex_safe_m_km fuel _ exKm2 exM2000 rfl rfl
      ex_physEq.left (SameContent.refl _) rfl)
    (exLoop_safe (ex_dimOK dM (by simp)) (ex_dimOK dKm (by simp)) ex_safe_km_m fuel _ exM2000 exKm2 rfl rfl
      ex_physEq.right (SameContent.refl _) rfl)

/-- Both variables are lengths. -/
def exDecl : Env Dim := fun n => if n = "x" then some dM else if n = "y" then some dM else none

theorem exLoop_checks : exLoop.Checks exWorld exDecl :=
  .loop (.cmp (.var (d := dM) rfl) (.var rfl))
    (.assign (d := dM) rfl (.sum (Or.inl rfl) (.var rfl) (.var rfl) (compatible_refl _ _)))

theorem exEnv_declares : Declares exWorld exDecl (exEnv exKm2 exM2000) := fun n d hd => by
  unfold exDecl at hd
  unfold exEnv
  by_cases h1 : n = "x"
  · rw [if_pos h1] at hd ⊢
    cases hd
    exact ⟨ex_physEq.right, _, rfl, ex_physEq.left, ex_compat⟩
  · rw [if_neg h1] at hd ⊢
    by_cases h2 : n = "y"
    · rw [if_pos h2] at hd ⊢
      cases hd
      exact ⟨ex_physEq.right, _, rfl, ex_physEq.right, compatible_refl _ _⟩
    · rw [if_neg h2] at hd
      cases hd

/-- The loop takes the branches it takes on the bare numbers. -/
example (v : Valuation exWorld) (fuel : Nat) :
    ResultRel (IsValue v) (exLoop.run exWorld fuel (exEnv exKm2 exM2000))
      (exLoop.num v fuel (fun n => (exEnv exKm2 exM2000 n).map v.phys)) :=
  (C101_program exWorld_reachable v exDecl fuel exLoop exLoop_checks _ _ exEnv_declares
    (fun n => by
      rcases exEnv exKm2 exM2000 n with _ | q
      · exact .none
      · exact .some (NDArr.Same.refl _))
    (exLoop_safe (ex_dimOK dKm (by simp)) (ex_dimOK dM (by simp)) ex_safe_m_km fuel _ exKm2 exM2000 rfl rfl
      ex_physEq.left (SameContent.refl _) rfl)).1

end Client
end PQ
