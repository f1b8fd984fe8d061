import Verif.Spec.Expressions
import Verif.Props.Arithmetic
import Verif.Props.Compare
import Verif.Props.Uncertain

/-!
# Property C56: units, quantities and numbers mix freely in expressions
-/

namespace PQ

open Dict World

section lawfree
variable {K : Type _} [Zero K] [One K] [Add K] [Sub K] [Mul K] [Div K] [RPow K] [PyFloor K]
  [DecidableEq K]

theorem rescale_dim_deq {w : World K} {q r : Quantity K} {d : Dim} (h : q.rescale w d = .ok r) :
    w.deq r.dim d = true := by
  unfold Quantity.rescale at h
  split at h
  · rename_i hd
    simp only [Except.ok.injEq] at h; subst h; exact hd
  · split at h <;> simp only [reduceCtorEq, Except.ok.injEq] at h
    subst h; exact deq_self _ _

theorem scaleOther_quantity (w : World K) (self q : Quantity K) :
    Quantity.scaleOther w self (.quantity q) = q.rescale w self.dim := by
  show (if w.dne q.dim self.dim = true then q.rescale w self.dim else .ok q) = _
  by_cases hd : w.deq q.dim self.dim = true
  · rw [if_neg (by rw [dne_eq, hd]; simp)]
    unfold Quantity.rescale
    rw [if_pos hd]
  · rw [if_pos (by rw [dne_eq]; simpa using hd)]

theorem rescale_back {w : World K} {q s t : Quantity K} (h : s.rescale w q.dim = .ok t) :
    q.rescale w t.dim = .ok q := by
  have : w.deq q.dim t.dim = true := by rw [deq_comm]; exact rescale_dim_deq h
  unfold Quantity.rescale
  rw [if_pos this]

/-- `s.__rop__(q)` after `s` was converted to the units of `q` is `q.__op__(s)`. -/
theorem unitRMethod_eq (w : World K) (op : BinOp) (u : UKey) (q : Quantity K) :
    unitRMethod w op u (.quantity q) = q.method w op (.quantity (Quantity.ofUnit u)) := by
  unfold unitRMethod
  rcases hr : (Quantity.ofUnit u : Quantity K).rescale w q.dim with e | s
  · cases op <;> simp only [BinOp.scales, if_true, Bool.false_eq_true, if_false, Quantity.method,
      Quantity.rmethod, Quantity.add, Quantity.sub, Quantity.mod, scaleOther_quantity, hr] <;> rfl
  · cases op <;> simp only [BinOp.scales, if_true, Bool.false_eq_true, if_false, Quantity.method,
      Quantity.rmethod, Quantity.add, Quantity.sub, Quantity.mod, Quantity.radd, Quantity.rsub,
      scaleOther_quantity, hr, rescale_back hr] <;> rfl

/-- C56: in `x op y`, with any operator and any mixture of units, quantities and plain operands, a
unit behaves exactly like the quantity of magnitude one in that unit: same result, same units, same
exception. -/
theorem C56_unit_is_one (w : World K) (op : BinOp) (x y : PyVal K) (hx : x.Exact) (hy : y.Exact) :
    binop w op x y = binop w op x.oneOf y.oneOf := by
  cases x with
  | uncertain a => exact hx.elim
  | unit u =>
    cases y with
    | uncertain a => exact hy.elim
    | unit t => rfl
    | quantity q => rfl
    | array a => rfl
  | quantity q =>
    cases y with
    | uncertain a => exact hy.elim
    | unit t =>
      show binop w op (.quantity q) (.unit t) = binop w op (.quantity q) (.quantity (Quantity.ofUnit t))
      unfold binop
      simp only [unitRMethod_eq]
      split <;> rfl
    | quantity q => rfl
    | array a => rfl
  | array a =>
    cases y with
    | uncertain a => exact hy.elim
    | unit t => rfl
    | quantity q => rfl
    | array a => rfl

theorem map_ok {α β : Type _} {f : α → β} {x : Py α} {b : β} (h : x.map f = .ok b) :
    ∃ a, x = .ok a ∧ f a = b := by
  cases x with
  | error e => exact absurd h (by simp [Except.map])
  | ok a => exact ⟨a, rfl, by simpa [Except.map] using h⟩

/-- The result of an operator is never a unit. -/
theorem binop_exact {w : World K} {op : BinOp} {x y r : PyVal K} (hx : x.Exact) (hy : y.Exact)
    (h : binop w op x y = .ok r) : r.Exact ∧ r.oneOf = r := by
  rw [C56_unit_is_one w op x y hx hy] at h
  cases x <;> cases y <;> first | exact hx.elim | exact hy.elim | skip
  all_goals
    obtain ⟨a, -, rfl⟩ := map_ok h
    exact ⟨trivial, rfl⟩

variable [RatCast K]

theorem powNum_exact {w : World K} {p : ℚ} {x r : PyVal K} (hx : x.Exact) (h : powNum w p x = .ok r) :
    r.Exact ∧ r.oneOf = r := by
  cases x with
  | uncertain a => exact hx.elim
  | unit u =>
    simp only [powNum] at h
    obtain ⟨a, -, rfl⟩ := map_ok h; exact ⟨trivial, rfl⟩
  | quantity q =>
    simp only [powNum] at h
    obtain ⟨a, -, rfl⟩ := map_ok h; exact ⟨trivial, rfl⟩
  | array a =>
    simp only [powNum, Except.ok.injEq] at h
    subst h; exact ⟨trivial, rfl⟩

theorem powNum_oneOf (w : World K) (p : ℚ) (x : PyVal K) : powNum w p x = powNum w p x.oneOf := by
  cases x <;> rfl

theorem eval_exact {w : World K} : ∀ {e : Expr K} {r : PyVal K}, e.Exact → e.eval w = .ok r → r.Exact
  | .val x, r, he, h => by
      simp only [Expr.eval, Except.ok.injEq] at h; subst h; exact he
  | .bin op a b, r, he, h => by
      simp only [Expr.eval] at h
      rcases ha : a.eval w with e | x
      · rw [ha] at h; exact absurd h (by simp [bind, Except.bind])
      rcases hb : b.eval w with e | y
      · rw [ha, hb] at h; exact absurd h (by simp [bind, Except.bind])
      rw [ha, hb] at h
      exact (binop_exact (eval_exact he.1 ha) (eval_exact he.2 hb) h).1
  | .pow a p, r, he, h => by
      simp only [Expr.eval] at h
      rcases ha : a.eval w with e | x
      · rw [ha] at h; exact absurd h (by simp [bind, Except.bind])
      rw [ha] at h
      exact (powNum_exact (eval_exact (e := a) he ha) h).1

/-- C56: the same for whole expressions: replacing every unit by one times the unit changes nothing
(except that the expression consisting of a unit alone becomes a quantity). -/
theorem C56_expression_units (w : World K) : ∀ e : Expr K, e.Exact →
    e.oneOf.eval w = (e.eval w).map PyVal.oneOf
  | .val x, _ => rfl
  | .bin op a b, he => by
      simp only [Expr.eval, Expr.oneOf, C56_expression_units w a he.1, C56_expression_units w b he.2]
      rcases ha : a.eval w with e | x
      · rfl
      rcases hb : b.eval w with e | y
      · rfl
      show binop w op x.oneOf y.oneOf = (binop w op x y).map PyVal.oneOf
      have hx := eval_exact he.1 ha
      have hy := eval_exact he.2 hb
      rw [← C56_unit_is_one w op x y hx hy]
      rcases hr : binop w op x y with e | r
      · rfl
      · show _ = Except.ok r.oneOf
        rw [(binop_exact hx hy hr).2]
  | .pow a p, he => by
      simp only [Expr.eval, Expr.oneOf, C56_expression_units w a he]
      rcases ha : a.eval w with e | x
      · rfl
      show powNum w p x.oneOf = (powNum w p x).map PyVal.oneOf
      have hx := eval_exact (e := a) he ha
      rw [← powNum_oneOf]
      rcases hr : powNum w p x with e | r
      · rfl
      · show _ = Except.ok r.oneOf
        rw [(powNum_exact hx hr).2]

end lawfree

section physical
variable {K : Type _} [Field K] [LinearOrder K] [IsStrictOrderedRing K] [RPow K] [LawfulRPow K]
  [PyFloor K] {h : Hasher} {w : World K}

omit [IsStrictOrderedRing K] [LawfulRPow K] [PyFloor K] in
theorem phys_oneOf (v : Valuation w) (x : PyVal K) : x.oneOf.phys v = x.phys v := by
  cases x <;> rfl

omit [IsStrictOrderedRing K] [LawfulRPow K] [PyFloor K] in
theorem phys_array (v : Valuation w) (a : NDArr K) : (PyVal.array a).phys v = a := by
  unfold PyVal.phys
  simp only [PyVal.mag, PyVal.dim, Valuation.size, dsize_nil]
  exact NDArr.map_id' (fun x => mul_one x) _

omit [IsStrictOrderedRing K] [LawfulRPow K] [PyFloor K] in
theorem oneOf_dim (x : PyVal K) : x.oneOf.dim = x.dim := by cases x <;> rfl

/-- `array % quantity`, which numpy's own method does without conversion: accepted only if that makes
no difference. -/
theorem rmod_phys {q r : Quantity K} {a : NDArr K} (hq : DimOK w q.dim)
    (hr : q.rmethod w .mod (.array a) = .ok r) : DimOK w r.dim ∧ ∀ v : Valuation w,
      ∃ m, NDArr.bin modK a (v.phys q) = .ok m ∧ NDArr.Same m (v.phys r) := by
  have h0 : q.rmethod w .mod (.array a) = (match (if q.dim.isEmpty || !a.anyNonzero then
      .ok q.dim else .error .attributeError : Py Dim) with
    | .error e => .error e
    | .ok d => match NDArr.bin modK a q.mag with
      | .error e => .error e
      | .ok m => .ok ⟨m, d⟩) := rfl
  rw [h0] at hr
  split at hr
  · exact absurd hr (by simp)
  rename_i d hd
  split at hd
  swap
  · exact absurd hd (by simp)
  rename_i hc
  simp only [Except.ok.injEq] at hd; subst hd
  rcases hb : NDArr.bin modK a q.mag with e | m
  · rw [hb] at hr; exact absurd hr (by simp)
  rw [hb] at hr
  simp only [Except.ok.injEq] at hr; subst hr
  refine ⟨hq, fun v => ?_⟩
  have hmap := NDArr.map_bin (modK : K → K → K) (fun z => z * v.size q.dim) a q.mag
  rw [hb] at hmap
  have hP : ∃ P : K → Prop, NDArr.All P a ∧ ∀ x y : K, P x →
      modK x y * v.size q.dim = modK x (y * v.size q.dim) := by
    rw [Bool.or_eq_true] at hc
    rcases hc with he | hz
    · refine ⟨fun _ => True, fun _ _ => trivial, fun x y _ => ?_⟩
      have : q.dim = [] := by
        cases hqd : q.dim with
        | nil => rfl
        | cons _ _ => rw [hqd] at he; exact absurd he (by simp)
      rw [this, Valuation.size, dsize_nil, mul_one, mul_one]
    · refine ⟨fun x => x = 0, ?_, fun x y hx => ?_⟩
      · rw [NDArr.all_iff_toList]
        intro x hx
        by_contra hne
        have : a.anyNonzero = true := by
          unfold NDArr.anyNonzero
          rw [List.any_eq_true]
          exact ⟨x, hx, by simpa using hne⟩
        rw [this] at hz; exact absurd hz (by simp)
      · subst hx
        have := homog_mod (K := K) (v.size q.dim) 0 y (v.size_pos _)
        rw [zero_mul] at this
        exact this.symm
  obtain ⟨P, hPa, hfun⟩ := hP
  obtain ⟨m', hm', hsame⟩ := NDArr.bin_same (g := fun x y => modK x (y * v.size q.dim)) (Q := fun _ => True) hPa
    (fun _ _ => trivial) (fun x y hx _ => hfun x y hx) hmap.symm
  refine ⟨m', ?_, hsame.symm⟩
  have hbm := NDArr.bin_map (modK : K → K → K) id (fun x => x * v.size q.dim) a q.mag
  rw [NDArr.map_id' (f := id) (fun x => rfl)] at hbm
  exact hbm.trans hm'

/-- The operators other than floor division, on quantities and plain operands. -/
theorem binop_phys (hw : Reachable h w) {op : BinOp} (hop : op ≠ .floordiv) {x y r : PyVal K}
    (hx : x.Exact) (hy : y.Exact) (dx : DimOK w x.dim) (dy : DimOK w y.dim)
    (hs : op = .add ∨ op = .sub ∨ op = .mod → HashSafe w x.dim y.dim) (hr : binop w op x y = .ok r) :
    DimOK w r.dim ∧ ∀ v : Valuation w, 
      ∃ m, NDArr.bin op.fn (x.phys v) (y.phys v) = .ok m ∧ NDArr.Same m (r.phys v) := by
  rw [C56_unit_is_one w op x y hx hy] at hr
  have hx' : x.oneOf.dim = x.dim := oneOf_dim x
  have hy' : y.oneOf.dim = y.dim := oneOf_dim y
  rw [← hx'] at dx hs
  rw [← hy'] at dy hs
  suffices hh : DimOK w r.dim ∧ ∀ v : Valuation w, ∃ m,
      NDArr.bin op.fn (x.oneOf.phys v) (y.oneOf.phys v) = .ok m ∧ NDArr.Same m (r.phys v) by
    refine ⟨hh.1, fun v => ?_⟩
    have := hh.2 v
    rwa [phys_oneOf, phys_oneOf] at this
  clear hx' hy'
  have ex : x.oneOf.Exact ∧ ∀ u, x.oneOf ≠ .unit u := by
    cases x <;> simp_all [PyVal.oneOf, PyVal.Exact]
  have ey : y.oneOf.Exact ∧ ∀ u, y.oneOf ≠ .unit u := by
    cases y <;> simp_all [PyVal.oneOf, PyVal.Exact]
  generalize x.oneOf = x at *
  generalize y.oneOf = y at *
  -- quantity on the left
  have left : ∀ (q : Quantity K) (o : Operand K) (m : Quantity K), DimOK w q.dim → DimOK w o.dim →
      (op = .add ∨ op = .sub ∨ op = .mod → HashSafe w q.dim o.dim) → q.method w op o = .ok m →
      DimOK w m.dim ∧ ∀ v : Valuation w, NDArr.bin op.fn (v.phys q) (v.physOp o) = .ok (v.phys m) := by
    intro q o m hq ho hs hm
    cases op with
    | add =>
      have := (sumLike_spec hw.wf hq ho (hs (by simp)).symm .add (fun _ _ => rfl) (fun x y => x + y) homog_add
        false (q.add w o) rfl).2.2 m hm
      exact ⟨this.2.1, fun v => this.2.2 v⟩
    | sub =>
      have := (sumLike_spec hw.wf hq ho (hs (by simp)).symm .subtract (fun _ _ => rfl) (fun x y => x - y) homog_sub
        false (q.sub w o) rfl).2.2 m hm
      exact ⟨this.2.1, fun v => this.2.2 v⟩
    | mod =>
      have := (sumLike_spec hw.wf hq ho (hs (by simp)).symm .remainder (fun _ _ => rfl) modK homog_mod
        false (q.mod w o) rfl).2.2 m hm
      exact ⟨this.2.1, fun v => this.2.2 v⟩
    | mul =>
      have := (C14_mul q o hq ho).2 m hm
      exact ⟨this.1, this.2.2⟩
    | truediv =>
      have := (C14_truediv q o hq ho).2 m hm
      exact ⟨this.1, this.2.2⟩
    | floordiv => exact absurd rfl hop
  cases x with
  | uncertain a => exact ex.1.elim
  | unit u => exact absurd rfl (ex.2 u)
  | quantity q =>
    cases y with
    | uncertain a => exact ey.1.elim
    | unit u => exact absurd rfl (ey.2 u)
    | quantity q' =>
      obtain ⟨m, hm, rfl⟩ := map_ok hr
      have := left q (.quantity q') m dx dy hs hm
      exact ⟨this.1, fun v => ⟨_, this.2 v, NDArr.Same.refl _⟩⟩
    | array a =>
      obtain ⟨m, hm, rfl⟩ := map_ok hr
      have := left q (.array a) m dx dy hs hm
      refine ⟨this.1, fun v => ⟨_, ?_, NDArr.Same.refl _⟩⟩
      rw [phys_array]; exact this.2 v
  | array a =>
    cases y with
    | uncertain a => exact ey.1.elim
    | unit u => exact absurd rfl (ey.2 u)
    | array b =>
      obtain ⟨m, hm, rfl⟩ := map_ok hr
      refine ⟨DimOK.nil w, fun v => ⟨m, ?_, ?_⟩⟩
      · rw [phys_array, phys_array]; exact hm
      · rw [phys_array]; exact NDArr.Same.refl _
    | quantity q =>
      obtain ⟨m, hm, rfl⟩ := map_ok hr
      suffices hh : DimOK w m.dim ∧ ∀ v : Valuation w, ∃ m',
          NDArr.bin op.fn a (v.phys q) = .ok m' ∧ NDArr.Same m' (v.phys m) from
        ⟨hh.1, fun v => by rw [phys_array]; exact hh.2 v⟩
      cases op with
      | add =>
        have := (sumLike_spec hw.wf (other := .array a) dy dx (hs (by simp)) .add (fun _ _ => rfl) (fun x y => x + y) homog_add
          true (q.radd w (.array a)) rfl).2.2 m hm
        exact ⟨this.2.1, fun v => ⟨_, this.2.2 v, NDArr.Same.refl _⟩⟩
      | sub =>
        have := (sumLike_spec hw.wf (other := .array a) dy dx (hs (by simp)) .subtract (fun _ _ => rfl) (fun x y => x - y) homog_sub
          true (q.rsub w (.array a)) rfl).2.2 m hm
        exact ⟨this.2.1, fun v => ⟨_, this.2.2 v, NDArr.Same.refl _⟩⟩
      | mod => exact rmod_phys dy hm
      | mul =>
        have := (C14_rmul q (.array a) dy dx).2 m hm
        exact ⟨this.1, fun v => ⟨_, this.2.2 v, NDArr.Same.refl _⟩⟩
      | truediv =>
        have := (C14_rtruediv q (.array a) dy dx).2 m hm
        exact ⟨this.1, fun v => ⟨_, this.2.2 v, NDArr.Same.refl _⟩⟩
      | floordiv => exact absurd rfl hop

omit [IsStrictOrderedRing K] [LawfulRPow K] [PyFloor K] in
theorem map_same {α β : Type _} (f : α → β) {a b : NDArr α} (hs : NDArr.Same a b) :
    NDArr.Same (a.map f) (b.map f) :=
  ⟨hs.1, fun i hi => congrArg f (hs.2 i hi)⟩

theorem bidx_self {s i : List Nat} (hi : NDArr.InB s i) : NDArr.bidx s i = i := by
  have hl : s.length = i.length := by simpa using hi.length_eq.symm
  unfold NDArr.bidx
  rw [← hl, Nat.sub_self, List.drop_zero]
  clear hl
  induction hi with
  | nil => rfl
  | @cons a b l₁ l₂ hab _ ih =>
    rw [List.zipWith_cons_cons, ih]
    congr 1
    split <;> omega

theorem bin_scalar_right {α β γ : Type _} (f : α → β → γ) (a : NDArr α) (p : β) :
    ∃ m, NDArr.bin f a (NDArr.scalar p) = .ok m ∧ NDArr.Same m (a.map (fun x => f x p)) := by
  have hsh : NDArr.bshape a.shape [] = some a.shape := by
    rw [NDArr.bshape_comm]; simp [NDArr.bshape, NDArr.bshapeRev]
  refine ⟨⟨a.shape, fun i => f (a.elem (NDArr.bidx a.shape i)) p⟩, ?_, rfl, fun i hi => ?_⟩
  · unfold NDArr.bin; simp only [NDArr.scalar, hsh]
  · show f (a.elem (NDArr.bidx a.shape i)) p = f (a.elem i) p
    rw [bidx_self hi]

theorem powNum_phys {p : ℚ} {x r : PyVal K} (hx : x.Exact) (dx : DimOK w x.dim)
    (hp : LiteralPower x.mag p) (hr : powNum w p x = .ok r) :
    DimOK w r.dim ∧ ∀ v : Valuation w, NDArr.Same ((x.phys v).map (fun y => rpow y p)) (r.phys v) := by
  have key : ∀ q m : Quantity K, DimOK w q.dim → LiteralPower q.mag p → q.pow (expOf p) = .ok m →
      DimOK w m.dim ∧ ∀ v : Valuation w, NDArr.Same ((v.phys q).map (fun y => rpow y p)) (v.phys m) := by
    intro q m hq hp hm
    obtain ⟨p', h1, -, h3, -, h5⟩ := C15_pow q m (expOf p) hq hm
    have : p = p' := h1 [] (by simp [expOf, NDArr.scalar, NDArr.InB])
    subst this
    refine ⟨h3, fun v => ?_⟩
    obtain ⟨m1, e1, s1⟩ := h5 hp v
    obtain ⟨m2, e2, s2⟩ := bin_scalar_right (fun (x : K) (q : ℚ) => rpow x q) (v.phys q) p
    have : m1 = m2 := by
      have e1' : NDArr.bin (fun (x : K) (q : ℚ) => rpow x q) (v.phys q) (NDArr.scalar p) = .ok m1 := e1
      rw [e2] at e1'
      simpa using e1'.symm
    subst this
    exact s2.symm.trans s1
  cases x with
  | uncertain a => exact hx.elim
  | unit u =>
    simp only [powNum] at hr
    obtain ⟨m, hm, rfl⟩ := map_ok hr
    exact key _ m dx hp hm
  | quantity q =>
    simp only [powNum] at hr
    obtain ⟨m, hm, rfl⟩ := map_ok hr
    exact key _ m dx hp hm
  | array a =>
    simp only [powNum, Except.ok.injEq] at hr
    subst hr
    refine ⟨DimOK.nil w, fun v => ?_⟩
    rw [phys_array, phys_array]
    exact NDArr.Same.refl _

/-- C56: an expression of any size, with units, quantities and plain numbers or arrays on either side
of `+`, `-`, `*`, `/`, `%` and powers, denotes what the expression of the physical values denotes. -/
theorem C56_expression (hw : Reachable h w) : ∀ (e : Expr K) (r : PyVal K), e.Exact → e.Good w →
    e.eval w = .ok r → DimOK w r.dim ∧ ∀ v : Valuation w,
      ∃ m, e.physical v = .ok m ∧ NDArr.Same m (r.phys v)
  | .val x, r, _, hg, hr => by
      simp only [Expr.eval, Except.ok.injEq] at hr; subst hr
      exact ⟨hg, fun v => ⟨_, rfl, NDArr.Same.refl _⟩⟩
  | .bin op a b, r, he, hg, hr => by
      simp only [Expr.eval] at hr
      rcases ha : a.eval w with e | x
      · rw [ha] at hr; exact absurd hr (by simp [bind, Except.bind])
      rcases hb : b.eval w with e | y
      · rw [ha, hb] at hr; exact absurd hr (by simp [bind, Except.bind])
      rw [ha, hb] at hr
      obtain ⟨ga, gb, gop, gs⟩ := hg
      obtain ⟨dx, px⟩ := C56_expression hw a x he.1 ga ha
      obtain ⟨dy, py⟩ := C56_expression hw b y he.2 gb hb
      obtain ⟨dr, pr⟩ := binop_phys hw gop (eval_exact he.1 ha) (eval_exact he.2 hb) dx dy
        (fun hs => gs hs x y ha hb) hr
      refine ⟨dr, fun v => ?_⟩
      obtain ⟨mx, ex, sx⟩ := px v
      obtain ⟨my, ey, sy⟩ := py v
      obtain ⟨m, em, sm⟩ := pr v
      obtain ⟨m', em', sm'⟩ := NDArr.bin_congr_same op.fn sx.symm sy.symm em
      refine ⟨m', ?_, sm'.symm.trans sm⟩
      simp only [Expr.physical, ex, ey, bind, Except.bind]
      cases op <;> exact em'
  | .pow a p, r, he, hg, hr => by
      simp only [Expr.eval] at hr
      rcases ha : a.eval w with e | x
      · rw [ha] at hr; exact absurd hr (by simp [bind, Except.bind])
      rw [ha] at hr
      obtain ⟨dx, px⟩ := C56_expression hw a x he hg.1 ha
      obtain ⟨dr, pr⟩ := powNum_phys (eval_exact (e := a) he ha) dx (hg.2 x ha) hr
      refine ⟨dr, fun v => ?_⟩
      obtain ⟨mx, ex, sx⟩ := px v
      refine ⟨mx.map (fun y => rpow y p), ?_, (map_same _ sx).trans (pr v)⟩
      simp only [Expr.physical, ex, bind, Except.bind, pure, Except.pure]

/-! ## Returning -/

omit [IsStrictOrderedRing K] [LawfulRPow K] [PyFloor K] in
theorem returns_map {α β : Type _} (f : α → β) (x : Py α) : Returns (x.map f) ↔ Returns x := by
  cases x with
  | error e => exact ⟨fun h => absurd h (not_returns_error _), fun h => absurd h (not_returns_error _)⟩
  | ok a => exact ⟨fun _ => returns_ok _, fun _ => returns_ok _⟩

/-- C56: a sum or difference returns exactly when the units of the two operands are compatible (a
plain operand counting as dimensionless) and the shapes broadcast, whatever their classes; a product
or quotient whenever the shapes broadcast.  So the order of the operands does not matter. -/
theorem C56_returns (hw : Reachable h w) (x y : PyVal K) (hx : x.Exact) (hy : y.Exact)
    (dx : DimOK w x.dim) (dy : DimOK w y.dim) :
    (HashSafe w x.dim y.dim → ∀ op, op = .add ∨ op = .sub → (Returns (binop w op x y) ↔
      Compatible w x.dim y.dim ∧ (NDArr.bshape x.mag.shape y.mag.shape).isSome)) ∧
    (∀ op, op = .mul ∨ op = .truediv → (Returns (binop w op x y) ↔
      (NDArr.bshape x.mag.shape y.mag.shape).isSome)) := by
  have hmx : x.oneOf.mag = x.mag := by cases x <;> rfl
  have hmy : y.oneOf.mag = y.mag := by cases y <;> rfl
  rw [← hmx, ← hmy, ← oneOf_dim x, ← oneOf_dim y]
  rw [← oneOf_dim x] at dx
  rw [← oneOf_dim y] at dy
  have hb : ∀ op, binop w op x y = binop w op x.oneOf y.oneOf := fun op => C56_unit_is_one w op x y hx hy
  simp only [hb]
  have ex : x.oneOf.Exact ∧ ∀ u, x.oneOf ≠ .unit u := by
    cases x <;> simp_all [PyVal.oneOf, PyVal.Exact]
  have ey : y.oneOf.Exact ∧ ∀ u, y.oneOf ≠ .unit u := by
    cases y <;> simp_all [PyVal.oneOf, PyVal.Exact]
  clear hb hmx hmy
  generalize x.oneOf = x at *
  generalize y.oneOf = y at *
  have left : ∀ (q : Quantity K) (o : Operand K), DimOK w q.dim → DimOK w o.dim →
      (HashSafe w q.dim o.dim → ∀ op, op = .add ∨ op = .sub → (Returns (q.method w op o) ↔
        Compatible w q.dim o.dim ∧ (NDArr.bshape q.mag.shape o.arr.shape).isSome)) ∧
      (∀ op, op = .mul ∨ op = .truediv → (Returns (q.method w op o) ↔
        (NDArr.bshape q.mag.shape o.arr.shape).isSome)) := by
    intro q o hq ho
    have hc : Compatible w o.dim q.dim ↔ Compatible w q.dim o.dim :=
      ⟨compatible_symm hw.wf, compatible_symm hw.wf⟩
    refine ⟨fun hs op hop => ?_, fun op hop => ?_⟩
    · rcases hop with rfl | rfl
      · have := (C13_add hw q o hq ho hs.symm).1
        rw [hc] at this; exact this
      · have := (C13_sub hw q o hq ho hs.symm).1
        rw [hc] at this; exact this
    · rcases hop with rfl | rfl
      · exact (C14_mul q o hq ho).1
      · exact (C14_truediv q o hq ho).1
  cases x with
  | uncertain a => exact ex.1.elim
  | unit u => exact absurd rfl (ex.2 u)
  | quantity q =>
    cases y with
    | uncertain a => exact ey.1.elim
    | unit u => exact absurd rfl (ey.2 u)
    | quantity q' =>
      have := left q (.quantity q') dx dy
      exact ⟨fun hs op hop => (returns_map _ _).trans (this.1 hs op hop),
        fun op hop => (returns_map _ _).trans (this.2 op hop)⟩
    | array a =>
      have := left q (.array a) dx dy
      exact ⟨fun hs op hop => (returns_map _ _).trans (this.1 hs op hop),
        fun op hop => (returns_map _ _).trans (this.2 op hop)⟩
  | array a =>
    cases y with
    | uncertain a => exact ey.1.elim
    | unit u => exact absurd rfl (ey.2 u)
    | array b =>
      have hr : ∀ op : BinOp, Returns (binop w op (.array a) (.array b)) ↔
          (NDArr.bshape a.shape b.shape).isSome := fun op =>
        (returns_map _ _).trans (NDArr.bin_ok_iff _ a b)
      refine ⟨fun _ op _ => ?_, fun op _ => hr op⟩
      rw [hr op]
      exact ⟨fun h => ⟨compatible_refl _ _, h⟩, fun h => h.2⟩
    | quantity q =>
      refine ⟨fun hs op hop => (returns_map _ _).trans ?_, fun op hop => (returns_map _ _).trans ?_⟩
      · have hb : NDArr.bshape q.mag.shape a.shape = NDArr.bshape a.shape q.mag.shape := NDArr.bshape_comm _ _
        rcases hop with rfl | rfl
        · have := (C13_radd hw q (.array a) dy dx hs).1
          simp only [Operand.arr] at this
          rw [hb] at this; exact this
        · have := (C13_rsub hw q (.array a) dy dx hs).1
          simp only [Operand.arr] at this
          rw [hb] at this; exact this
      · rcases hop with rfl | rfl
        · exact (C14_rmul q (.array a) dy dx).1
        · exact (C14_rtruediv q (.array a) dy dx).1

/-! ## Comparisons -/

omit [Field K] [LinearOrder K] [IsStrictOrderedRing K] [RPow K] [LawfulRPow K] [PyFloor K] in
theorem bin_swap {α β γ : Type _} (f : α → β → γ) (a : NDArr α) (b : NDArr β) :
    NDArr.bin (fun y x => f x y) b a = NDArr.bin f a b := by
  unfold NDArr.bin
  rw [NDArr.bshape_comm]

/-- The operand has units: it is not a plain number or array. -/
def PyVal.HasUnits : PyVal K → Prop
  | .array _ => False
  | _ => True

/-- A comparison of two quantities as numpy does it. -/
theorem cmp_quantity (hw : Reachable h w) (op : CmpOp) (a b : Quantity K) (ha : DimOK w a.dim)
    (hb : DimOK w b.dim) (hs : HashSafe w b.dim a.dim) :
    (Compatible w b.dim a.dim → ∀ v : Valuation w,
      a.cmp w op (.quantity b) = NDArr.bin op.fn (v.phys a) (v.phys b)) ∧
    (¬ Compatible w b.dim a.dim →
      match op with
      | .eq => ∃ m, a.cmp w op (.quantity b) = .ok m ∧ m.shape = a.mag.shape ∧ NDArr.All (· = false) m
      | .ne => ∃ m, a.cmp w op (.quantity b) = .ok m ∧ m.shape = a.mag.shape ∧ NDArr.All (· = true) m
      | _ => a.cmp w op (.quantity b) = .error .valueError) := by
  have ord : ∀ (res : Py (NDArr Bool)) (f : K → K → Bool),
      ((Returns res ↔ Compatible w b.dim a.dim ∧ (NDArr.bshape a.mag.shape b.mag.shape).isSome) ∧
      (∀ e, res = .error e → e = .valueError) ∧
      (∀ m, res = .ok m → ∀ v : Valuation w, NDArr.bin f (v.phys a) (v.phys b) = .ok m)) →
      (Compatible w b.dim a.dim → ∀ v : Valuation w, res = NDArr.bin f (v.phys a) (v.phys b)) ∧
      (¬ Compatible w b.dim a.dim → res = .error .valueError) := by
    rintro res f ⟨h1, h2, h3⟩
    refine ⟨fun hc v => ?_, fun hc => ?_⟩
    · rcases hres : res with e | m
      · have hns : ¬ (NDArr.bshape a.mag.shape b.mag.shape).isSome := fun hb' => by
          have := h1.2 ⟨hc, hb'⟩
          rw [hres] at this; exact not_returns_error _ this
        rw [h2 e hres]
        unfold NDArr.bin
        show _ = match NDArr.bshape a.mag.shape b.mag.shape with | some s => _ | none => _
        rcases hsh : NDArr.bshape a.mag.shape b.mag.shape with _ | s
        · rfl
        · rw [hsh] at hns; exact absurd rfl hns
      · exact (h3 m hres v).symm
    · rcases hres : res with e | m
      · rw [h2 e hres]
      · exact absurd (h1.1 ⟨m, hres⟩).1 hc
  cases op with
  | lt => exact ord _ _ (C17_lt hw a b ha hb hs)
  | le => exact ord _ _ (C17_le hw a b ha hb hs)
  | gt => exact ord _ _ (C17_gt hw a b ha hb hs)
  | ge => exact ord _ _ (C17_ge hw a b ha hb hs)
  | eq => exact ⟨fun hc v => (C17_eq_compatible hw a b ha hb hs hc v).1,
      fun hc => (C17_eq_incompatible hw a b ha hb hs hc).1⟩
  | ne => exact ⟨fun hc v => (C17_eq_compatible hw a b ha hb hs hc v).2,
      fun hc => (C17_eq_incompatible hw a b ha hb hs hc).2⟩

theorem swap_fn (op : CmpOp) (x y : K) : op.swap.fn y x = op.fn x y := by
  cases op <;> simp [CmpOp.swap, CmpOp.fn, eq_comm]

/-- C56: whichever method Python picks, a comparison between units and quantities compares the
physical values; for incompatible units the orderings raise `ValueError`, `==` is false everywhere and
`!=` is true everywhere. -/
theorem C56_comparison (hw : Reachable h w) (op : CmpOp) (x y : PyVal K) (hx : x.HasUnits)
    (hy : y.HasUnits) (dx : DimOK w x.dim) (dy : DimOK w y.dim) (hs : HashSafe w x.dim y.dim) :
    (Compatible w x.dim y.dim → ∀ v : Valuation w,
      compareOp w op x y = NDArr.bin op.fn (x.phys v) (y.phys v)) ∧
    (¬ Compatible w x.dim y.dim →
      match op with
      | .eq => ∃ m, compareOp w op x y = .ok m ∧ NDArr.All (· = false) m
      | .ne => ∃ m, compareOp w op x y = .ok m ∧ NDArr.All (· = true) m
      | _ => compareOp w op x y = .error .valueError) := by
  have hq : ∀ z : PyVal K, z.HasUnits → ∃ q : Quantity K, z.op = .quantity q ∧ q.dim = z.dim ∧
      ∀ v : Valuation w, v.phys q = z.phys v := by
    intro z hz
    cases z with
    | array a => exact hz.elim
    | unit u => exact ⟨_, rfl, rfl, fun v => rfl⟩
    | quantity q => exact ⟨_, rfl, rfl, fun v => rfl⟩
    | uncertain a => exact ⟨_, rfl, rfl, fun v => rfl⟩
  obtain ⟨a, ea, da, pa⟩ := hq x hx
  obtain ⟨b, eb, db, pb⟩ := hq y hy
  rw [← da] at dx hs ⊢
  rw [← db] at dy hs ⊢
  simp only [← pa, ← pb]
  by_cases hsub : subclassRight x y = true
  · have e : compareOp w op x y = b.cmp w op.swap (.quantity a) := by
      unfold compareOp
      simp only [hsub, if_true, ea, eb]
    rw [e]
    obtain ⟨c1, c2⟩ := cmp_quantity hw op.swap b a dy dx hs
    refine ⟨fun hc v => ?_, fun hc => ?_⟩
    · rw [c1 hc v, ← bin_swap]
      congr 1
      funext y x
      exact (swap_fn op y x)
    · have := c2 hc
      cases op with
      | eq => obtain ⟨m, h1, -, h2⟩ := this; exact ⟨m, h1, h2⟩
      | ne => obtain ⟨m, h1, -, h2⟩ := this; exact ⟨m, h1, h2⟩
      | lt => exact this
      | le => exact this
      | gt => exact this
      | ge => exact this
  · have e : compareOp w op x y = a.cmp w op (.quantity b) := by
      unfold compareOp
      simp only [hsub, if_false, ea, eb]
      rfl
    rw [e]
    obtain ⟨c1, c2⟩ := cmp_quantity hw op a b dx dy hs.symm
    have hcc : Compatible w a.dim b.dim ↔ Compatible w b.dim a.dim :=
      ⟨compatible_symm hw.wf, compatible_symm hw.wf⟩
    rw [hcc]
    refine ⟨c1, fun hc => ?_⟩
    have := c2 hc
    cases op with
    | eq => obtain ⟨m, h1, -, h2⟩ := this; exact ⟨m, h1, h2⟩
    | ne => obtain ⟨m, h1, -, h2⟩ := this; exact ⟨m, h1, h2⟩
    | lt => exact this
    | le => exact this
    | gt => exact this
    | ge => exact this

/-! ## Uncertain operands -/

/-- C85: an uncertain quantity can be multiplied by a quantity, number or array on either side, with
the same result; it denotes the product of the measurements. -/
theorem C85_uncertain_times_partial (hw : Reachable h w) (a : UQ K) (o : Operand K) (x : PyVal K)
    (hx : x = match o with | .quantity q => .quantity q | .array b => .array b)
    (ha : UQ.Built w a) (ho : DimOK w o.dim) :
    binop w .mul x (.uncertain a) = binop w .mul (.uncertain a) x ∧
    ∀ r, binop w .mul x (.uncertain a) = .ok r → ∃ b, r = .uncertain b ∧
      ∀ v : Valuation w, Elementwise IsProduct (v.meas a) (v.measOp (.plain o)) (v.meas b) := by
  have e1 : binop w .mul (.uncertain a) x = (a.mul w (.plain o)).map .uncertain := by
    subst hx; cases o <;> rfl
  have e2 : binop w .mul x (.uncertain a) = (a.mul w (.plain o)).map .uncertain := by
    subst hx; cases o <;> rfl
  refine ⟨e2.trans e1.symm, fun r hr => ?_⟩
  rw [e2] at hr
  obtain ⟨b, hb, rfl⟩ := map_ok hr
  exact ⟨b, rfl, ((C39_times_exact hw a o ha ho).2.2 b hb).2⟩

omit [IsStrictOrderedRing K] [LawfulRPow K] in
/-- With a unit on the left the method of `Quantity` runs, and whatever the uncertainty was, that of
the result is zero, and without units. -/
theorem unit_left_loses (op : BinOp) (u : UKey) (a : UQ K) (r : PyVal K)
    (w : World K) (hr : binop w op (.unit u) (.uncertain a) = .ok r) :
    ∃ b, r = .uncertain b ∧ b.unc.dim = [] ∧ ∀ i, b.unc.mag.elem i = 0 := by
  simp only [binop] at hr
  obtain ⟨b, hb, rfl⟩ := map_ok hr
  refine ⟨b, rfl, ?_⟩
  unfold Quantity.methodUncertain at hb
  rcases h1 : (Quantity.ofUnit u : Quantity K).scaleUncertain w op a with e | o
  · rw [h1] at hb; exact absurd hb (by simp [bind, Except.bind])
  rw [h1] at hb
  rcases h2 : applyUF2 w op.uf op.fn (.quantity (Quantity.ofUnit u)) (.quantity o.val) with e | q
  · simp only [bind, Except.bind, h2] at hb; exact absurd hb (by simp)
  · simp only [bind, Except.bind, h2, pure, Except.pure, Except.ok.injEq] at hb
    subst hb
    exact ⟨rfl, fun i => rfl⟩

end physical

/-! ## Witnesses and concrete cases -/

/-- C85 is false for uncertain operands: `pq.m * UncertainQuantity(500, 'm', 50)` has uncertainty zero
without units, while `UncertainQuantity(500, 'm', 50) * pq.m` keeps it. -/
theorem C85_false_unit_left : UQ.Built exWorld exUM ∧
    (∃ b, binop exWorld .mul (.unit uM) (.uncertain exUM) = .ok (.uncertain b) ∧
      b.unc.mag.elem [] = 0 ∧ b.unc.dim = []) ∧
    (∃ b, binop exWorld .mul (.uncertain exUM) (.unit uM) = .ok (.uncertain b) ∧
      b.unc.mag.elem [] ≠ 0) := by
  refine ⟨exUM_built, ⟨_, rfl, rfl, rfl⟩, ?_⟩
  have hspec := C39_times_exact exWorld_reachable exUM (.quantity (Quantity.ofUnit uM)) exUM_built
    (ex_dimOK dM (by simp))
  obtain ⟨b, hb⟩ := hspec.1.2 rfl
  refine ⟨b, ?_, fun hz => ?_⟩
  · have e : binop exWorld .mul (.uncertain exUM) (.unit uM) =
        (exUM.mul exWorld (.plain (.quantity (Quantity.ofUnit uM)))).map .uncertain := by
      simp only [binop, UQ.method]
    rw [e, hb]; rfl
  · obtain ⟨v⟩ := exists_valuation exWorld_wf
    obtain ⟨hsh, hm⟩ := (hspec.2.2 b hb).2 v
    have hshb : (v.meas b).shape = [] := by
      have h0 : NDArr.bshape [] [] = some (v.meas b).shape := hsh
      simpa [NDArr.bshape, NDArr.bshapeRev] using h0.symm
    have h1 := (hm [] (by rw [hshb]; simp [NDArr.InB])).1.2
    have h2 : ((v.meas b).elem []).sigma = 0 := by
      show b.unc.mag.elem [] * _ = 0
      rw [hz, zero_mul]
    rw [h2] at h1
    have hp := v.size_pos dM
    have h3 : (0 : ℝ) ^ 2 = (1 * v.size dM * (50 * v.size dM)) ^ 2 +
        (500 * v.size dM * 0) ^ 2 := h1
    have : 0 < 1 * v.size dM * (50 * v.size dM) := by positivity
    nlinarith [pow_pos this 2]

/-- C85 is false for `==` with incompatible units: `q == pq.s` for an array `q` of lengths is a single
`False`, `q == 1*pq.s` an array of them. -/
theorem C85_false_eq_shape (q : Quantity ℝ) (hq : q.dim = dKm) (hq2 : q.mag.shape = [2]) :
    (∃ m, compareOp exWorld .eq (.quantity q) (.unit uS) = .ok m ∧ m.shape = []) ∧
    (∃ m, compareOp exWorld .eq (.quantity q) (PyVal.unit uS).oneOf = .ok m ∧ m.shape = [2]) := by
  have d1 : DimOK exWorld q.dim := by rw [hq]; exact ex_dimOK _ (by simp)
  have d2 : DimOK exWorld dS := ex_dimOK _ (by simp)
  have hs : HashSafe exWorld q.dim dS := by rw [hq]; exact ex_safe_km_s
  have hc : ¬ Compatible exWorld q.dim dS := by rw [hq]; exact ex_incompat
  have hc' : ¬ Compatible exWorld dS q.dim := fun h => hc (compatible_symm exWorld_wf h)
  refine ⟨?_, ?_⟩
  · obtain ⟨m, h1, h2, -⟩ := (C17_eq_incompatible exWorld_reachable (Quantity.ofUnit uS) q d2 d1 hs hc).1
    exact ⟨m, h1, h2⟩
  · obtain ⟨m, h1, h2, -⟩ := (C17_eq_incompatible exWorld_reachable q (Quantity.ofUnit uS) d1 d2 hs.symm hc').1
    exact ⟨m, h1, h2.trans hq2⟩

/-- `3 * ([2, 5] km + m) ** 2`. -/
noncomputable def exExpr : Expr ℝ :=
  .bin .mul (.val (.array (NDArr.scalar 3)))
    (.pow (.bin .add (.val (.quantity ⟨⟨[2], fun i => if i = [0] then 2 else 5⟩, dKm⟩)) (.val (.unit uM))) 2)

/-- The expression evaluates, and denotes the physical one. -/
example : exExpr.Exact ∧ exExpr.Good exWorld ∧ ∃ r, exExpr.eval exWorld = .ok r ∧
    ∀ v : Valuation exWorld, ∃ m, exExpr.physical v = .ok m ∧ NDArr.Same m (r.phys v) := by
  have hE : exExpr.Exact := ⟨trivial, trivial, trivial⟩
  have hG : exExpr.Good exWorld := by
    refine ⟨DimOK.nil _, ⟨⟨ex_dimOK dKm (by simp), ex_dimOK dM (by simp), by simp, fun _ x y hx hy => ?_⟩,
      fun x _ => .inr (.inl ⟨2, by norm_num⟩)⟩, by simp, fun hop => by simp at hop⟩
    simp only [Expr.eval, Except.ok.injEq] at hx hy
    subst hx; subst hy
    exact ex_safe_km_m
  refine ⟨hE, hG, ?_⟩
  have h1 : Returns (binop exWorld .add (.quantity ⟨⟨[2], fun i => if i = [0] then (2 : ℝ) else 5⟩, dKm⟩) (.unit uM)) :=
    ((C56_returns exWorld_reachable (.quantity ⟨⟨[2], fun i => if i = [0] then (2 : ℝ) else 5⟩, dKm⟩) (.unit uM)
      trivial trivial (ex_dimOK dKm (by simp)) (ex_dimOK dM (by simp))).1 ex_safe_km_m .add (.inl rfl)).2
      ⟨ex_compat, rfl⟩
  obtain ⟨x, hx⟩ := h1
  obtain ⟨q, hq, rfl⟩ := map_ok hx
  obtain ⟨s, hs⟩ := (C15_pow_returns q).2.2 2
  have h2 : binop exWorld .mul (.array (NDArr.scalar 3)) (.quantity s) =
      (s.rmul exWorld (.array (NDArr.scalar 3))).map .quantity := rfl
  have hR : Returns (exExpr.eval exWorld) := by
    unfold exExpr
    simp only [Expr.eval, bind, Except.bind, hx, powNum, expOf, hs, Except.map, h2]
    have : Returns (s.rmul exWorld (.array (NDArr.scalar 3))) := by
      rw [(C14_rmul s (.array (NDArr.scalar 3)) _ (DimOK.nil _)).1]
      · show (NDArr.bshape [] s.mag.shape).isSome
        simp [NDArr.bshape, NDArr.bshapeRev]
      · have := (binop_phys exWorld_reachable (op := .add)
          (x := .quantity ⟨⟨[2], fun i => if i = [0] then (2 : ℝ) else 5⟩, dKm⟩) (y := .unit uM) (by simp) trivial trivial
          (ex_dimOK dKm (by simp)) (ex_dimOK dM (by simp)) (fun _ => ex_safe_km_m) hx).1
        exact (C15_pow (w := exWorld) q s _ this hs).choose_spec.2.2.1
    obtain ⟨t, ht⟩ := this
    rw [ht]; exact returns_ok _
  obtain ⟨r, hr⟩ := hR
  exact ⟨r, hr, (C56_expression exWorld_reachable exExpr r hE hG hr).2⟩

/-- Comparing kilometre and metre objects. -/
example : ∀ v : Valuation exWorld, compareOp exWorld .lt (.unit uM) (.unit uKm) =
    NDArr.bin (CmpOp.lt).fn ((PyVal.unit uM).phys v) ((PyVal.unit uKm).phys v) :=
  (C56_comparison exWorld_reachable .lt (.unit uM) (.unit uKm) trivial trivial (ex_dimOK dM (by simp))
    (ex_dimOK dKm (by simp)) ex_safe_m_km).1 (compatible_symm exWorld_wf ex_compat)

end PQ
