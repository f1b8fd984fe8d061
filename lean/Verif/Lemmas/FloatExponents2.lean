import Verif.Lemmas.FloatExponents

/-! # Lemmas about dimensionalities with Python numbers as exponents -/

namespace PQ
open Dict

namespace NDim

/-- The common form of the steps of products and quotients. -/
def step (op : PyExp → PyExp → PyExp) (g : PyExp → PyExp) (new : NDim) (kv : UKey × PyExp) : NDim :=
  match Dict.get? new kv.1 with
  | some e =>
      let new := Dict.set new kv.1 (op e kv.2)
      if (op e kv.2).val = 0 then Dict.pop new kv.1 else new
  | none => Dict.set new kv.1 (g kv.2)

/-- What a step makes of the entries for one unit. -/
def comb (op : PyExp → PyExp → PyExp) (g : PyExp → PyExp) : Option PyExp → Option PyExp → Option PyExp
  | some x, some y => if (op x y).val = 0 then none else some (op x y)
  | some x, none => some x
  | none, some y => some (g y)
  | none, none => none

variable {op : PyExp → PyExp → PyExp} {g : PyExp → PyExp}

theorem nodup_step {d : NDim} (hd : Nodup d) (kv : UKey × PyExp) : Nodup (step op g d kv) := by
  unfold step
  rcases hg : get? d kv.1 with _ | e
  · exact nodup_set hd _ _
  · simp only; split
    · exact nodup_pop (nodup_set hd _ _) _
    · exact nodup_set hd _ _

theorem get?_step {d : NDim} (hd : Nodup d) (kv : UKey × PyExp) (u : UKey) :
    get? (step op g d kv) u = if kv.1 = u then comb op g (get? d u) (some kv.2) else get? d u := by
  unfold step
  rcases hg : get? d kv.1 with _ | e
  · rw [get?_set]
    by_cases h : kv.1 = u
    · subst h; rw [if_pos rfl, if_pos rfl, hg]; rfl
    · rw [if_neg h, if_neg h]
  · simp only
    by_cases h0 : (op e kv.2).val = 0
    · rw [if_pos h0, get?_pop (nodup_set hd _ _)]
      by_cases h : kv.1 = u
      · subst h; rw [if_pos rfl, if_pos rfl, hg]; simp only [comb]; rw [if_pos h0]
      · rw [if_neg h, if_neg h, get?_set, if_neg h]
    · rw [if_neg h0, get?_set]
      by_cases h : kv.1 = u
      · subst h; rw [if_pos rfl, if_pos rfl, hg]; simp only [comb]; rw [if_neg h0]
      · rw [if_neg h, if_neg h]

theorem comb_none (x : Option PyExp) : comb op g x none = x := by cases x <;> rfl

theorem nodup_fold {a : NDim} (ha : Nodup a) (b : NDim) : Nodup (b.foldl (step op g) a) := by
  induction b generalizing a with
  | nil => simpa
  | cons kv b ih => exact ih (nodup_step ha kv)

theorem get?_fold {a b : NDim} (ha : Nodup a) (hb : Nodup b) (u : UKey) :
    get? (b.foldl (step op g) a) u = comb op g (get? a u) (get? b u) := by
  induction b generalizing a with
  | nil => rw [List.foldl_nil, get?_nil, comb_none]
  | cons kv b ih =>
    obtain ⟨k, v⟩ := kv
    have hb' : k ∉ b.map Prod.fst ∧ Nodup b := List.nodup_cons.mp hb
    rw [List.foldl_cons, ih (nodup_step ha _) hb'.2, get?_step ha, get?_cons]
    by_cases h : k = u
    · subst h
      rw [if_pos rfl, if_pos rfl, (get?_eq_none_iff b k).mpr hb'.1, comb_none]
    · rw [if_neg h, if_neg h]

theorem mul_eq (a b : NDim) : mul a b = b.foldl (step PyExp.add id) a := rfl
theorem div_eq (a b : NDim) : div a b = b.foldl (step PyExp.sub PyExp.neg) a := rfl

theorem get?_mul {a b : NDim} (ha : Nodup a) (hb : Nodup b) (u : UKey) :
    get? (mul a b) u = comb PyExp.add id (get? a u) (get? b u) := by rw [mul_eq]; exact get?_fold ha hb u
theorem get?_div {a b : NDim} (ha : Nodup a) (hb : Nodup b) (u : UKey) :
    get? (div a b) u = comb PyExp.sub PyExp.neg (get? a u) (get? b u) := get?_fold ha hb u
theorem nodup_mul {a : NDim} (ha : Nodup a) (b : NDim) : Nodup (mul a b) := by rw [mul_eq]; exact nodup_fold ha b
theorem nodup_div {a : NDim} (ha : Nodup a) (b : NDim) : Nodup (div a b) := nodup_fold ha b

theorem get?_map (d : NDim) (f : PyExp → PyExp) (u : UKey) :
    get? (d.map (fun kv => (kv.1, f kv.2))) u = (get? d u).map f := by
  induction d with
  | nil => rfl
  | cons kv d ih =>
    obtain ⟨k, v⟩ := kv
    rw [List.map_cons, get?_cons, get?_cons]
    by_cases h : k = u
    · rw [if_pos h, if_pos h]; rfl
    · rw [if_neg h, if_neg h, ih]

theorem get?_pow (d : NDim) {p : PyExp} (hp : p.val ≠ 0) (u : UKey) :
    get? (pow d p) u = (get? d u).map (fun v => v.mul p) := by
  unfold pow; rw [if_neg hp]; exact get?_map d (fun v => v.mul p) u

theorem nodup_pow {d : NDim} (hd : Nodup d) (p : PyExp) : Nodup (pow d p) := by
  unfold pow
  split
  · simp [Nodup]
  · unfold Nodup at *; rw [List.map_map]; exact hd

theorem get?_exact (d : NDim) (u : UKey) : get? (exact d) u = (get? d u).map PyExp.val := by
  unfold exact
  induction d with
  | nil => rfl
  | cons kv d ih =>
    obtain ⟨k, v⟩ := kv
    rw [List.map_cons, get?_cons, get?_cons]
    by_cases h : k = u
    · rw [if_pos h, if_pos h]; rfl
    · rw [if_neg h, if_neg h, ih]

theorem nodup_exact {d : NDim} (hd : Nodup d) : Nodup (exact d) := by
  unfold Nodup exact at *; rw [List.map_map]; exact hd

theorem expo_exact (d : NDim) (u : UKey) : PQ.expo (exact d) u = expo d u := by
  unfold PQ.expo expo; rw [get?_exact]

/-- No unit twice and no exponent zero. -/
def Clean (d : NDim) : Prop := Nodup d ∧ ∀ u v, get? d u = some v → v.val ≠ 0

theorem Clean.canon {d : NDim} (h : Clean d) : Canon (exact d) := by
  refine ⟨nodup_exact h.1, ?_⟩
  intro kv hkv
  obtain ⟨kv', hm, rfl⟩ := List.mem_map.mp hkv
  exact h.2 _ _ (get?_of_mem h.1 hm)

/-- Unordered content with all exponents doubles. -/
def Ord (d : NDim) : Prop := ∀ u v, get? d u = some v → v.Ordinary

theorem expo_some {d : NDim} {u : UKey} {v : PyExp} (h : get? d u = some v) : expo d u = v.val := by
  rw [expo, h]; rfl
theorem expo_none {d : NDim} {u : UKey} (h : get? d u = none) : expo d u = 0 := by
  rw [expo, h]; rfl

/-- Products without rounding. -/
theorem mul_exact {a b : NDim} (ha : Clean a) (hb : Clean b)
    (h : ∀ u x y, get? a u = some x → get? b u = some y → (x.add y).val = x.val + y.val) :
    Clean (mul a b) ∧ ∀ u, expo (mul a b) u = expo a u + expo b u := by
  have key := fun u => get?_mul ha.1 hb.1 u
  refine ⟨⟨nodup_mul ha.1 b, ?_⟩, ?_⟩
  · intro u v hv
    rw [key u] at hv
    rcases hx : get? a u with _ | x <;> rcases hy : get? b u with _ | y <;> rw [hx, hy] at hv <;>
      simp only [comb] at hv
    · cases hv
    · cases hv; exact hb.2 u _ hy
    · cases hv; exact ha.2 u _ hx
    · split at hv
      · cases hv
      · rename_i h0; cases hv; exact h0
  · intro u
    unfold expo
    rw [key u]
    rcases hx : get? a u with _ | x <;> rcases hy : get? b u with _ | y <;> simp only [comb]
    · simp
    · simp
    · simp
    · have := h u x y hx hy
      split
      · rename_i h0; rw [h0] at this; simpa using this
      · simpa using this

/-- Quotients without rounding. -/
theorem div_exact {a b : NDim} (ha : Clean a) (hb : Clean b)
    (h : ∀ u x y, get? a u = some x → get? b u = some y → (x.sub y).val = x.val - y.val) :
    Clean (div a b) ∧ ∀ u, expo (div a b) u = expo a u - expo b u := by
  have key := fun u => get?_div ha.1 hb.1 u
  refine ⟨⟨nodup_div ha.1 b, ?_⟩, ?_⟩
  · intro u v hv
    rw [key u] at hv
    rcases hx : get? a u with _ | x <;> rcases hy : get? b u with _ | y <;> rw [hx, hy] at hv <;>
      simp only [comb] at hv
    · cases hv
    · cases hv; rw [PyExp.val_neg]; exact neg_ne_zero.mpr (hb.2 u y hy)
    · cases hv; exact ha.2 u _ hx
    · split at hv
      · cases hv
      · rename_i h0; cases hv; exact h0
  · intro u
    unfold expo
    rw [key u]
    rcases hx : get? a u with _ | x <;> rcases hy : get? b u with _ | y <;> simp only [comb]
    · simp
    · simp [PyExp.val_neg]
    · simp
    · have := h u x y hx hy
      split
      · rename_i h0; rw [h0] at this; simpa using this
      · simpa using this

/-- Powers without rounding. -/
theorem pow_exact {a : NDim} (ha : Clean a) (p : PyExp)
    (h : ∀ u x, get? a u = some x → (x.mul p).val = x.val * p.val) :
    Clean (pow a p) ∧ ∀ u, expo (pow a p) u = expo a u * p.val := by
  by_cases hp : p.val = 0
  · have e : pow a p = [] := by unfold pow; rw [if_pos hp]
    rw [e]
    refine ⟨⟨by simp [Nodup], by simp⟩, ?_⟩
    intro u; rw [hp, mul_zero]; rfl
  · have key := fun u => get?_pow a hp u
    refine ⟨⟨nodup_pow ha.1 p, ?_⟩, ?_⟩
    · intro u v hv
      rw [key u] at hv
      rcases hx : get? a u with _ | x <;> rw [hx] at hv
      · cases hv
      · cases hv
        show (x.mul p).val ≠ 0
        rw [h u x hx]; exact mul_ne_zero (ha.2 u x hx) hp
    · intro u
      unfold expo
      rw [key u]
      rcases hx : get? a u with _ | x
      · simp
      · simpa using h u x hx

/-- An exponent is a double when the unit's exact exponent is one. -/
theorem ord_of_expo {d : NDim} (h : ∀ u, IsDouble (expo d u)) : Ord d := by
  intro u v hv
  have := h u
  rwa [expo_some hv] at this

end NDim

theorem NExpr.double {e : NExpr} (h : e.NoRounding) (u : UKey) : IsDouble (e.exponent u) := by
  cases e with
  | unit v =>
    show IsDouble (if v = u then 1 else 0)
    split
    · exact IsDouble.one
    · exact IsDouble.zero
  | number => exact IsDouble.zero
  | mul a b => exact h.2.2 u
  | div a b => exact h.2.2 u
  | pow a p => exact h.2.2 u

theorem NDim.clean_unit (u : UKey) : NDim.Clean [(u, .int 1)] := by
  refine ⟨by simp [Dict.Nodup], ?_⟩
  intro v x hx
  rw [get?_cons] at hx
  split at hx
  · cases hx; norm_num [PyExp.val]
  · cases hx

theorem NDim.expo_unit (v u : UKey) : NDim.expo [(v, .int 1)] u = if v = u then 1 else 0 := by
  unfold NDim.expo
  rw [get?_cons]
  by_cases h : v = u
  · rw [if_pos h, if_pos h]; simp [PyExp.val]
  · rw [if_neg h, if_neg h]; rfl

theorem NExpr.eval_exact {e : NExpr} (h : e.NoRounding) :
    NDim.Clean e.eval ∧ ∀ u, NDim.expo e.eval u = e.exponent u := by
  induction e with
  | unit v => exact ⟨NDim.clean_unit v, fun u => NDim.expo_unit v u⟩
  | number => exact ⟨⟨by simp [NExpr.eval, Dict.Nodup], by simp [NExpr.eval]⟩, fun u => rfl⟩
  | mul a b iha ihb =>
    obtain ⟨ca, ea⟩ := iha h.1
    obtain ⟨cb, eb⟩ := ihb h.2.1
    obtain ⟨c, e⟩ := NDim.mul_exact ca cb (by
      intro u x y hx hy
      have hd := h.2.2 u
      have h1 := NExpr.double h.1 u
      have h2 := NExpr.double h.2.1 u
      simp only [NExpr.exponent] at hd
      rw [← ea, NDim.expo_some hx] at hd h1
      rw [← eb, NDim.expo_some hy] at hd h2
      exact PyExp.add_exact h1 h2 hd)
    exact ⟨c, fun u => by rw [NExpr.exponent, ← ea, ← eb]; exact e u⟩
  | div a b iha ihb =>
    obtain ⟨ca, ea⟩ := iha h.1
    obtain ⟨cb, eb⟩ := ihb h.2.1
    obtain ⟨c, e⟩ := NDim.div_exact ca cb (by
      intro u x y hx hy
      have hd := h.2.2 u
      have h1 := NExpr.double h.1 u
      have h2 := NExpr.double h.2.1 u
      simp only [NExpr.exponent] at hd
      rw [← ea, NDim.expo_some hx] at hd h1
      rw [← eb, NDim.expo_some hy] at hd h2
      exact PyExp.sub_exact h1 h2 hd)
    exact ⟨c, fun u => by rw [NExpr.exponent, ← ea, ← eb]; exact e u⟩
  | pow a p iha =>
    obtain ⟨ca, ea⟩ := iha h.1
    obtain ⟨c, e⟩ := NDim.pow_exact ca p (by
      intro u x hx
      have hd := h.2.2 u
      have h1 := NExpr.double h.1 u
      simp only [NExpr.exponent] at hd
      rw [← ea, NDim.expo_some hx] at hd h1
      exact PyExp.mul_exact h1 h.2.1 hd)
    exact ⟨c, fun u => by rw [NExpr.exponent, ← ea]; exact e u⟩

/-- All exponents are Python integers. -/
def NDim.Ints (d : NDim) : Prop := ∀ u v, get? d u = some v → ∃ n, v = .int n

theorem NExpr.eval_ints {e : NExpr} (h : e.Integral) :
    NDim.Clean e.eval ∧ NDim.Ints e.eval ∧ ∀ u, NDim.expo e.eval u = e.exponent u := by
  induction e with
  | unit v =>
    refine ⟨NDim.clean_unit v, ?_, fun u => NDim.expo_unit v u⟩
    intro u x hx
    rw [NExpr.eval, get?_cons] at hx
    split at hx
    · cases hx; exact ⟨1, rfl⟩
    · cases hx
  | number => exact ⟨⟨by simp [NExpr.eval, Dict.Nodup], by simp [NExpr.eval]⟩, by simp [NExpr.eval, NDim.Ints], fun u => rfl⟩
  | mul a b iha ihb =>
    obtain ⟨ca, ia, ea⟩ := iha h.1
    obtain ⟨cb, ib, eb⟩ := ihb h.2
    obtain ⟨c, e⟩ := NDim.mul_exact ca cb (by
      intro u x y hx hy
      obtain ⟨n, rfl⟩ := ia u x hx
      obtain ⟨m, rfl⟩ := ib u y hy
      simp [PyExp.add, PyExp.val])
    refine ⟨c, ?_, fun u => by rw [NExpr.exponent, ← ea, ← eb]; exact e u⟩
    intro u v hv
    rw [NExpr.eval, NDim.get?_mul ca.1 cb.1] at hv
    rcases hx : get? a.eval u with _ | x <;> rcases hy : get? b.eval u with _ | y <;> rw [hx, hy] at hv <;>
      simp only [NDim.comb] at hv
    · cases hv
    · cases hv; exact ib u _ hy
    · cases hv; exact ia u _ hx
    · split at hv
      · cases hv
      · cases hv
        obtain ⟨n, rfl⟩ := ia u x hx
        obtain ⟨m, rfl⟩ := ib u y hy
        exact ⟨_, rfl⟩
  | div a b iha ihb =>
    obtain ⟨ca, ia, ea⟩ := iha h.1
    obtain ⟨cb, ib, eb⟩ := ihb h.2
    obtain ⟨c, e⟩ := NDim.div_exact ca cb (by
      intro u x y hx hy
      obtain ⟨n, rfl⟩ := ia u x hx
      obtain ⟨m, rfl⟩ := ib u y hy
      simp [PyExp.sub, PyExp.val])
    refine ⟨c, ?_, fun u => by rw [NExpr.exponent, ← ea, ← eb]; exact e u⟩
    intro u v hv
    rw [NExpr.eval, NDim.get?_div ca.1 cb.1] at hv
    rcases hx : get? a.eval u with _ | x <;> rcases hy : get? b.eval u with _ | y <;> rw [hx, hy] at hv <;>
      simp only [NDim.comb] at hv
    · cases hv
    · cases hv
      obtain ⟨m, rfl⟩ := ib u y hy
      exact ⟨_, rfl⟩
    · cases hv; exact ia u _ hx
    · split at hv
      · cases hv
      · cases hv
        obtain ⟨n, rfl⟩ := ia u x hx
        obtain ⟨m, rfl⟩ := ib u y hy
        exact ⟨_, rfl⟩
  | pow a p iha =>
    obtain ⟨ca, ia, ea⟩ := iha h.1
    obtain ⟨m, rfl⟩ := h.2
    obtain ⟨c, e⟩ := NDim.pow_exact ca (.int m) (by
      intro u x hx
      obtain ⟨n, rfl⟩ := ia u x hx
      simp [PyExp.mul, PyExp.val])
    refine ⟨c, ?_, fun u => by rw [NExpr.exponent, ← ea]; exact e u⟩
    intro u v hv
    by_cases hp : (PyExp.int m).val = 0
    · rw [NExpr.eval, NDim.pow, if_pos hp] at hv; cases hv
    · rw [NExpr.eval, NDim.get?_pow _ hp] at hv
      rcases hx : get? a.eval u with _ | x <;> rw [hx] at hv
      · cases hv
      · cases hv
        obtain ⟨n, rfl⟩ := ia u x hx
        exact ⟨_, rfl⟩

end PQ
