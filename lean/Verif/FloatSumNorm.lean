import Verif.FloatSum
/-
`norm2` and `innerProduct` of fields of floating-point numbers with the rounding of every operation; see FloatSum.
-/
namespace Verif.FloatSum
open Verif.FloatText

/-- a product: close to the exact product, not negative when that is not, on the grid of `double` -/
theorem prod_err {F : Fmt} {x y r : ℚ} (h : prod F x y = some r) : |r - x * y| ≤ |x * y| * 2 ^ (-(F.p : Int)) + 2 ^ (F.emin - 1) := by
  obtain ⟨rfl, -⟩ := op_some.1 h
  exact near_err_any _

theorem grid_lift {F G : Fmt} (h : G.emin ≤ F.emin) {x : ℚ} (hx : Grid F x) : Grid G x := by
  obtain ⟨z, rfl⟩ := hx
  refine ⟨z * 2 ^ (F.emin - G.emin).toNat, ?_⟩
  have e1 : (2 : ℚ) ^ F.emin = 2 ^ (F.emin - G.emin).toNat * 2 ^ G.emin := by
    rw [← zpow_natCast, ← zpow_add₀ (by norm_num : (2 : ℚ) ≠ 0)]
    congr 1
    rw [Int.toNat_of_nonneg (by omega)]; omega
  rw [e1]; push_cast; ring

theorem prod_grid {F : Fmt} (hF : f64.emin ≤ F.emin) {x y r : ℚ} (h : prod F x y = some r) : Grid f64 r := by
  obtain ⟨rfl, -⟩ := op_some.1 h
  exact grid_lift hF (near_grid' F _)

theorem prod_nonneg {F : Fmt} {x r : ℚ} (h : prod F x x = some r) : 0 ≤ r := by
  obtain ⟨rfl, -⟩ := op_some.1 h
  exact near_nonneg (mul_self_nonneg x)

/-- the exact sum of products of numbers of the format, and the sum of the absolute values -/
def dot (ps : List (ℚ × ℚ)) : ℚ := (ps.map fun p => p.1 * p.2).sum
def dotAbs (ps : List (ℚ × ℚ)) : ℚ := (ps.map fun p => |p.1 * p.2|).sum

theorem products_cons {F : Fmt} {p : ℚ × ℚ} {ps : List (ℚ × ℚ)} {vs : List ℚ} (h : products F (p :: ps) = some vs) :
    ∃ v ws, vs = v :: ws ∧ prod F p.1 p.2 = some v ∧ products F ps = some ws := by
  simp only [products, Option.bind_eq_bind, Option.bind_eq_some_iff] at h
  obtain ⟨v, h1, ws, h2, h3⟩ := h
  cases h3
  exact ⟨v, ws, rfl, h1, h2⟩

theorem products_err {F : Fmt} (hF : f64.emin ≤ F.emin) : ∀ (ps : List (ℚ × ℚ)) (vs : List ℚ), products F ps = some vs →
    |vs.sum - dot ps| ≤ dotAbs ps * 2 ^ (-(F.p : Int)) + ps.length * 2 ^ (F.emin - 1) ∧
    size vs ≤ dotAbs ps * (1 + 2 ^ (-(F.p : Int))) + ps.length * 2 ^ (F.emin - 1) ∧ (∀ v ∈ vs, Grid f64 v) := by
  intro ps
  induction ps with
  | nil => intro vs h; simp only [products, Option.some.injEq] at h; subst h; simp [dot, dotAbs, size]
  | cons p ps ih =>
    intro vs h
    obtain ⟨v, ws, rfl, h1, h2⟩ := products_cons h
    obtain ⟨i1, i2, i3⟩ := ih ws h2
    have e := prod_err h1
    have d1 : dot (p :: ps) = p.1 * p.2 + dot ps := by simp [dot]
    have d2 : dotAbs (p :: ps) = |p.1 * p.2| + dotAbs ps := by simp [dotAbs]
    have hv : |v| ≤ |p.1 * p.2| + |v - p.1 * p.2| := by
      have : v = p.1 * p.2 + (v - p.1 * p.2) := by ring
      conv_lhs => rw [this]
      exact abs_add_le _ _
    refine ⟨?_, ?_, ?_⟩
    · rw [List.sum_cons, d1, d2, List.length_cons]
      have : v + ws.sum - (p.1 * p.2 + dot ps) = (v - p.1 * p.2) + (ws.sum - dot ps) := by ring
      rw [this]
      refine (abs_add_le _ _).trans ?_
      push_cast; linarith
    · rw [size_cons, d2, List.length_cons]
      push_cast; linarith
    · intro w hw
      rcases List.mem_cons.1 hw with rfl | hw
      · exact prod_grid hF h1
      · exact i3 w hw

theorem pow_ge_one (k : Nat) : 1 ≤ (1 + u) ^ k := one_le_pow₀ (by linarith [u_pos])

/-- C112. `innerProduct` of two fields of real numbers, of `float` or of `double`: the products are rounded in the type of the operands, the sum in `double`. The error is at
most `(1 + 2^-53)^k (1 + 2^-p) - 1` of the sum of the absolute values of the products, and half the least number of the type for every site. -/
theorem C112_inner_error (F : Fmt) (hF : F = f32 ∨ F = f64) (field : List (ℚ × ℚ)) (vs : List ℚ) (hv : products F field = some vs) (T : Tree) (h : (values T).Perm vs)
    (r : ℚ) (hr : sumF T = some r) :
    |r - dot field| ≤ ((1 + u) ^ depth T * (1 + 2 ^ (-(F.p : Int))) - 1) * dotAbs field + (1 + u) ^ depth T * field.length * 2 ^ (F.emin - 1) := by
  have hm : f64.emin ≤ F.emin := by rcases hF with rfl | rfl <;> decide
  obtain ⟨e1, e2, e3⟩ := products_err hm field vs hv
  have e4 := (sumF_approx T r (fun v hv' => e3 v (h.mem_iff.1 hv')) hr).err
  rw [h.sum_eq, perm_size h] at e4
  have hk := pow_ge_one (depth T)
  have e5 := mul_le_mul_of_nonneg_left e2 (by linarith : 0 ≤ (1 + u) ^ depth T - 1)
  have : r - dot field = (r - vs.sum) + (vs.sum - dot field) := by ring
  rw [this]
  refine (abs_add_le _ _).trans ?_
  linarith

theorem products_pos {F : Fmt} (hF : f64.emin ≤ F.emin) (xs : List ℚ) (vs : List ℚ) (h : products F (xs.map fun x => (x, x)) = some vs) :
    ∀ v ∈ vs, 0 ≤ v ∧ Grid f64 v := by
  induction xs generalizing vs with
  | nil => simp only [List.map_nil, products, Option.some.injEq] at h; subst h; simp
  | cons x xs ih =>
    obtain ⟨v, ws, rfl, h1, h2⟩ := products_cons h
    intro w hw
    rcases List.mem_cons.1 hw with rfl | hw
    · exact ⟨prod_nonneg h1, prod_grid hF h1⟩
    · exact ih ws h2 w hw

/-- C112. `norm2` is not negative, and zero exactly when all the rounded squares are. -/
theorem C112_norm2_nonneg (F : Fmt) (hF : F = f32 ∨ F = f64) (xs vs : List ℚ) (hv : products F (xs.map fun x => (x, x)) = some vs) (T : Tree) (h : (values T).Perm vs)
    (r : ℚ) (hr : sumF T = some r) : 0 ≤ r ∧ (r = 0 ↔ ∀ x ∈ xs, prod F x x = some 0) := by
  have hm : f64.emin ≤ F.emin := by rcases hF with rfl | rfl <;> decide
  have hp := sumF_pos T r (fun v hv' => products_pos hm xs vs hv v (h.mem_iff.1 hv')) hr
  refine ⟨hp.nonneg, hp.zero.trans ?_⟩
  have : (∀ v ∈ values T, v = 0) ↔ ∀ v ∈ vs, v = 0 := ⟨fun h0 v hv' => h0 v (h.mem_iff.2 hv'), fun h0 v hv' => h0 v (h.mem_iff.1 hv')⟩
  rw [this]
  clear this hp hr h
  induction xs generalizing vs with
  | nil => simp only [List.map_nil, products, Option.some.injEq] at hv; subst hv; simp
  | cons x xs ih =>
    obtain ⟨v, ws, rfl, h1, h2⟩ := products_cons hv
    have := ih ws h2
    simp only [List.mem_cons, forall_eq_or_imp]
    refine and_congr ?_ this
    simp only at h1
    rw [h1]; simp

/-! ## vectors of complex numbers -/

/-- the squares of the components, rounded -/
def Sq (F : Fmt) (z : ℚ × ℚ) (a : ℚ) : Prop := ∃ x y, prod F z.1 z.1 = some x ∧ prod F z.2 z.2 = some y ∧ a = x + y

theorem sq_err {F : Fmt} {z : ℚ × ℚ} {a : ℚ} (h : Sq F z a) :
    |a - (z.1 * z.1 + z.2 * z.2)| ≤ (z.1 * z.1 + z.2 * z.2) * 2 ^ (-(F.p : Int)) + 2 * 2 ^ (F.emin - 1) := by
  obtain ⟨x, y, h1, h2, rfl⟩ := h
  have e1 := prod_err h1
  have e2 := prod_err h2
  rw [abs_of_nonneg (mul_self_nonneg z.1)] at e1
  rw [abs_of_nonneg (mul_self_nonneg z.2)] at e2
  have : x + y - (z.1 * z.1 + z.2 * z.2) = (x - z.1 * z.1) + (y - z.2 * z.2) := by ring
  rw [this]
  refine (abs_add_le _ _).trans ?_
  linarith

theorem normC_approx {F : Fmt} (hF : f64.emin ≤ F.emin) {z : ℚ × ℚ} {r : ℚ} (h : normC F z = some r) : ∃ a, Sq F z a ∧ 0 ≤ a ∧ Approx 1 a a r := by
  simp only [normC, Option.bind_eq_bind, Option.bind_eq_some_iff] at h
  obtain ⟨x, h1, y, h2, h3⟩ := h
  have p1 := prod_nonneg h1
  have p2 := prod_nonneg h2
  have q1 := approx_of (prod_grid hF h1)
  have q2 := approx_of (prod_grid hF h2)
  rw [abs_of_nonneg p1] at q1
  rw [abs_of_nonneg p2] at q2
  exact ⟨x + y, ⟨x, y, h1, h2, rfl⟩, by linarith, q1.add q2 h3⟩

/-- what is known of a sum `a` of rounded squares whose exact sum is `s`, with `n` components -/
def Close (F : Fmt) (n : Nat) (s a : ℚ) : Prop := 0 ≤ a ∧ |a - s| ≤ s * 2 ^ (-(F.p : Int)) + n * (2 * 2 ^ (F.emin - 1))

theorem Close.add {F : Fmt} {m n : Nat} {s a t b : ℚ} (h1 : Close F m s a) (h2 : Close F n t b) : Close F (m + n) (s + t) (a + b) := by
  refine ⟨by linarith [h1.1, h2.1], ?_⟩
  have : a + b - (s + t) = (a - s) + (b - t) := by ring
  rw [this]
  refine (abs_add_le _ _).trans ?_
  have := h1.2; have := h2.2
  push_cast; linarith

theorem normGo_approx {F : Fmt} (hF : f64.emin ≤ F.emin) : ∀ (zs : List (ℚ × ℚ)) (k n : Nat) (s a d r : ℚ), 1 ≤ k → Close F n s a → Approx k a a d → normGo F zs d = some r →
    ∃ b, Close F (n + zs.length) (s + sq zs) b ∧ Approx (k + zs.length) b b r := by
  intro zs
  induction zs with
  | nil => intro k n s a d r _ hc h hr; simp only [normGo, Option.some.injEq] at hr; subst hr; exact ⟨a, by simpa [sq] using hc, by simpa using h⟩
  | cons z zs ih =>
    intro k n s a d r hk hc h hr
    simp only [normGo, Option.bind_eq_bind, Option.bind_eq_some_iff] at hr
    obtain ⟨x, hx, d', hd, hr⟩ := hr
    obtain ⟨b, hs, hb, ha⟩ := normC_approx hF hx
    have c1 : Close F 1 (z.1 * z.1 + z.2 * z.2) b := ⟨hb, by simpa using sq_err hs⟩
    obtain ⟨c, hc', ha'⟩ := ih (k + 1) (n + 1) _ _ d' r (by omega) (hc.add c1) (h.add (ha.weaken hk) hd) hr
    have e1 : s + sq (z :: zs) = s + (z.1 * z.1 + z.2 * z.2) + sq zs := by simp [sq, add_assoc]
    refine ⟨c, ?_, ?_⟩
    · rw [e1, List.length_cons, Nat.add_comm zs.length 1, ← Nat.add_assoc]; exact hc'
    · rw [List.length_cons, Nat.add_comm zs.length 1, ← Nat.add_assoc]; exact ha'

theorem normV_approx {F : Fmt} (hF : f64.emin ≤ F.emin) {z : List (ℚ × ℚ)} {r : ℚ} (h : normV F z = some r) :
    ∃ b, Close F z.length (sq z) b ∧ Approx z.length b b r := by
  cases z with
  | nil => simp [normV] at h
  | cons z zs =>
    simp only [normV, Option.bind_eq_bind, Option.bind_eq_some_iff] at h
    obtain ⟨d, hd, hr⟩ := h
    obtain ⟨b, hs, hb, ha⟩ := normC_approx hF hd
    obtain ⟨c, h1, h2⟩ := normGo_approx hF zs 1 1 _ b d r (le_refl _) ⟨hb, by simpa using sq_err hs⟩ ha hr
    refine ⟨c, ?_, ?_⟩
    · have : sq (z :: zs) = z.1 * z.1 + z.2 * z.2 + sq zs := by simp [sq]
      rw [this, List.length_cons, Nat.add_comm]; exact h1
    · rw [List.length_cons, Nat.add_comm]; exact h2

theorem norms_approx {F : Fmt} (hF : f64.emin ≤ F.emin) (n : Nat) : ∀ (field : List (List (ℚ × ℚ))) (vs : List ℚ), (∀ z ∈ field, z.length = n) → norms F field = some vs →
    ∃ a, Close F (field.length * n) (field.map sq).sum a ∧ |vs.sum - a| ≤ ((1 + u) ^ n - 1) * a ∧ size vs ≤ (1 + u) ^ n * a ∧ ∀ v ∈ vs, Grid f64 v := by
  intro field
  induction field with
  | nil =>
    intro vs _ h; simp only [norms, Option.some.injEq] at h; subst h
    exact ⟨0, ⟨le_refl _, by simp⟩, by simp, by simp [size], by simp⟩
  | cons z zs ih =>
    intro vs hl h
    simp only [norms, Option.bind_eq_bind, Option.bind_eq_some_iff] at h
    obtain ⟨v, h1, ws, h2, h3⟩ := h
    cases h3
    obtain ⟨a, c, e1, e2, e3⟩ := ih ws (fun w hw => hl w (by simp [hw])) h2
    obtain ⟨b, hb, hv⟩ := normV_approx hF h1
    rw [hl z (by simp)] at hb hv
    refine ⟨b + a, ?_, ?_, ?_, ?_⟩
    · rw [List.map_cons, List.sum_cons, List.length_cons, Nat.succ_mul, Nat.add_comm]; exact hb.add c
    · rw [List.sum_cons]
      have : v + ws.sum - (b + a) = (v - b) + (ws.sum - a) := by ring
      rw [this]
      refine (abs_add_le _ _).trans ?_
      have := hv.err
      linarith
    · rw [size_cons]; have := hv.abs_le; linarith
    · intro w hw
      rcases List.mem_cons.1 hw with rfl | hw
      · exact hv.grid
      · exact e3 w hw

/-- C112. `norm2` of a field of vectors of `n` complex numbers, of `float` or of `double`: with `q = (1 + 2^-53)^(k + n)` the error is at most `q (1 + 2^-p) - 1` of the norm
and `q n` times the least number of the type for every site. -/
theorem C112_norm2_error (F : Fmt) (hF : F = f32 ∨ F = f64) (n : Nat) (field : List (List (ℚ × ℚ))) (hn : ∀ z ∈ field, z.length = n) (vs : List ℚ)
    (hv : norms F field = some vs) (T : Tree) (h : (values T).Perm vs) (r : ℚ) (hr : sumF T = some r) :
    |r - (field.map sq).sum| ≤ ((1 + u) ^ (depth T + n) * (1 + 2 ^ (-(F.p : Int))) - 1) * (field.map sq).sum + (1 + u) ^ (depth T + n) * (field.length * n) * 2 ^ F.emin := by
  have hm : f64.emin ≤ F.emin := by rcases hF with rfl | rfl <;> decide
  obtain ⟨a, c, e1, e2, e3⟩ := norms_approx hm n field vs hn hv
  have e4 := (sumF_approx T r (fun v hv' => e3 v (h.mem_iff.1 hv')) hr).err
  rw [h.sum_eq, perm_size h] at e4
  have hk := pow_ge_one (depth T)
  have hn := pow_ge_one n
  have e5 := mul_le_mul_of_nonneg_left e2 (by linarith : 0 ≤ (1 + u) ^ depth T - 1)
  have c2 := c.2
  have hkn := pow_ge_one (depth T + n)
  have tw : (2 : ℚ) * 2 ^ (F.emin - 1) = 2 ^ F.emin := by
    rw [zpow_sub₀ (by norm_num : (2 : ℚ) ≠ 0)]; norm_num; ring
  rw [tw] at c2
  push_cast at c2
  have ha : |r - a| ≤ ((1 + u) ^ (depth T + n) - 1) * a := by
    have : r - a = (r - vs.sum) + (vs.sum - a) := by ring
    rw [this]
    refine (abs_add_le _ _).trans ?_
    rw [pow_add]; linarith
  have hale : a ≤ (field.map sq).sum + |a - (field.map sq).sum| := by linarith [le_abs_self (a - (field.map sq).sum)]
  have e6 := mul_le_mul_of_nonneg_left (hale.trans (add_le_add_right c2 _)) (by linarith : 0 ≤ (1 + u) ^ (depth T + n) - 1)
  have : r - (field.map sq).sum = (r - a) + (a - (field.map sq).sum) := by ring
  rw [this]
  refine (abs_add_le _ _).trans ?_
  linarith

end Verif.FloatSum
