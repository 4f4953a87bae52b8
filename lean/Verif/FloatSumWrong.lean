import Verif.FloatSumNorm
/-
What does not hold of sums of floating-point numbers; see FloatSum.
-/
namespace Verif.FloatSum
open Verif.FloatText

theorem two53 : op f64 (2 ^ 53 + 1) = some (2 ^ 53) := by
  have h : near f64 (2 ^ 53 + 1) = 2 ^ 53 := by
    unfold near
    rw [if_neg (by norm_num), if_neg (by norm_num)]
    unfold FloatText.round
    have hl : Int.log 2 ((2 : ℚ) ^ 53 + 1) = 53 := log2_eq (by norm_num) (by norm_num)
    simp only [hl]
    have he : max f64.emin ((53 : Int) - f64.p + 1) = 1 := by decide
    rw [he]
    have hf : ⌊((2 : ℚ) ^ 53 + 1) / 2 ^ (1 : Int)⌋ = 2 ^ 52 := by
      rw [Int.floor_eq_iff]; norm_num
    unfold halfEven
    simp only [hf]
    norm_num
  rw [op_some, h]
  refine ⟨rfl, ?_⟩
  rw [abs_of_pos (by norm_num)]
  exact rep_top ⟨1, 53, by norm_num, by decide, by decide, by decide⟩

theorem small {z : Int} (h : |z| < 2 ^ 53) : op f64 z = some (z : ℚ) :=
  op_exact (e := 0) (by decide) (by decide) ⟨z, by simp⟩ (by
    rw [← Int.cast_abs]
    have : ((|z| : Int) : ℚ) < ((2 ^ 53 : Int) : ℚ) := Int.cast_lt.2 h
    norm_num at this ⊢
    exact this)

theorem big : op f64 (2 ^ 53 : ℚ) = some (2 ^ 53) :=
  op_exact (e := 1) (by decide) (by decide) ⟨2 ^ 52, by norm_num⟩ (by norm_num)

theorem bigm : op f64 (-2 ^ 53 : ℚ) = some (-2 ^ 53) :=
  op_exact (e := 1) (by decide) (by decide) ⟨-2 ^ 52, by norm_num⟩ (by norm_num)

theorem op0 : op f64 0 = some 0 := by have := small (z := 0) (by norm_num); simpa using this
theorem op1 : op f64 1 = some 1 := by have := small (z := 1) (by norm_num); simpa using this

/-- C112, refutation. The sums of the same field in two orders, and on one node and on two, differ: they are 0 and 1. -/
theorem C112_order_refuted :
    sumF (.leaf [[2 ^ 53, 1, -2 ^ 53, 0]]) = some 0 ∧ sumF (.leaf [[2 ^ 53, -2 ^ 53, 1, 0]]) = some 1 ∧
    sumF (.add (.leaf [[2 ^ 53, 1]]) (.leaf [[-2 ^ 53, 0]])) = some 0 ∧ sumF (.add (.leaf [[2 ^ 53, -2 ^ 53]]) (.leaf [[1, 0]])) = some 1 ∧
    sumF (.leaf [[2 ^ 53, -2 ^ 53], [1, 0]]) = some 1 := by
  have e1 : (2 ^ 53 : ℚ) + -2 ^ 53 = 0 := by ring
  have e2 : op f64 (2 ^ 53 + -2 ^ 53) = some 0 := by rw [e1]; exact op0
  have t1 : threadSum [2 ^ 53, 1, -2 ^ 53, 0] 0 = some 0 := by
    simp only [threadSum, zero_add, big, two53, e2, op0, Option.bind_eq_bind, Option.bind_some, add_zero]
  have t2 : threadSum [2 ^ 53, -2 ^ 53, 1, 0] 0 = some 1 := by
    simp only [threadSum, zero_add, big, e2, op0, op1, Option.bind_eq_bind, Option.bind_some, add_zero]
  have t3 : threadSum [2 ^ 53, 1] 0 = some (2 ^ 53) := by
    simp only [threadSum, zero_add, big, two53, Option.bind_eq_bind, Option.bind_some]
  have t4 : threadSum [-2 ^ 53, 0] 0 = some (-2 ^ 53) := by
    simp only [threadSum, zero_add, bigm, Option.bind_eq_bind, Option.bind_some, add_zero]
  have t5 : threadSum [2 ^ 53, -2 ^ 53] 0 = some 0 := by
    simp only [threadSum, zero_add, big, e2, Option.bind_eq_bind, Option.bind_some]
  have t6 : threadSum [1, 0] 0 = some 1 := by
    simp only [threadSum, zero_add, op1, Option.bind_eq_bind, Option.bind_some, add_zero]
  refine ⟨?_, ?_, ?_, ?_, ?_⟩ <;>
    simp only [sumF, nodeSum, t1, t2, t3, t4, t5, t6, zero_add, add_zero, op0, op1, big, bigm, e2, Option.bind_eq_bind, Option.bind_some]

theorem top_pos : 0 < f64.top := by exact mul_pos (by unfold f64; norm_num) (zp _)

theorem opTop : op f64 f64.top = some f64.top := op_self f64_ok.1 f64_ok.2 (by rw [abs_of_pos top_pos]; exact top_rep f64_ok.2)

theorem opTop2 : op f64 (f64.top + f64.top) = none := by
  have hg := rep_grid (top_rep f64_ok.2)
  have e := near_err (grid_add hg hg)
  rw [abs_of_pos (by linarith [top_pos] : 0 < f64.top + f64.top)] at e
  have hu : (2 : ℚ) ^ (-(f64.p : Int)) < 1 / 4 := by
    show (2 : ℚ) ^ (-53 : Int) < 1 / 4
    norm_num
  have h1 := (abs_le.1 e).1
  unfold op
  rw [if_neg]
  intro h
  have h2 := (le_abs_self _).trans h
  nlinarith [top_pos]

/-- C112, refutation. The sum of the same field, which is 0, is not finite on one machine and 0 on another. -/
theorem C112_finite_refuted :
    sumF (.leaf [[f64.top, f64.top, -f64.top, -f64.top]]) = none ∧ sumF (.add (.leaf [[f64.top, -f64.top]]) (.leaf [[f64.top, -f64.top]])) = some 0 := by
  have t1 : threadSum [f64.top, f64.top, -f64.top, -f64.top] 0 = none := by
    simp only [threadSum, zero_add, opTop, opTop2, Option.bind_eq_bind, Option.bind_some, Option.bind_none]
  have t2 : threadSum [f64.top, -f64.top] 0 = some 0 := by
    simp only [threadSum, zero_add, opTop, Option.bind_eq_bind, Option.bind_some, add_neg_cancel, op0]
  constructor <;> simp only [sumF, nodeSum, t1, t2, zero_add, op0, Option.bind_eq_bind, Option.bind_some, Option.bind_none]

/-- the square of a number below 2^-75 is zero in `float` -/
theorem prod_small {x : ℚ} (h : |x| < 2 ^ (-75 : Int)) : prod f32 x x = some 0 := by
  have hn : near f32 (x * x) = 0 := by
    unfold near
    split
    · rfl
    · rename_i h0
      have hx : 0 < x * x := lt_of_le_of_ne (mul_self_nonneg x) (Ne.symm h0)
      rw [if_neg (by linarith)]
      have hlt : x * x < 2 ^ (-150 : Int) := by
        have : x * x = |x| * |x| := (abs_mul_abs_self x).symm
        rw [this]
        calc |x| * |x| < 2 ^ (-75 : Int) * 2 ^ (-75 : Int) := mul_self_lt_mul_self (abs_nonneg x) h
          _ = 2 ^ (-150 : Int) := by rw [← zpow_add₀ (by norm_num : (2 : ℚ) ≠ 0)]; norm_num
      have hl : Int.log 2 (x * x) < -150 := by
        by_contra hc
        have h1 := log2_le hx
        have h2 : (2 : ℚ) ^ (-150 : Int) ≤ 2 ^ Int.log 2 (x * x) := zpow_le_zpow_right₀ (by norm_num) (by omega)
        linarith
      unfold FloatText.round
      simp only
      have hp : (f32.p : Int) = 24 := rfl
      have he : f32.emin = -149 := rfl
      rw [max_eq_left (by rw [hp, he]; omega), he]
      have : halfEven (x * x / 2 ^ (-149 : Int)) = 0 := near_grid (zp _) (n := 0) (by
        rw [Int.cast_zero, zero_mul, sub_zero, abs_of_pos hx]
        have : (2 : ℚ) ^ (-149 : Int) / 2 = 2 ^ (-150 : Int) := by norm_num
        rw [this]; exact hlt)
      rw [this]; simp
  show op f32 (x * x) = some 0
  rw [op_some, hn]
  exact ⟨rfl, by unfold Fmt.top f32; norm_num⟩

theorem products_small : ∀ xs : List ℚ, (∀ x ∈ xs, |x| < 2 ^ (-75 : Int)) → products f32 (xs.map fun x => (x, x)) = some (List.replicate xs.length 0) := by
  intro xs
  induction xs with
  | nil => intro _; rfl
  | cons x xs ih =>
    intro h
    have h1 := prod_small (h x (by simp))
    have h2 := ih fun y hy => h y (by simp [hy])
    simp only [List.map_cons, products, h1, h2, Option.bind_eq_bind, Option.bind_some, List.length_cons, List.replicate_succ]
    rfl

/-- the square of a number of at least 2^65 is not finite in `float` -/
theorem prod_large {x : ℚ} (h : 2 ^ 65 ≤ |x|) : prod f32 x x = none := by
  have hx : (2 : ℚ) ^ 130 ≤ x * x := by
    have : x * x = |x| * |x| := (abs_mul_abs_self x).symm
    rw [this]
    calc (2 : ℚ) ^ 130 = 2 ^ 65 * 2 ^ 65 := by norm_num
      _ ≤ |x| * |x| := mul_self_le_mul_self (by norm_num) h
  have e := near_err_any (F := f32) (x * x)
  rw [abs_of_nonneg (mul_self_nonneg x)] at e
  have hu : (2 : ℚ) ^ (-(f32.p : Int)) < 1 / 4 := by
    show (2 : ℚ) ^ (-24 : Int) < 1 / 4
    norm_num
  have hm : (2 : ℚ) ^ (f32.emin - 1) < 1 := by
    show (2 : ℚ) ^ ((-149 : Int) - 1) < 1
    norm_num
  have h1 := (abs_le.1 e).1
  show op f32 (x * x) = none
  unfold op
  rw [if_neg]
  intro hc
  have h2 := (le_abs_self _).trans hc
  have ht : f32.top < 2 ^ 128 := by unfold Fmt.top f32; norm_num
  nlinarith

theorem products_large : ∀ xs : List ℚ, (∃ x ∈ xs, 2 ^ 65 ≤ |x|) → products f32 (xs.map fun x => (x, x)) = none := by
  intro xs
  induction xs with
  | nil => rintro ⟨x, hx, -⟩; cases hx
  | cons x xs ih =>
    rintro ⟨y, hy, hl⟩
    simp only [List.map_cons, products]
    rcases List.mem_cons.1 hy with rfl | hy
    · rw [prod_large hl]; rfl
    · rw [ih ⟨y, hy, hl⟩]; cases prod f32 x x <;> rfl

theorem zero_sum (n : Nat) (T : Tree) (h : (values T).Perm (List.replicate n 0)) : sumF T = some 0 := by
  rw [C112_exact (List.replicate n 0) 0 (by norm_num) (by norm_num) (fun v hv => ⟨0, by rw [List.eq_of_mem_replicate hv]; simp⟩) (by simp [size]) T h]
  simp

/-- C112, refutation. Of a single-precision field `norm2` is computed from squares in single precision, though the result has double precision: of numbers below 2^-75 it is zero,
for a single value of 2^65 it is not finite, on every machine; in double precision both have a norm. -/
theorem C112_range_refuted :
    (∀ xs : List ℚ, (∀ x ∈ xs, |x| < 2 ^ (-75 : Int)) → ∃ vs, products f32 (xs.map fun x => (x, x)) = some vs ∧ ∀ T, (values T).Perm vs → sumF T = some 0) ∧
    (∀ xs : List ℚ, (∃ x ∈ xs, 2 ^ 65 ≤ |x|) → products f32 (xs.map fun x => (x, x)) = none) ∧
    Rep f32 (2 ^ (-76 : Int)) ∧ Rep f32 (2 ^ 65) ∧
    prod f64 (2 ^ (-76 : Int)) (2 ^ (-76 : Int)) = some (2 ^ (-152 : Int)) ∧ prod f64 (2 ^ 65) (2 ^ 65) = some (2 ^ 130) := by
  refine ⟨fun xs h => ⟨_, products_small xs h, fun T hT => zero_sum _ T hT⟩, products_large, ⟨1, -76, by norm_num, by decide, by decide, by decide⟩,
    ⟨1, 65, by norm_num, by decide, by decide, by decide⟩, ?_, ?_⟩
  · have e : (2 : ℚ) ^ (-76 : Int) * 2 ^ (-76 : Int) = 2 ^ (-152 : Int) := by rw [← zpow_add₀ (by norm_num : (2 : ℚ) ≠ 0)]; norm_num
    show op f64 _ = _
    rw [e]
    exact op_exact (e := -152) (by decide) (by decide) ⟨1, by simp⟩ (by
      rw [abs_of_pos (zp _)]; exact zpow_lt_zpow_right₀ (by norm_num) (by norm_num))
  · have e : (2 : ℚ) ^ 65 * 2 ^ 65 = 2 ^ 130 := by norm_num
    show op f64 _ = _
    rw [e]
    exact op_exact (e := 130) (by decide) (by decide) ⟨1, by norm_num⟩ (by norm_num)

theorem prod_round : prod f32 (1 + 2 ^ (-12 : Int)) (1 + 2 ^ (-12 : Int)) = some (1 + 2 ^ (-11 : Int)) := by
  have hn : near f32 ((1 + 2 ^ (-12 : Int)) * (1 + 2 ^ (-12 : Int))) = 1 + 2 ^ (-11 : Int) := by
    unfold near
    rw [if_neg (by norm_num), if_neg (by norm_num)]
    unfold FloatText.round
    have hl : Int.log 2 (((1 : ℚ) + 2 ^ (-12 : Int)) * (1 + 2 ^ (-12 : Int))) = 0 := log2_eq (by norm_num) (by norm_num)
    simp only [hl]
    have he : max f32.emin ((0 : Int) - f32.p + 1) = -23 := by decide
    rw [he]
    have hf : ⌊((1 : ℚ) + 2 ^ (-12 : Int)) * (1 + 2 ^ (-12 : Int)) / 2 ^ (-23 : Int)⌋ = 2 ^ 23 + 2 ^ 12 := by
      rw [Int.floor_eq_iff]; norm_num
    unfold halfEven
    simp only [hf]
    norm_num
  show op f32 _ = _
  rw [op_some, hn]
  exact ⟨rfl, by unfold Fmt.top f32; norm_num⟩

theorem products_const (n : Nat) : products f32 (List.replicate n ((1 + 2 ^ (-12 : Int) : ℚ), (1 + 2 ^ (-12 : Int) : ℚ))) = some (List.replicate n (1 + 2 ^ (-11 : Int))) := by
  induction n with
  | zero => rfl
  | succ n ih =>
    simp only [List.replicate_succ, products, prod_round, ih, Option.bind_eq_bind, Option.bind_some]
    rfl

/-- C112, refutation. The double-precision accumulation does not make `norm2` of a single-precision field accurate to double precision: for the constant field 1 + 2^-12 the
norm is wrong by `n` 2^-24 on `n` sites, on every machine and in every order, up to 2^41 sites. -/
theorem C112_precision_refuted (n : Nat) (hn : n < 2 ^ 41) : ∃ vs, products f32 (List.replicate n ((1 + 2 ^ (-12 : Int) : ℚ), (1 + 2 ^ (-12 : Int) : ℚ))) = some vs ∧
    ∀ T, (values T).Perm vs → ∃ r, sumF T = some r ∧ dot (List.replicate n ((1 + 2 ^ (-12 : Int) : ℚ), (1 + 2 ^ (-12 : Int) : ℚ))) - r = n * 2 ^ (-24 : Int) := by
  refine ⟨_, products_const n, fun T hT => ?_⟩
  refine ⟨_, C112_exact _ (-11) (by norm_num) (by norm_num) (fun v hv => ⟨2 ^ 11 + 1, by rw [List.eq_of_mem_replicate hv]; norm_num⟩) ?_ T hT, ?_⟩
  · unfold size
    rw [List.map_replicate, List.sum_replicate, nsmul_eq_mul, abs_of_pos (by positivity)]
    have : (2 : ℚ) ^ ((53 : Int) + -11) = 2 ^ 42 := by norm_num
    rw [this]
    have hn' : (n : ℚ) < ((2 ^ 41 : Nat) : ℚ) := Nat.cast_lt.2 hn
    push_cast at hn'
    have h3 : (1 : ℚ) + 2 ^ (-11 : Int) ≤ 2 := by norm_num
    have h4 : (0 : ℚ) ≤ n := Nat.cast_nonneg n
    nlinarith
  · unfold dot
    rw [List.map_replicate, List.sum_replicate, List.sum_replicate, nsmul_eq_mul, nsmul_eq_mul]
    norm_num; ring

/-! ## witnesses -/

/-- a field of four numbers on two nodes, the second with two threads -/
def exTree : Tree := .add (.leaf [[1, 2]]) (.leaf [[3], [-4]])

theorem rep_int {z : Int} (h : |z| < 2 ^ 53) : Rep f64 |(z : ℚ)| :=
  mult_rep (e := 0) (by decide) (by decide) ⟨z, by simp⟩ (by
    rw [← Int.cast_abs]
    have : ((|z| : Int) : ℚ) < ((2 ^ 53 : Int) : ℚ) := Int.cast_lt.2 h
    show _ < (2 : ℚ) ^ ((53 : Int) + 0)
    norm_num at this ⊢
    exact this)

example : (values exTree).Perm [1, 2, 3, -4] ∧ sumF exTree = some 2 ∧ depth exTree = 4 ∧ ∀ v ∈ ([1, 2, 3, -4] : List ℚ), Rep f64 |v| := by
  have hs : size [1, 2, 3, -4] < 2 ^ ((53 : Int) + 0) := by simp [size]; norm_num
  have hp : (values exTree).Perm [1, 2, 3, -4] := by simp [values, exTree]
  have h1 := C112_exact [1, 2, 3, -4] 0 (by norm_num) (by norm_num) (by
    intro v hv
    simp only [List.mem_cons, List.not_mem_nil, or_false] at hv
    rcases hv with rfl | rfl | rfl | rfl
    · exact ⟨1, by norm_num⟩
    · exact ⟨2, by norm_num⟩
    · exact ⟨3, by norm_num⟩
    · exact ⟨-4, by norm_num⟩) hs exTree hp
  refine ⟨hp, ?_, by simp [depth, nodeDepth, exTree], ?_⟩
  · rw [h1]; norm_num
  · intro v hv
    simp only [List.mem_cons, List.not_mem_nil, or_false] at hv
    rcases hv with rfl | rfl | rfl | rfl
    · simpa using rep_int (z := 1) (by norm_num)
    · simpa using rep_int (z := 2) (by norm_num)
    · simpa using rep_int (z := 3) (by norm_num)
    · simpa using rep_int (z := -4) (by norm_num)

/-- a vector of one complex number on one site -/
example : norms f32 [[(1 + 2 ^ (-12 : Int), 0)]] = some [1 + 2 ^ (-11 : Int)] := by
  have h0 : prod f32 0 0 = some 0 := prod_small (by rw [abs_zero]; exact zp _)
  have h1 : op f64 (1 + 2 ^ (-11 : Int)) = some (1 + 2 ^ (-11 : Int)) := op_exact (e := -11) (by decide) (by decide) ⟨2 ^ 11 + 1, by norm_num⟩ (by norm_num)
  simp only [norms, normV, normC, normGo, prod_round, h0, add_zero, h1, Option.bind_eq_bind, Option.bind_some]
  rfl
end Verif.FloatSum
