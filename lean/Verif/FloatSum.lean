import Mathlib.Algebra.BigOperators.Group.List.Basic
import Mathlib.Algebra.Order.BigOperators.Group.List
import Mathlib.Tactic.Linarith
import Mathlib.Tactic.Positivity
import Mathlib.Tactic.Ring
import Mathlib.Tactic.FieldSimp
import Verif.FloatTextNum
/-
Sums over fields of floating-point numbers: `sum`, `norm2`, `innerProduct` with the rounding of every operation.  include/qdp_simpleword.h:408-480 (`sum`, `localNorm2`,
`localInnerProduct` of `float` and `double`), 539-620 (the results are `double`), include/qdp_reality.h:1635-1677, 2385-2430, include/qdp_primvector.h:887-950,
include/qdp_scalar_specific.h:533-620, include/qdp_parscalar_specific.h:724-818 (the loops).  C50, C69 and C102 treat the same loops for exact additions, C111 for integers.

Every operation is rounded to the nearest number of the format, of two to the one with even last digit, as on the processors and compilers in use (IEEE 754, no extended
precision, no fused multiplication and addition).  `float` and `double` are those of FloatText.  A number is a rational number; the two zeros are one number.  A result
beyond the largest number is infinite and stays infinite or becomes not-a-number in all later additions: `none`.

The iterations are distributed over threads arbitrarily, threads enter the critical section in any order, and the sum over the nodes is taken in any order and grouping.
-/
namespace Verif.FloatSum
open Verif.FloatText

/-- the nearest number of the format, without regard of the largest one -/
def near (F : Fmt) (x : ℚ) : ℚ := if x = 0 then 0 else if x < 0 then -round F (-x) else round F x

/-- the result of an operation whose exact value is `x`: the nearest number, or not finite -/
def op (F : Fmt) (x : ℚ) : Option ℚ := if |near F x| ≤ F.top then some (near F x) else none

/-- a thread: `dthread.elem() += …` in `double`, include/qdp_scalar_specific.h:549-557, include/qdp_parscalar_specific.h:741-749; the list holds the values at its sites in
the order of its iterations -/
def threadSum : List ℚ → ℚ → Option ℚ
  | [], acc => some acc
  | v :: vs, acc => do
      let a ← op f64 (acc + v)
      threadSum vs a

/-- the critical sections of a node in the order in which the threads enter: `d.elem() += dthread.elem()`, include/qdp_scalar_specific.h:559-562,
include/qdp_parscalar_specific.h:751-757 -/
def nodeSum : List (List ℚ) → ℚ → Option ℚ
  | [], d => some d
  | t :: ts, d => do
      let x ← threadSum t 0
      let d' ← op f64 (d + x)
      nodeSum ts d'

/-- the ways to add the numbers of several nodes -/
inductive Tree
  | leaf (threads : List (List ℚ))
  | add (l r : Tree)

/-- `sum` on many nodes: the sums of the nodes, then `QMP_sum_double`, include/qdp_parscalar_specific.h:760-761; one node is a leaf -/
def sumF : Tree → Option ℚ
  | .leaf ts => nodeSum ts 0
  | .add l r => do
      let a ← sumF l
      let b ← sumF r
      op f64 (a + b)

/-- the values at the sites of all threads of all nodes -/
def values : Tree → List ℚ
  | .leaf ts => ts.flatten
  | .add l r => values l ++ values r

/-- `localNorm2`, `localInnerProduct` of two words: `double(s1*s2)`, the product being formed in the type of the operands, include/qdp_simpleword.h:414-430 (`float`),
440-480 (`double`, and `float` with `double`) -/
def prod (F : Fmt) (x y : ℚ) : Option ℚ := op F (x * y)

/-- `localNorm2` of a complex number, include/qdp_reality.h:2385-2388: the addition is one of `double` -/
def normC (F : Fmt) (z : ℚ × ℚ) : Option ℚ := do
  let a ← prod F z.1 z.1
  let b ← prod F z.2 z.2
  op f64 (a + b)

/-- `d.elem() += localNorm2(s1.elem(i))` for the elements after the first, include/qdp_primvector.h:891-893 -/
def normGo (F : Fmt) : List (ℚ × ℚ) → ℚ → Option ℚ
  | [], d => some d
  | z :: zs, d => do
      let x ← normC F z
      let d' ← op f64 (d + x)
      normGo F zs d'

/-- `localNorm2` of a vector of complex numbers, include/qdp_primvector.h:887-897 -/
def normV (F : Fmt) : List (ℚ × ℚ) → Option ℚ
  | [] => none
  | z :: zs => do
      let d ← normC F z
      normGo F zs d

/-- the values at the sites whose sum is `innerProduct` of two fields of real numbers, `norm2` being the case of equal fields -/
def products (F : Fmt) : List (ℚ × ℚ) → Option (List ℚ)
  | [] => some []
  | p :: ps => do
      let v ← prod F p.1 p.2
      let vs ← products F ps
      pure (v :: vs)

/-- the values at the sites whose sum is `norm2` of a field of vectors of complex numbers -/
def norms (F : Fmt) : List (List (ℚ × ℚ)) → Option (List ℚ)
  | [] => some []
  | z :: zs => do
      let v ← normV F z
      let vs ← norms F zs
      pure (v :: vs)

/-! ## specification -/

/-- the relative error of an addition -/
def u : ℚ := 2 ^ (-53 : Int)

/-- the relative error of a product of `float`s -/
def u32 : ℚ := 2 ^ (-24 : Int)

/-- the number of additions a value of the field takes part in, at most -/
def nodeDepth : List (List ℚ) → Nat → Nat
  | [], k => k
  | t :: ts, k => nodeDepth ts (max k t.length + 1)

/-- the number of additions a value of the field takes part in, at most -/
def depth : Tree → Nat
  | .leaf ts => nodeDepth ts 0
  | .add l r => max (depth l) (depth r) + 1

/-- the sum of the absolute values -/
def size (vs : List ℚ) : ℚ := (vs.map fun v => |v|).sum

/-- the sum of the squares of the components at a site -/
def sq (z : List (ℚ × ℚ)) : ℚ := (z.map fun c => c.1 * c.1 + c.2 * c.2).sum

/-- a multiple of the least number: all numbers of the format are -/
def Grid (F : Fmt) (x : ℚ) : Prop := ∃ z : Int, x = z * 2 ^ F.emin

/-! ## rounding -/

theorem rep_grid {F : Fmt} {x : ℚ} (h : Rep F x) : Grid F x := by
  obtain ⟨m, e, rfl, -, he, -⟩ := h
  exact ⟨(m * 2 ^ (e - F.emin).toNat : Nat), by rw [rep_mul he]; push_cast; rfl⟩

theorem grid_neg {F : Fmt} {x : ℚ} (h : Grid F x) : Grid F (-x) := by
  obtain ⟨z, rfl⟩ := h
  exact ⟨-z, by push_cast; ring⟩

theorem grid_add {F : Fmt} {x y : ℚ} (hx : Grid F x) (hy : Grid F y) : Grid F (x + y) := by
  obtain ⟨a, rfl⟩ := hx; obtain ⟨b, rfl⟩ := hy
  exact ⟨a + b, by push_cast; ring⟩

theorem grid_zero {F : Fmt} : Grid F 0 := ⟨0, by simp⟩

theorem round_grid (F : Fmt) (v : ℚ) : Grid F (round F v) := by
  unfold FloatText.round
  simp only
  have h : F.emin ≤ max F.emin (Int.log 2 v - F.p + 1) := le_max_left _ _
  generalize max F.emin (Int.log 2 v - F.p + 1) = e at h
  refine ⟨halfEven (v / 2 ^ e) * 2 ^ (e - F.emin).toNat, ?_⟩
  have e1 : (2 : ℚ) ^ e = 2 ^ (e - F.emin).toNat * 2 ^ F.emin := by
    rw [← zpow_natCast, ← zpow_add₀ (by norm_num : (2 : ℚ) ≠ 0)]
    congr 1
    rw [Int.toNat_of_nonneg (by omega)]; omega
  rw [e1]; push_cast; ring

theorem near_grid' (F : Fmt) (x : ℚ) : Grid F (near F x) := by
  unfold near
  split
  · exact grid_zero
  · split
    · exact grid_neg (round_grid F _)
    · exact round_grid F _

theorem round_err_grid {F : Fmt} {v : ℚ} (hv : 0 < v) (hg : Grid F v) : |round F v - v| ≤ v * 2 ^ (-(F.p : Int)) := by
  by_cases hn : F.emin ≤ Int.log 2 v - F.p + 1
  · exact round_err hv hn
  · obtain ⟨z, rfl⟩ := hg
    have hz := zp F.emin
    have : round F (z * 2 ^ F.emin) = z * 2 ^ F.emin := by
      unfold FloatText.round
      simp only
      rw [max_eq_left (by omega), near_grid hz (n := z) (by simp [hz])]
    rw [this]; simp; positivity

theorem round_err_any {F : Fmt} {v : ℚ} (hv : 0 < v) : |round F v - v| ≤ v * 2 ^ (-(F.p : Int)) + 2 ^ (F.emin - 1) := by
  have h0 := zp (F.emin - 1)
  by_cases hn : F.emin ≤ Int.log 2 v - F.p + 1
  · have := round_err hv hn; linarith
  · have h1 : 0 < v * 2 ^ (-(F.p : Int)) := mul_pos hv (zp _)
    have : |round F v - v| ≤ 2 ^ F.emin / 2 := by
      unfold FloatText.round
      simp only
      rw [max_eq_left (by omega)]
      exact grid_err (zp _)
    have e : (2 : ℚ) ^ (F.emin - 1) = 2 ^ F.emin / 2 := by rw [zpow_sub₀ (by norm_num)]; norm_num
    rw [e]; linarith

theorem near_err {F : Fmt} {x : ℚ} (hg : Grid F x) : |near F x - x| ≤ |x| * 2 ^ (-(F.p : Int)) := by
  unfold near
  split
  · rename_i h; simp [h]
  · rename_i h
    split
    · rename_i hn
      have := round_err_grid (F := F) (v := -x) (by linarith) (grid_neg hg)
      rw [abs_of_neg hn]
      rw [abs_le] at this ⊢; constructor <;> linarith [this.1, this.2]
    · rename_i hn
      have hx : 0 < x := lt_of_le_of_ne (by linarith) (Ne.symm h)
      rw [abs_of_pos hx]; exact round_err_grid hx hg

theorem near_err_any {F : Fmt} (x : ℚ) : |near F x - x| ≤ |x| * 2 ^ (-(F.p : Int)) + 2 ^ (F.emin - 1) := by
  have h0 := zp (F.emin - 1)
  unfold near
  split
  · rename_i h; simp [h]; positivity
  · rename_i h
    split
    · rename_i hn
      have := round_err_any (F := F) (v := -x) (by linarith)
      rw [abs_of_neg hn]
      rw [abs_le] at this ⊢; constructor <;> linarith [this.1, this.2]
    · rename_i hn
      have hx : 0 < x := lt_of_le_of_ne (by linarith) (Ne.symm h)
      rw [abs_of_pos hx]; exact round_err_any hx

theorem near_nonneg {F : Fmt} {x : ℚ} (h : 0 ≤ x) : 0 ≤ near F x := by
  unfold near
  split
  · exact le_refl _
  · rename_i h0
    rw [if_neg (by linarith)]
    exact round_nonneg (lt_of_le_of_ne h (Ne.symm h0))

theorem near_self {F : Fmt} (hp : 0 < F.p) {x : ℚ} (h : Rep F |x|) : near F x = x := by
  unfold near
  split
  · rename_i h0; exact h0.symm
  · rename_i h0
    split
    · rename_i hn
      rw [abs_of_neg hn] at h
      rw [round_self hp (by linarith) h]; ring
    · rename_i hn
      have hx : 0 < x := lt_of_le_of_ne (by linarith) (Ne.symm h0)
      rw [abs_of_pos hx] at h
      exact round_self hp hx h

theorem near_le_top {F : Fmt} (hp : 0 < F.p) (hm : F.emin ≤ F.emax) {x : ℚ} (h : |x| ≤ F.top) : |near F x| ≤ F.top := by
  unfold near
  split
  · rename_i h0; rw [h0] at h; exact h
  · rename_i h0
    split
    · rename_i hn
      rw [abs_of_neg hn] at h
      rw [abs_neg, abs_of_nonneg (round_nonneg (by linarith))]
      exact round_le_top hp hm (by linarith) h
    · rename_i hn
      have hx : 0 < x := lt_of_le_of_ne (by linarith) (Ne.symm h0)
      rw [abs_of_pos hx] at h
      rw [abs_of_nonneg (round_nonneg hx)]
      exact round_le_top hp hm hx h

theorem op_some {F : Fmt} {x r : ℚ} : op F x = some r ↔ r = near F x ∧ |near F x| ≤ F.top := by
  unfold op
  split
  · rename_i h; simp only [Option.some.injEq]; exact ⟨fun e => ⟨e.symm, h⟩, fun e => e.1.symm⟩
  · rename_i h; simp only [reduceCtorEq, false_iff]; exact fun h' => h h'.2

theorem op_of_le {F : Fmt} (hp : 0 < F.p) (hm : F.emin ≤ F.emax) {x : ℚ} (h : |x| ≤ F.top) : op F x = some (near F x) := op_some.2 ⟨rfl, near_le_top hp hm h⟩

theorem op_self {F : Fmt} (hp : 0 < F.p) (hm : F.emin ≤ F.emax) {x : ℚ} (h : Rep F |x|) : op F x = some x := by
  rw [op_of_le hp hm (rep_top h), near_self hp h]

/-! ## the error of a sum -/

/-- `v` is the sum `S` of numbers whose absolute values add up to `A`, each having taken part in at most `k` additions -/
structure Approx (k : Nat) (S A v : ℚ) : Prop where
  bound : |S| ≤ A
  err : |v - S| ≤ ((1 + u) ^ k - 1) * A
  grid : Grid f64 v

theorem u_pos : 0 < u := zp _

theorem pow_mono {k l : Nat} (h : k ≤ l) : (1 + u) ^ k ≤ (1 + u) ^ l := pow_le_pow_right₀ (by linarith [u_pos]) h

theorem Approx.weaken {k l : Nat} {S A v : ℚ} (h : Approx k S A v) (hkl : k ≤ l) : Approx l S A v :=
  ⟨h.bound, h.err.trans (mul_le_mul_of_nonneg_right (by linarith [pow_mono hkl]) ((abs_nonneg _).trans h.bound)), h.grid⟩

theorem Approx.add {k : Nat} {S A v T B w z : ℚ} (h1 : Approx k S A v) (h2 : Approx k T B w) (hz : op f64 (v + w) = some z) : Approx (k + 1) (S + T) (A + B) z := by
  obtain ⟨rfl, -⟩ := op_some.1 hz
  have hb : |S + T| ≤ A + B := (abs_add_le _ _).trans (by linarith [h1.bound, h2.bound])
  refine ⟨hb, ?_, near_grid' _ _⟩
  have e1 := near_err (F := f64) (grid_add h1.grid h2.grid)
  have e1' : |near f64 (v + w) - (v + w)| ≤ |v + w| * u := e1
  have hq : |(v + w) - (S + T)| ≤ ((1 + u) ^ k - 1) * (A + B) := by
    have : (v + w) - (S + T) = (v - S) + (w - T) := by ring
    rw [this]
    refine (abs_add_le _ _).trans ?_
    have := h1.err; have := h2.err
    linarith
  have hv : |v + w| ≤ (1 + u) ^ k * (A + B) := by
    have : v + w = ((v + w) - (S + T)) + (S + T) := by ring
    rw [this]
    refine (abs_add_le _ _).trans ?_
    linarith
  have e2 : near f64 (v + w) - (S + T) = (near f64 (v + w) - (v + w)) + ((v + w) - (S + T)) := by ring
  rw [e2]
  refine (abs_add_le _ _).trans ?_
  have := mul_le_mul_of_nonneg_right hv u_pos.le
  rw [pow_succ]
  nlinarith

theorem approx_of {v : ℚ} (h : Grid f64 v) : Approx 0 v |v| v := ⟨le_refl _, by simp, h⟩

theorem approx_zero : Approx 0 0 0 0 := ⟨by simp, by simp, grid_zero⟩

theorem size_cons (v : ℚ) (vs : List ℚ) : size (v :: vs) = |v| + size vs := by simp [size]
theorem size_append (a b : List ℚ) : size (a ++ b) = size a + size b := by simp [size]
theorem size_nonneg (vs : List ℚ) : 0 ≤ size vs := List.sum_nonneg (by
  intro x hx; obtain ⟨v, -, rfl⟩ := List.mem_map.1 hx; exact abs_nonneg v)

theorem threadSum_approx : ∀ (vs : List ℚ) (k : Nat) (S A acc r : ℚ), (∀ v ∈ vs, Grid f64 v) → Approx k S A acc → threadSum vs acc = some r →
    Approx (k + vs.length) (S + vs.sum) (A + size vs) r := by
  intro vs
  induction vs with
  | nil => intro k S A acc r _ h hr; simp only [threadSum, Option.some.injEq] at hr; subst hr; simpa [size] using h
  | cons v vs ih =>
    intro k S A acc r hg h hr
    simp only [threadSum, Option.bind_eq_bind, Option.bind_eq_some_iff] at hr
    obtain ⟨a, ha, hr⟩ := hr
    have h1 := h.add ((approx_of (hg v (by simp))).weaken (Nat.zero_le k)) ha
    have := ih (k + 1) _ _ a r (fun w hw => hg w (by simp [hw])) h1 hr
    have e1 : k + (v :: vs).length = k + 1 + vs.length := by simp; omega
    have e2 : A + size (v :: vs) = A + |v| + size vs := by rw [size_cons, add_assoc]
    have e3 : S + (v :: vs).sum = S + v + vs.sum := by rw [List.sum_cons, add_assoc]
    rw [e1, e2, e3]; exact this

theorem nodeSum_approx : ∀ (ts : List (List ℚ)) (k : Nat) (S A d r : ℚ), (∀ v ∈ ts.flatten, Grid f64 v) → Approx k S A d → nodeSum ts d = some r →
    Approx (nodeDepth ts k) (S + ts.flatten.sum) (A + size ts.flatten) r := by
  intro ts
  induction ts with
  | nil => intro k S A d r _ h hr; simp only [nodeSum, Option.some.injEq] at hr; subst hr; simpa [size, nodeDepth] using h
  | cons t ts ih =>
    intro k S A d r hg h hr
    simp only [nodeSum, Option.bind_eq_bind, Option.bind_eq_some_iff] at hr
    obtain ⟨x, hx, d', hd, hr⟩ := hr
    have h1 := threadSum_approx t 0 0 0 0 x (fun v hv => hg v (by simp [hv])) approx_zero hx
    simp only [zero_add] at h1
    have h2 := (h.weaken (Nat.le_max_left k t.length)).add (h1.weaken (Nat.le_max_right k t.length)) hd
    have := ih _ _ _ d' r (fun v hv => hg v (by
      rw [List.flatten_cons, List.mem_append]; exact .inr hv)) h2 hr
    rw [List.flatten_cons, List.sum_append, size_append, ← add_assoc, ← add_assoc]
    exact this

theorem sumF_approx : ∀ (T : Tree) (r : ℚ), (∀ v ∈ values T, Grid f64 v) → sumF T = some r → Approx (depth T) (values T).sum (size (values T)) r := by
  intro T
  induction T with
  | leaf ts =>
    intro r hg hr
    have := nodeSum_approx ts 0 0 0 0 r hg approx_zero hr
    simpa [values, depth] using this
  | add l r ihl ihr =>
    intro s hg hs
    simp only [sumF, Option.bind_eq_bind, Option.bind_eq_some_iff] at hs
    obtain ⟨a, ha, b, hb, hs⟩ := hs
    have h1 := ihl a (fun v hv => hg v (by simp [values, hv])) ha
    have h2 := ihr b (fun v hv => hg v (by simp [values, hv])) hb
    rw [values, List.sum_append, size_append]
    exact (h1.weaken (Nat.le_max_left _ _)).add (h2.weaken (Nat.le_max_right _ _)) hs

theorem perm_size {a b : List ℚ} (h : a.Perm b) : size a = size b := (h.map _).sum_eq

/-- C112. Whatever the machine, the threads and the order of the additions: a sum that is finite differs from the sum of the values by at most `(1 + 2^-53)^k - 1` times the
sum of their absolute values, where `k` is the number of additions in which one value takes part. -/
theorem C112_error (field : List ℚ) (hf : ∀ v ∈ field, Rep f64 |v|) (T : Tree) (h : (values T).Perm field) (r : ℚ) (hr : sumF T = some r) :
    |r - field.sum| ≤ ((1 + u) ^ depth T - 1) * size field := by
  have hg : ∀ v ∈ values T, Grid f64 v := by
    intro v hv
    have := rep_grid (hf v (h.mem_iff.1 hv))
    rcases abs_choice v with e | e
    · rwa [e] at this
    · rw [e] at this; simpa using grid_neg this
  have := (sumF_approx T r hg hr).err
  rwa [h.sum_eq, perm_size h] at this

theorem nodeDepth_le (m : Nat) : ∀ (ts : List (List ℚ)) (k : Nat), (∀ t ∈ ts, t.length ≤ m) → nodeDepth ts k ≤ max k m + ts.length := by
  intro ts
  induction ts with
  | nil => intro k _; simp [nodeDepth]
  | cons t ts ih =>
    intro k h
    have h1 := h t (by simp)
    have := ih (max k t.length + 1) (fun t ht => h t (by simp [ht]))
    simp only [nodeDepth, List.length_cons]; omega

/-- C112. The number of additions: at most the number of sites of a thread plus the number of threads, and one more for each addition of nodes on the way. -/
theorem C112_depth :
    (∀ (ts : List (List ℚ)) (m : Nat), (∀ t ∈ ts, t.length ≤ m) → depth (.leaf ts) ≤ m + ts.length) ∧
    ∀ l r : Tree, depth (.add l r) = max (depth l) (depth r) + 1 :=
  ⟨fun ts m h => by simpa [depth] using nodeDepth_le m ts 0 h, fun _ _ => rfl⟩

/-- C112. Two machines, or two runs, differ by at most the sum of the two errors. -/
theorem C112_two_machines (field : List ℚ) (hf : ∀ v ∈ field, Rep f64 |v|) (T T' : Tree) (h : (values T).Perm field) (h' : (values T').Perm field) (r r' : ℚ)
    (hr : sumF T = some r) (hr' : sumF T' = some r') : |r - r'| ≤ ((1 + u) ^ depth T + (1 + u) ^ depth T' - 2) * size field := by
  have h1 := C112_error field hf T h r hr
  have h2 := C112_error field hf T' h' r' hr'
  have : r - r' = (r - field.sum) - (r' - field.sum) := by ring
  rw [this]
  refine (abs_sub _ _).trans ?_
  linarith

/-! ## finite sums -/

theorem f64_ok : 0 < f64.p ∧ f64.emin ≤ f64.emax := by decide
theorem f32_ok : 0 < f32.p ∧ f32.emin ≤ f32.emax := by decide

theorem Approx.abs_le {k : Nat} {S A v : ℚ} (h : Approx k S A v) : |v| ≤ (1 + u) ^ k * A := by
  have e : v = (v - S) + S := by ring
  rw [e]
  refine (abs_add_le _ _).trans ?_
  linarith [h.err, h.bound]

theorem Approx.finite {k : Nat} {S A v T B w : ℚ} (h1 : Approx k S A v) (h2 : Approx k T B w) (ht : (1 + u) ^ k * (A + B) ≤ f64.top) :
    ∃ z, op f64 (v + w) = some z := by
  refine ⟨_, op_of_le f64_ok.1 f64_ok.2 ((abs_add_le _ _).trans ?_)⟩
  linarith [h1.abs_le, h2.abs_le]

theorem scale_mono {k l : Nat} {A B t : ℚ} (hk : k ≤ l) (hA : 0 ≤ A) (hAB : A ≤ B) (h : (1 + u) ^ l * B ≤ t) : (1 + u) ^ k * A ≤ t := by
  have h0 : (0 : ℚ) ≤ (1 + u) ^ k := pow_nonneg (by linarith [u_pos]) k
  calc (1 + u) ^ k * A ≤ (1 + u) ^ k * B := mul_le_mul_of_nonneg_left hAB h0
    _ ≤ (1 + u) ^ l * B := mul_le_mul_of_nonneg_right (pow_mono hk) (hA.trans hAB)
    _ ≤ t := h

theorem Approx.nonneg {k : Nat} {S A v : ℚ} (h : Approx k S A v) : 0 ≤ A := (abs_nonneg _).trans h.bound

theorem threadSum_finite : ∀ (vs : List ℚ) (k : Nat) (S A acc : ℚ), (∀ v ∈ vs, Grid f64 v) → Approx k S A acc → (1 + u) ^ (k + vs.length) * (A + size vs) ≤ f64.top →
    ∃ r, threadSum vs acc = some r := by
  intro vs
  induction vs with
  | nil => intro k S A acc _ _ _; exact ⟨acc, rfl⟩
  | cons v vs ih =>
    intro k S A acc hg h ht
    have hv := (approx_of (hg v (by simp))).weaken (Nat.zero_le k)
    have e : A + size (v :: vs) = A + |v| + size vs := by rw [size_cons, add_assoc]
    rw [e] at ht
    obtain ⟨a, ha⟩ := h.finite hv (scale_mono (l := k + (v :: vs).length) (by omega) (by linarith [h.nonneg, hv.nonneg]) (by linarith [size_nonneg vs]) ht)
    obtain ⟨r, hr⟩ := ih (k + 1) _ _ a (fun w hw => hg w (by simp [hw])) (h.add hv ha) (by
      have : k + 1 + vs.length = k + (v :: vs).length := by simp; omega
      rw [this]; exact ht)
    exact ⟨r, by simp only [threadSum, ha, Option.bind_eq_bind, Option.bind_some, hr]⟩

theorem nodeDepth_ge : ∀ (ts : List (List ℚ)) (k : Nat), k ≤ nodeDepth ts k := by
  intro ts
  induction ts with
  | nil => intro k; exact Nat.le_refl _
  | cons t ts ih => intro k; exact le_trans (by omega) (ih (max k t.length + 1))

theorem nodeSum_finite : ∀ (ts : List (List ℚ)) (k : Nat) (S A d : ℚ), (∀ v ∈ ts.flatten, Grid f64 v) → Approx k S A d →
    (1 + u) ^ nodeDepth ts k * (A + size ts.flatten) ≤ f64.top → ∃ r, nodeSum ts d = some r := by
  intro ts
  induction ts with
  | nil => intro k S A d _ _ _; exact ⟨d, rfl⟩
  | cons t ts ih =>
    intro k S A d hg h ht
    have hge := nodeDepth_ge ts (max k t.length + 1)
    simp only [nodeDepth] at ht
    rw [List.flatten_cons, size_append, ← add_assoc] at ht
    have hgt : ∀ v ∈ t, Grid f64 v := fun v hv => hg v (by simp [hv])
    have p1 := size_nonneg t
    have p2 := size_nonneg ts.flatten
    have p3 := h.nonneg
    obtain ⟨x, hx⟩ := threadSum_finite t 0 0 0 0 hgt approx_zero (scale_mono (l := nodeDepth ts (max k t.length + 1)) (by omega) (by linarith) (by linarith) ht)
    have h1 := threadSum_approx t 0 0 0 0 x hgt approx_zero hx
    simp only [zero_add] at h1
    have q1 := h.weaken (Nat.le_max_left k t.length)
    have q2 := h1.weaken (Nat.le_max_right k t.length)
    obtain ⟨d', hd⟩ := q1.finite q2 (scale_mono (l := nodeDepth ts (max k t.length + 1)) (by omega) (by linarith) (by linarith) ht)
    obtain ⟨r, hr⟩ := ih _ _ _ d' (fun v hv => hg v (by rw [List.flatten_cons, List.mem_append]; exact .inr hv)) (q1.add q2 hd) ht
    exact ⟨r, by simp only [nodeSum, hx, hd, Option.bind_eq_bind, Option.bind_some, hr]⟩

theorem sumF_finite : ∀ (T : Tree), (∀ v ∈ values T, Grid f64 v) → (1 + u) ^ depth T * size (values T) ≤ f64.top → ∃ r, sumF T = some r := by
  intro T
  induction T with
  | leaf ts =>
    intro hg ht
    exact nodeSum_finite ts 0 0 0 0 hg approx_zero (by simpa [values, depth] using ht)
  | add l r ihl ihr =>
    intro hg ht
    simp only [values, size_append, depth] at ht
    have p1 := size_nonneg (values l)
    have p2 := size_nonneg (values r)
    have gl : ∀ v ∈ values l, Grid f64 v := fun v hv => hg v (by simp [values, hv])
    have gr : ∀ v ∈ values r, Grid f64 v := fun v hv => hg v (by simp [values, hv])
    obtain ⟨a, ha⟩ := ihl gl (scale_mono (l := max (depth l) (depth r) + 1) (by omega) (by linarith) (by linarith) ht)
    obtain ⟨b, hb⟩ := ihr gr (scale_mono (l := max (depth l) (depth r) + 1) (by omega) (by linarith) (by linarith) ht)
    have h1 := (sumF_approx l a gl ha).weaken (Nat.le_max_left (depth l) (depth r))
    have h2 := (sumF_approx r b gr hb).weaken (Nat.le_max_right (depth l) (depth r))
    obtain ⟨z, hz⟩ := h1.finite h2 (scale_mono (l := max (depth l) (depth r) + 1) (by omega) (by linarith) (by linarith) ht)
    exact ⟨z, by simp only [sumF, ha, hb, Option.bind_eq_bind, Option.bind_some, hz]⟩

theorem grid_of_abs {F : Fmt} {v : ℚ} (h : Rep F |v|) : Grid F v := by
  have := rep_grid h
  rcases abs_choice v with e | e
  · rwa [e] at this
  · rw [e] at this; simpa using grid_neg this

/-- C112. The sum is finite, on this machine, when the absolute values add up to less than the largest number divided by `(1 + 2^-53)^k`. -/
theorem C112_finite (field : List ℚ) (hf : ∀ v ∈ field, Rep f64 |v|) (T : Tree) (h : (values T).Perm field) (hs : (1 + u) ^ depth T * size field ≤ f64.top) :
    ∃ r, sumF T = some r :=
  sumF_finite T (fun v hv => grid_of_abs (hf v (h.mem_iff.1 hv))) (by rwa [perm_size h])

/-! ## exact sums -/

/-- a multiple of a power of two -/
def Mult (e : Int) (x : ℚ) : Prop := ∃ z : Int, x = z * 2 ^ e

theorem mult_add {e : Int} {x y : ℚ} (hx : Mult e x) (hy : Mult e y) : Mult e (x + y) := by
  obtain ⟨a, rfl⟩ := hx; obtain ⟨b, rfl⟩ := hy
  exact ⟨a + b, by push_cast; ring⟩

theorem mult_rep {F : Fmt} {e : Int} (h1 : F.emin ≤ e) (h2 : e ≤ F.emax) {x : ℚ} (hx : Mult e x) (hs : |x| < 2 ^ (F.p + e)) : Rep F |x| := by
  obtain ⟨z, rfl⟩ := hx
  have hz := zp e
  refine ⟨z.natAbs, e, ?_, ?_, h1, h2⟩
  · rw [abs_mul, abs_of_pos hz]; congr 1; rw [Nat.cast_natAbs, Int.cast_abs]
  · rw [abs_mul, abs_of_pos hz, zpow_add₀ (by norm_num : (2 : ℚ) ≠ 0), zpow_natCast] at hs
    have := lt_of_mul_lt_mul_right hs hz.le
    rw [← Int.cast_abs, ← Nat.cast_natAbs] at this
    exact_mod_cast this

theorem op_exact {e : Int} (h1 : f64.emin ≤ e) (h2 : e ≤ f64.emax) {x : ℚ} (hx : Mult e x) (hs : |x| < 2 ^ (53 + e)) : op f64 x = some x :=
  op_self f64_ok.1 f64_ok.2 (mult_rep h1 h2 hx hs)

theorem mult_sum {e : Int} : ∀ vs : List ℚ, (∀ v ∈ vs, Mult e v) → Mult e vs.sum := by
  intro vs
  induction vs with
  | nil => intro _; exact ⟨0, by simp⟩
  | cons v vs ih => intro h; rw [List.sum_cons]; exact mult_add (h v (by simp)) (ih fun w hw => h w (by simp [hw]))

theorem abs_sum_le : ∀ vs : List ℚ, |vs.sum| ≤ size vs := by
  intro vs
  induction vs with
  | nil => simp [size]
  | cons v vs ih => rw [List.sum_cons, size_cons]; exact (abs_add_le _ _).trans (by linarith)

theorem threadSum_exact {e : Int} (h1 : f64.emin ≤ e) (h2 : e ≤ f64.emax) : ∀ (vs : List ℚ) (acc : ℚ), (∀ v ∈ vs, Mult e v) → Mult e acc → |acc| + size vs < 2 ^ (53 + e) →
    threadSum vs acc = some (acc + vs.sum) := by
  intro vs
  induction vs with
  | nil => intro acc _ _ _; simp [threadSum]
  | cons v vs ih =>
    intro acc hm ha hs
    rw [size_cons] at hs
    have p := size_nonneg vs
    have q := abs_add_le acc v
    have hv := mult_add ha (hm v (by simp))
    rw [threadSum, op_exact h1 h2 hv (by linarith), Option.bind_eq_bind, Option.bind_some, ih _ (fun w hw => hm w (by simp [hw])) hv (by linarith), List.sum_cons, add_assoc]

theorem nodeSum_exact {e : Int} (h1 : f64.emin ≤ e) (h2 : e ≤ f64.emax) : ∀ (ts : List (List ℚ)) (d : ℚ), (∀ v ∈ ts.flatten, Mult e v) → Mult e d →
    |d| + size ts.flatten < 2 ^ (53 + e) → nodeSum ts d = some (d + ts.flatten.sum) := by
  intro ts
  induction ts with
  | nil => intro d _ _ _; simp [nodeSum]
  | cons t ts ih =>
    intro d hm hd hs
    rw [List.flatten_cons, size_append] at hs
    have p1 := size_nonneg ts.flatten
    have p2 := size_nonneg t
    have p3 := abs_sum_le t
    have p4 := abs_add_le d t.sum
    have p5 := abs_nonneg d
    have ht : ∀ v ∈ t, Mult e v := fun v hv => hm v (by simp [hv])
    have hts : ∀ v ∈ ts.flatten, Mult e v := fun v hv => hm v (by rw [List.flatten_cons, List.mem_append]; exact .inr hv)
    have hv := mult_add hd (mult_sum t ht)
    rw [nodeSum, threadSum_exact h1 h2 t 0 ht ⟨0, by simp⟩ (by simp only [abs_zero, zero_add]; linarith), Option.bind_eq_bind, Option.bind_some, zero_add, op_exact h1 h2 hv (by linarith),
      Option.bind_some, ih _ hts hv (by linarith), List.flatten_cons, List.sum_append, add_assoc]

theorem sumF_exact {e : Int} (h1 : f64.emin ≤ e) (h2 : e ≤ f64.emax) : ∀ (T : Tree), (∀ v ∈ values T, Mult e v) → size (values T) < 2 ^ (53 + e) →
    sumF T = some (values T).sum := by
  intro T
  induction T with
  | leaf ts =>
    intro hm hs
    have := nodeSum_exact h1 h2 ts 0 hm ⟨0, by simp⟩ (by simpa [values] using hs)
    simpa [sumF, values] using this
  | add l r ihl ihr =>
    intro hm hs
    simp only [values, size_append] at hs hm
    have p1 := size_nonneg (values l)
    have p2 := size_nonneg (values r)
    have p3 := abs_sum_le (values l)
    have p4 := abs_sum_le (values r)
    have p5 := abs_add_le (values l).sum (values r).sum
    have hl : ∀ v ∈ values l, Mult e v := fun v hv => hm v (by simp [hv])
    have hr : ∀ v ∈ values r, Mult e v := fun v hv => hm v (by simp [hv])
    rw [sumF, ihl hl (by linarith), ihr hr (by linarith), Option.bind_eq_bind, Option.bind_some, Option.bind_some,
      op_exact h1 h2 (mult_add (mult_sum _ hl) (mult_sum _ hr)) (by linarith), values, List.sum_append]

/-- C112. Sums of multiples of one power of two, whose absolute values add up to less than 2^53 of it, are exact on every machine in every order: so sums of
integers below 2^53. -/
theorem C112_exact (field : List ℚ) (e : Int) (h1 : -1074 ≤ e) (h2 : e ≤ 971) (hm : ∀ v ∈ field, Mult e v) (hs : size field < 2 ^ (53 + e)) (T : Tree)
    (h : (values T).Perm field) : sumF T = some field.sum := by
  rw [sumF_exact h1 h2 T (fun v hv => hm v (h.mem_iff.1 hv)) (by rwa [perm_size h]), h.sum_eq]

/-! ## sums of numbers that are not negative -/

structure Pos (vs : List ℚ) (r : ℚ) : Prop where
  nonneg : 0 ≤ r
  zero : r = 0 ↔ ∀ v ∈ vs, v = 0
  grid : Grid f64 r

theorem near_zero {x : ℚ} (h : 0 ≤ x) (hg : Grid f64 x) : near f64 x = 0 ↔ x = 0 := by
  constructor
  · intro h0
    by_contra hx
    have hpos : 0 < x := lt_of_le_of_ne h (Ne.symm hx)
    have := near_err hg
    rw [h0, zero_sub, abs_neg, abs_of_pos hpos] at this
    have e : (2 : ℚ) ^ (-(f64.p : Int)) < 1 := by
      show (2 : ℚ) ^ (-53 : Int) < 1
      norm_num
    nlinarith
  · rintro rfl; simp [near]

theorem Pos.add {a b : List ℚ} {x y z : ℚ} (hx : Pos a x) (hy : Pos b y) (h : op f64 (x + y) = some z) : Pos (a ++ b) z := by
  obtain ⟨rfl, -⟩ := op_some.1 h
  refine ⟨near_nonneg (by linarith [hx.nonneg, hy.nonneg]), ?_, near_grid' _ _⟩
  rw [near_zero (by linarith [hx.nonneg, hy.nonneg]) (grid_add hx.grid hy.grid)]
  constructor
  · intro h0
    have e1 : x = 0 := by linarith [hx.nonneg, hy.nonneg]
    have e2 : y = 0 := by linarith [hx.nonneg, hy.nonneg]
    intro v hv
    rcases List.mem_append.1 hv with hv | hv
    · exact hx.zero.1 e1 v hv
    · exact hy.zero.1 e2 v hv
  · intro h0
    rw [hx.zero.2 fun v hv => h0 v (by simp [hv]), hy.zero.2 fun v hv => h0 v (by simp [hv]), add_zero]

theorem pos_one {v : ℚ} (h : 0 ≤ v) (hg : Grid f64 v) : Pos [v] v := ⟨h, by simp, hg⟩

theorem pos_nil : Pos [] 0 := ⟨le_refl _, by simp, grid_zero⟩

theorem threadSum_pos : ∀ (vs a : List ℚ) (acc r : ℚ), (∀ v ∈ vs, 0 ≤ v ∧ Grid f64 v) → Pos a acc → threadSum vs acc = some r → Pos (a ++ vs) r := by
  intro vs
  induction vs with
  | nil => intro a acc r _ h hr; simp only [threadSum, Option.some.injEq] at hr; subst hr; simpa using h
  | cons v vs ih =>
    intro a acc r hp h hr
    simp only [threadSum, Option.bind_eq_bind, Option.bind_eq_some_iff] at hr
    obtain ⟨b, hb, hr⟩ := hr
    have hv := hp v (by simp)
    have := ih _ b r (fun w hw => hp w (by simp [hw])) (h.add (pos_one hv.1 hv.2) hb) hr
    simpa using this

theorem nodeSum_pos : ∀ (ts : List (List ℚ)) (a : List ℚ) (d r : ℚ), (∀ v ∈ ts.flatten, 0 ≤ v ∧ Grid f64 v) → Pos a d → nodeSum ts d = some r → Pos (a ++ ts.flatten) r := by
  intro ts
  induction ts with
  | nil => intro a d r _ h hr; simp only [nodeSum, Option.some.injEq] at hr; subst hr; simpa using h
  | cons t ts ih =>
    intro a d r hp h hr
    simp only [nodeSum, Option.bind_eq_bind, Option.bind_eq_some_iff] at hr
    obtain ⟨x, hx, d', hd, hr⟩ := hr
    have h1 := threadSum_pos t [] 0 x (fun v hv => hp v (by simp [hv])) pos_nil hx
    have := ih _ d' r (fun v hv => hp v (by rw [List.flatten_cons, List.mem_append]; exact .inr hv)) (h.add h1 hd) hr
    simpa using this

theorem sumF_pos : ∀ (T : Tree) (r : ℚ), (∀ v ∈ values T, 0 ≤ v ∧ Grid f64 v) → sumF T = some r → Pos (values T) r := by
  intro T
  induction T with
  | leaf ts => intro r hp hr; simpa [values] using nodeSum_pos ts [] 0 r hp pos_nil hr
  | add l r ihl ihr =>
    intro s hp hs
    simp only [sumF, Option.bind_eq_bind, Option.bind_eq_some_iff] at hs
    obtain ⟨a, ha, b, hb, hs⟩ := hs
    exact (ihl a (fun v hv => hp v (by simp [values, hv])) ha).add (ihr b (fun v hv => hp v (by simp [values, hv])) hb) hs

end Verif.FloatSum
