import Mathlib.Algebra.BigOperators.Group.List.Basic
import Mathlib.Algebra.Order.BigOperators.Group.List
import Mathlib.Algebra.Order.Group.Unbundled.Int
import Mathlib.Tactic.Linarith
import Verif.Basic
/-
Sums over fields of integers: `sum`, `norm2`, `innerProduct` of `LatticeInteger` with the overflow of `int`.  include/qdp_simpleword.h:494-531 (the result of
`sum`, `localNorm2`, `localInnerProduct` of `int` is `int`), 357-380 (site functions), include/qdp_scalar_specific.h:533-620, include/qdp_parscalar_specific.h:70-75,
724-818.  C50 treats the same loops for exact additions.

The iterations are distributed over threads arbitrarily, threads enter the critical section in any order, and `QMP_sum_int` adds the numbers of the nodes in any order
and grouping.  A sum that does not fit into an `int` is undefined.
-/
namespace Verif.IntSum
open Verif Verif.Outcome

/-- the value of a computation in `int`: 32 bits, overflow undefined -/
def fit (z : Int) : Outcome Int := if -2 ^ 31 ≤ z ∧ z < 2 ^ 31 then ok z else ub

/-- a thread: `dthread.elem() += …`, include/qdp_scalar_specific.h:549-557, include/qdp_parscalar_specific.h:741-749; the list holds the values at its sites in the
order of its iterations -/
def threadSum : List Int → Int → Outcome Int
  | [], acc => ok acc
  | v :: vs, acc => do
      let a ← fit (acc + v)
      threadSum vs a

/-- the critical sections of a node in the order in which the threads enter: `d.elem() += dthread.elem()`, include/qdp_scalar_specific.h:559-562,
include/qdp_parscalar_specific.h:751-757 -/
def nodeSum : List (List Int) → Int → Outcome Int
  | [], d => ok d
  | t :: ts, d => do
      let x ← threadSum t 0
      let d' ← fit (d + x)
      nodeSum ts d'

/-- the ways to add the numbers of several nodes -/
inductive Tree
  | leaf (threads : List (List Int))
  | add (l r : Tree)

/-- `sum` on many nodes: the sums of the nodes, then `QMP_sum_int`, include/qdp_parscalar_specific.h:70-75, 760-761; one node is a leaf -/
def sumInt : Tree → Outcome Int
  | .leaf ts => nodeSum ts 0
  | .add l r => do
      let a ← sumInt l
      let b ← sumInt r
      fit (a + b)

/-- the values at the sites of all threads of all nodes -/
def values : Tree → List Int
  | .leaf ts => ts.flatten
  | .add l r => values l ++ values r

/-- `localInnerProduct(int, int)` and `localNorm2(int)` at a site, include/qdp_simpleword.h:363-374 -/
def localInner (x y : Int) : Outcome Int := fit (x * y)

/-- the values whose sum is `innerProduct(a, b)` or `norm2(a)` = `innerProduct(a, a)`: the values at every site are computed in the loop of `sum` -/
def locals : List (Int × Int) → Outcome (List Int)
  | [] => ok []
  | p :: ps => do
      let v ← localInner p.1 p.2
      let vs ← locals ps
      pure (v :: vs)

/-! ### proofs -/

theorem fit_ok {z r : Int} : fit z = ok r ↔ r = z ∧ -2 ^ 31 ≤ z ∧ z < 2 ^ 31 := by
  unfold fit
  split
  · rename_i h; simp only [ok.injEq]; constructor
    · rintro rfl; exact ⟨rfl, h⟩
    · rintro ⟨rfl, -⟩; rfl
  · rename_i h; simp only [reduceCtorEq, false_iff]; exact fun h' => h h'.2

theorem threadSum_sound : ∀ (vs : List Int) (acc r : Int), threadSum vs acc = ok r → r = acc + vs.sum := by
  intro vs
  induction vs with
  | nil => intro acc r h; simp only [threadSum, ok.injEq] at h; simp [h]
  | cons v vs ih =>
    intro acc r h
    simp only [threadSum, bind_eq_ok] at h
    obtain ⟨a, h1, h2⟩ := h
    rw [fit_ok] at h1
    rw [ih a r h2, h1.1, List.sum_cons, add_assoc]

theorem nodeSum_sound : ∀ (ts : List (List Int)) (d r : Int), nodeSum ts d = ok r → r = d + ts.flatten.sum := by
  intro ts
  induction ts with
  | nil => intro d r h; simp only [nodeSum, ok.injEq] at h; simp [h]
  | cons t ts ih =>
    intro d r h
    simp only [nodeSum, bind_eq_ok] at h
    obtain ⟨x, h1, d', h2, h3⟩ := h
    rw [fit_ok] at h2
    rw [ih d' r h3, h2.1, threadSum_sound t 0 x h1, List.flatten_cons, List.sum_append]; omega

theorem sumInt_sound : ∀ (T : Tree) (r : Int), sumInt T = ok r → r = (values T).sum := by
  intro T
  induction T with
  | leaf ts => intro r h; simpa [values] using nodeSum_sound ts 0 r h
  | add l r ihl ihr =>
    intro s h
    simp only [sumInt, bind_eq_ok] at h
    obtain ⟨a, h1, b, h2, h3⟩ := h
    rw [fit_ok] at h3
    rw [values, List.sum_append, ← ihl a h1, ← ihr b h2, h3.1]

/-- the sum of the absolute values -/
def size (vs : List Int) : Int := (vs.map fun v => |v|).sum

theorem size_nonneg (vs : List Int) : 0 ≤ size vs := List.sum_nonneg (by
  intro x hx; obtain ⟨v, -, rfl⟩ := List.mem_map.1 hx; exact abs_nonneg v)

theorem size_cons (v : Int) (vs : List Int) : size (v :: vs) = |v| + size vs := by simp [size]

theorem size_append (a b : List Int) : size (a ++ b) = size a + size b := by simp [size]

theorem abs_sum_le : ∀ vs : List Int, |vs.sum| ≤ size vs := by
  intro vs
  induction vs with
  | nil => simp [size]
  | cons v vs ih => rw [List.sum_cons, size_cons]; exact (abs_add_le _ _).trans (by omega)

theorem fit_of_abs {z : Int} (h : |z| < 2 ^ 31) : fit z = ok z := by
  rw [fit_ok]
  have := abs_lt.1 h
  exact ⟨rfl, by omega, by omega⟩

theorem threadSum_ok : ∀ (vs : List Int) (acc : Int), |acc| + size vs < 2 ^ 31 → threadSum vs acc = ok (acc + vs.sum) := by
  intro vs
  induction vs with
  | nil => intro acc _; simp [threadSum]
  | cons v vs ih =>
    intro acc h
    rw [size_cons] at h
    have h1 : |acc + v| ≤ |acc| + |v| := abs_add_le _ _
    have h2 := size_nonneg vs
    simp only [threadSum]
    rw [fit_of_abs (by omega), ok_bind, ih _ (by omega), List.sum_cons, add_assoc]

theorem nodeSum_ok : ∀ (ts : List (List Int)) (d : Int), |d| + size ts.flatten < 2 ^ 31 → nodeSum ts d = ok (d + ts.flatten.sum) := by
  intro ts
  induction ts with
  | nil => intro d _; simp [nodeSum]
  | cons t ts ih =>
    intro d h
    rw [List.flatten_cons, size_append] at h
    have h1 := abs_sum_le t
    have h2 := size_nonneg ts.flatten
    have h3 := size_nonneg t
    have h4 : |d + t.sum| ≤ |d| + |t.sum| := abs_add_le _ _
    have h5 := abs_nonneg d
    simp only [nodeSum]
    rw [threadSum_ok t 0 (by simp; omega), ok_bind, zero_add, fit_of_abs (by omega), ok_bind, ih _ (by omega), List.flatten_cons, List.sum_append, add_assoc]

/-- C111. Whatever the machine, the threads and the order of the additions: if the sum of an integer field has a value at all, it is the sum of its values. -/
theorem C111_sound (field : List Int) (T : Tree) (h : (values T).Perm field) (r : Int) (hr : sumInt T = ok r) : r = field.sum := by
  rw [sumInt_sound T r hr, h.sum_eq]

/-- C111, partial. When the absolute values add up to less than 2^31 the sum is exact on every machine, with any number of threads, in every order of the additions.
Missing: other fields whose sum fits into an `int`, and fields whose sum does not, see `C111_order_refuted`, `C111_large_refuted`. -/
theorem C111_sum_partial (field : List Int) (hsize : size field < 2 ^ 31) (T : Tree) (h : (values T).Perm field) : sumInt T = ok field.sum := by
  have hs : size (values T) < 2 ^ 31 := by
    have : size (values T) = size field := (h.map _).sum_eq
    omega
  rw [← h.sum_eq]
  clear h hsize
  induction T with
  | leaf ts => have := nodeSum_ok ts 0 (by simpa [values] using hs); simpa [sumInt, values] using this
  | add l r ihl ihr =>
    simp only [values, size_append] at hs
    have h1 := size_nonneg (values l)
    have h2 := size_nonneg (values r)
    have h3 := abs_sum_le (values l)
    have h4 := abs_sum_le (values r)
    have h5 : |(values l).sum + (values r).sum| ≤ |(values l).sum| + |(values r).sum| := abs_add_le _ _
    simp only [sumInt, values, List.sum_append]
    rw [ihl (by omega), ihr (by omega), ok_bind, ok_bind, fit_of_abs (by omega)]

theorem threadSum_exact : ∀ (vs : List Int) (acc : Int),
    threadSum vs acc = ok (acc + vs.sum) ↔ ∀ k, 0 < k → k ≤ vs.length → -2 ^ 31 ≤ acc + (vs.take k).sum ∧ acc + (vs.take k).sum < 2 ^ 31 := by
  intro vs
  induction vs with
  | nil => intro acc; simp only [threadSum, List.sum_nil, add_zero, true_iff]; intro k h1 h2; simp at h2; omega
  | cons v vs ih =>
    intro acc
    have e : acc + (v :: vs).sum = (acc + v) + vs.sum := by rw [List.sum_cons, add_assoc]
    by_cases hf : -2 ^ 31 ≤ acc + v ∧ acc + v < 2 ^ 31
    · have h1 : fit (acc + v) = ok (acc + v) := fit_ok.2 ⟨rfl, hf⟩
      simp only [threadSum, h1, ok_bind]
      rw [e, ih (acc + v)]
      constructor
      · intro h k h0 hk
        cases k with
        | zero => omega
        | succ k =>
          rw [List.take_succ_cons, List.sum_cons, ← add_assoc]
          by_cases hz : k = 0
          · subst hz; simpa using hf
          · exact h k (by omega) (by simpa using hk)
      · intro h k h0 hk
        have := h (k + 1) (by omega) (by simpa using hk)
        rwa [List.take_succ_cons, List.sum_cons, ← add_assoc] at this
    · have h1 : fit (acc + v) = ub := if_neg hf
      simp only [threadSum, h1, ub_bind, reduceCtorEq, false_iff]
      intro h
      have := h 1 (by omega) (by simp)
      simp at this
      exact hf (by simpa using this)

/-- C111. On one node with one thread, exactly: the sum is the sum of the values when all sums of the first `k` sites fit into an `int`, and undefined otherwise. -/
theorem C111_serial_exact (field : List Int) : sumInt (.leaf [field]) =
    if ∀ k, k ≤ field.length → -2 ^ 31 ≤ (field.take k).sum ∧ (field.take k).sum < 2 ^ 31 then ok field.sum else ub := by
  have key := threadSum_exact field 0
  simp only [zero_add] at key
  have hub : ∀ (vs : List Int) (acc : Int), threadSum vs acc = ub ∨ ∃ r, threadSum vs acc = ok r := by
    intro vs
    induction vs with
    | nil => intro acc; exact .inr ⟨acc, rfl⟩
    | cons v vs ih =>
      intro acc
      by_cases hf : -2 ^ 31 ≤ acc + v ∧ acc + v < 2 ^ 31
      · have h1 : fit (acc + v) = ok (acc + v) := fit_ok.2 ⟨rfl, hf⟩
        simp only [threadSum, h1, ok_bind]; exact ih _
      · have h1 : fit (acc + v) = ub := if_neg hf
        exact .inl (by simp only [threadSum, h1, ub_bind])
  by_cases h : ∀ k, k ≤ field.length → -2 ^ 31 ≤ (field.take k).sum ∧ (field.take k).sum < 2 ^ 31
  · rw [if_pos h]
    have h1 := key.2 (fun k _ hk => h k hk)
    have h2 : fit (0 + field.sum) = ok field.sum := by
      have := h field.length (Nat.le_refl _)
      rw [List.take_length] at this
      rw [zero_add]; exact fit_ok.2 ⟨rfl, this⟩
    simp only [sumInt, nodeSum, h1, ok_bind, h2]
  · rw [if_neg h]
    have h1 : threadSum field 0 = ub := by
      rcases hub field 0 with h1 | ⟨r, h1⟩
      · exact h1
      · exfalso
        have e := threadSum_sound field 0 r h1
        rw [zero_add] at e; subst e
        apply h
        intro k hk
        by_cases hz : k = 0
        · subst hz; simp
        · exact key.1 h1 k (by omega) hk
    simp only [sumInt, nodeSum, h1, ub_bind]

/-- C111, refutation. The sum of the same field, which is 0, is undefined on one node and 0 on two nodes, and the other way round for another field:
integer sums are not independent of the machine. -/
theorem C111_order_refuted :
    ∃ a b c d : Int, a + b + c + d = 0 ∧
      sumInt (.leaf [[a, b, c, d]]) = ub ∧ sumInt (.add (.leaf [[a, c]]) (.leaf [[b, d]])) = ok 0 ∧
      sumInt (.leaf [[a, c, b, d]]) = ok 0 ∧ sumInt (.add (.leaf [[a, b]]) (.leaf [[c, d]])) = ub :=
  ⟨2 ^ 30, 2 ^ 30, -2 ^ 30, -2 ^ 30, by decide, by decide, by decide, by decide, by decide⟩

theorem nodeSum_fits : ∀ (ts : List (List Int)) (d r : Int), -2 ^ 31 ≤ d ∧ d < 2 ^ 31 → nodeSum ts d = ok r → -2 ^ 31 ≤ r ∧ r < 2 ^ 31 := by
  intro ts
  induction ts with
  | nil => intro d r hd h; simp only [nodeSum, ok.injEq] at h; subst h; exact hd
  | cons t ts ih =>
    intro d r _ h
    simp only [nodeSum, bind_eq_ok] at h
    obtain ⟨x, -, d', h2, h3⟩ := h
    rw [fit_ok] at h2
    exact ih d' r (by rw [h2.1]; exact h2.2) h3

theorem sumInt_fits (T : Tree) (r : Int) (h : sumInt T = ok r) : -2 ^ 31 ≤ r ∧ r < 2 ^ 31 := by
  cases T with
  | leaf ts => exact nodeSum_fits ts 0 r (by decide) h
  | add a b =>
    simp only [sumInt, bind_eq_ok] at h
    obtain ⟨x, -, y, -, h⟩ := h
    rw [fit_ok] at h
    rw [h.1]; exact h.2

theorem locals_ub : ∀ (ps : List (Int × Int)) (p : Int × Int), p ∈ ps → localInner p.1 p.2 = ub → locals ps = ub := by
  intro ps
  induction ps with
  | nil => intro p h; cases h
  | cons q ps ih =>
    intro p h hp
    simp only [locals]
    rcases List.mem_cons.1 h with rfl | h
    · rw [hp]; rfl
    · rw [ih p h hp]
      unfold localInner fit
      split <;> rfl

/-- C111, refutation. A sum that does not fit into an `int` has no value on any machine: so the sum of the constant field 128 on a lattice of 64^4 sites;
and neither has `norm2` of a field that is 46341 at some site. -/
theorem C111_large_refuted :
    (∀ (field : List Int) (T : Tree), (values T).Perm field → ¬ (-2 ^ 31 ≤ field.sum ∧ field.sum < 2 ^ 31) → ∀ r, sumInt T ≠ ok r) ∧
    (∀ T : Tree, (values T).Perm (List.replicate (64 ^ 4) 128) → ∀ r, sumInt T ≠ ok r) ∧
    (∀ ps : List (Int × Int), ((46341, 46341) : Int × Int) ∈ ps → locals ps = ub) := by
  refine ⟨fun field T h h1 r hr => ?_, fun T h r hr => ?_, fun ps h => locals_ub ps _ h (by decide)⟩
  · have e := C111_sound _ T h r hr
    have hf := sumInt_fits T r hr
    rw [e] at hf
    exact h1 hf
  · have e := C111_sound _ T h r hr
    have hf := sumInt_fits T r hr
    rw [List.sum_replicate] at e
    rw [e] at hf; norm_num at hf

/-! ### witnesses -/
example : sumInt (.add (.leaf [[1, 2], [3]]) (.leaf [[], [-4]])) = ok 2 ∧ size [1, 2, 3, -4] < 2 ^ 31 ∧
    (values (.add (.leaf [[1, 2], [3]]) (.leaf [[], [-4]]))).Perm [1, 2, 3, -4] := ⟨by decide, by decide, by simp [values]⟩
example : sumInt (.leaf [[2 ^ 31 - 1, 1, -1]]) = ub := by decide
end Verif.IntSum
