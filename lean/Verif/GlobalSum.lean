import Verif.Layout
import Mathlib.Algebra.BigOperators.Group.Finset.Basic
import Mathlib.Algebra.BigOperators.Intervals
import Mathlib.Tactic.Ring
/-
The ring sum over a grid of nodes, lib/qdp_parscalar_global_sum.cc.  Nodes are named by their logical coordinates; all nodes run the same
program; channels between neighbours deliver in order, so the i-th message received is the i-th one sent by the neighbour.
The addition is an arbitrary function (that of floating point numbers, say) unless said otherwise.
-/
namespace Verif.GlobalSum
open Verif Verif.Layout

/-! ## model -/

variable {T : Type}

/-- the logical coordinates of the neighbour in the negative direction; `P` nodes in dimension `d`, periodic -/
def minus (P d : Nat) (c : List Nat) : List Nat := c.set d ((c.getD d 0 + (P - 1)) % P)

/-- the send buffer of node `c` before step `i` of the loop, lib/qdp_parscalar_global_sum.cc:90-131: first the own data, then what was
received from the negative direction, that is, what that node had in its buffer one step before -/
def sendBuf (P d : Nat) (x : List Nat → Nat → T) : Nat → List Nat → Nat → T
  | 0, c => x c
  | i + 1, c => sendBuf P d x i (minus P d c)

/-- `all_data(j, k)` on node `c`, lib/qdp_parscalar_global_sum.cc:94-96, 128-130 -/
def allData (P d : Nat) (x : List Nat → Nat → T) (c : List Nat) (j k : Nat) : T := sendBuf P d x k c j

/-- the loop over the other contributions, lib/qdp_parscalar_global_sum.cc:138-142; `n` iterations to go -/
def addLoop (add : T → T → T) (P : Nat) (row : Nat → T) : Nat → Nat → T → T
  | 0, _, acc => acc
  | n + 1, idx, acc => addLoop add P row n ((idx + 1) % P) (add acc (row ((idx + 1) % P)))

/-- `sumTDirection`, lib/qdp_parscalar_global_sum.cc:37-156: the new contents of `x` on node `c` -/
def sumDir (add : T → T → T) (P d : Nat) (x : List Nat → Nat → T) : List Nat → Nat → T :=
  fun c j => addLoop add P (allData P d x c j) (P - 1) (c.getD d 0) (allData P d x c j (c.getD d 0))

/-- the loop over dimensions of `sumT`, lib/qdp_parscalar_global_sum.cc:160-173; dimensions `d`, `d+1`, .. of extents `Ps` -/
def sumT (add : T → T → T) : Nat → List Nat → (List Nat → Nat → T) → List Nat → Nat → T
  | _, [], x => x
  | d, P :: Ps, x => sumT add (d + 1) Ps (sumDir add P d x)

/-! ## specification -/

/-- contributions along a line are added in the order 0, P-1, P-2, .., 1 -/
def lineSum (add : T → T → T) (P : Nat) (f : Nat → T) : T := ((List.range (P - 1)).map fun m => f (P - 1 - m)).foldl add (f 0)

/-- lines of lines: the first direction innermost -/
def gridSum (add : T → T → T) : List Nat → (List Nat → T) → T
  | [], f => f []
  | P :: Ps, f => gridSum add Ps fun cs => lineSum add P fun k => f (k :: cs)

/-! ## lemmas -/

theorem sendBuf_eq (P d : Nat) (x : List Nat → Nat → T) : ∀ (k : Nat) (c : List Nat), c.getD d 0 < P → d < c.length →
    sendBuf P d x k c = x (c.set d ((c.getD d 0 + k * (P - 1)) % P)) := by
  intro k
  induction k with
  | zero =>
    intro c hc hd
    simp only [sendBuf, Nat.zero_mul, Nat.add_zero, Nat.mod_eq_of_lt hc]
    rw [List.getD_eq_getElem?_getD, List.getElem?_eq_getElem hd, Option.getD_some, List.set_getElem_self]
  | succ k ih =>
    intro c hc hd
    have hP : 0 < P := by omega
    have hd' : d < (minus P d c).length := by simp [minus, hd]
    have hg : (minus P d c).getD d 0 = (c.getD d 0 + (P - 1)) % P := by
      unfold minus
      rw [List.getD_eq_getElem?_getD, List.getElem?_set_self hd, Option.getD_some]
    simp only [sendBuf]
    rw [ih (minus P d c) (by rw [hg]; exact Nat.mod_lt _ hP) hd', hg]
    unfold minus
    rw [List.set_set]
    congr 2
    rw [Nat.mod_add_mod]
    congr 1
    ring

/-- the data found at `(c + m) mod P` come from node `-m mod P` -/
theorem origin {P c m : Nat} (hc : c < P) (hm : m < P) : (c + (c + m) % P * (P - 1)) % P = (P - m) % P := by
  have hP : 0 < P := by omega
  generalize hk : (c + m) % P = k
  have hkP : k < P := by rw [← hk]; exact Nat.mod_lt _ hP
  have h1 : k = c + m ∨ k + P = c + m := by
    rcases Nat.lt_or_ge (c + m) P with h | h
    · left; rw [← hk, Nat.mod_eq_of_lt h]
    · right
      rw [Nat.mod_eq_sub_mod h, Nat.mod_eq_of_lt (by omega)] at hk
      omega
  obtain ⟨Q, rfl⟩ : ∃ Q, P = Q + 1 := ⟨P - 1, by omega⟩
  simp only [Nat.add_sub_cancel]
  rcases h1 with h1 | h1
  · by_cases hm0 : m = 0
    · subst hm0
      have : k = c := by omega
      subst this
      rw [show k + k * Q = 0 + (Q + 1) * k by ring, Nat.add_mul_mod_self_left]
      simp
    · have hk1 : 1 ≤ k := by omega
      have : c + k * Q = (Q + 1 - m) + (Q + 1) * (k - 1) := by
        obtain ⟨k', rfl⟩ : ∃ k', k = k' + 1 := ⟨k - 1, by omega⟩
        have e : (k' + 1) * Q = k' * Q + Q := by ring
        have e2 : (Q + 1) * k' = k' * Q + k' := by ring
        simp only [Nat.add_sub_cancel]
        rw [e, e2]
        omega
      rw [this, Nat.add_mul_mod_self_left]
  · have : c + k * Q = (Q + 1 - m) + (Q + 1) * k := by
      have e2 : (Q + 1) * k = k * Q + k := by ring
      rw [e2]
      omega
    rw [this, Nat.add_mul_mod_self_left]

theorem addLoop_eq (add : T → T → T) (P : Nat) (row : Nat → T) (c : Nat) : ∀ (n i : Nat) (acc : T),
    addLoop add P row n ((c + i) % P) acc = ((List.range n).map fun m => row ((c + (i + 1 + m)) % P)).foldl add acc := by
  intro n
  induction n with
  | zero => intro i acc; rfl
  | succ n ih =>
    intro i acc
    simp only [addLoop]
    have e : ((c + i) % P + 1) % P = (c + (i + 1)) % P := by rw [Nat.mod_add_mod, Nat.add_assoc]
    rw [e, ih (i + 1), List.range_succ_eq_map, List.map_cons, List.foldl_cons, List.map_map, Nat.add_zero]
    congr 1
    apply List.map_congr_left
    intro m _
    simp only [Function.comp]
    rw [show i + 1 + 1 + m = i + 1 + (m + 1) by omega]

/-- C49: after one direction every node of a line holds the contributions of the line, added in one order that does not depend on the node -/
theorem C49_direction (add : T → T → T) (P d : Nat) (x : List Nat → Nat → T) (c : List Nat) (j : Nat) (hd : d < c.length) (hc : c.getD d 0 < P) :
    sumDir add P d x c j = lineSum add P fun k => x (c.set d k) j := by
  have hP : 0 < P := by omega
  have hrow : ∀ m, m < P → allData P d x c j ((c.getD d 0 + m) % P) = x (c.set d ((P - m) % P)) j := by
    intro m hm
    unfold allData
    rw [sendBuf_eq P d x _ c hc hd, origin hc hm]
  unfold sumDir lineSum
  have h0 := hrow 0 hP
  rw [Nat.add_zero, Nat.mod_eq_of_lt hc, Nat.sub_zero, Nat.mod_self] at h0
  rw [h0]
  have := addLoop_eq add P (allData P d x c j) (c.getD d 0) (P - 1) 0 (x (c.set d 0) j)
  rw [Nat.add_zero, Nat.mod_eq_of_lt hc] at this
  rw [this]
  congr 1
  apply List.map_congr_left
  intro m hm
  rw [List.mem_range] at hm
  rw [hrow (0 + 1 + m) (by omega), Nat.mod_eq_of_lt (by omega)]
  congr 2
  omega

theorem sumDir_length_cons (add : T → T → T) (P d a : Nat) (x : List Nat → Nat → T) (c : List Nat) (j : Nat) (hd : d < c.length) (hc : c.getD d 0 < P) :
    sumDir add P (d + 1) x (a :: c) j = sumDir add P d (fun cs => x (a :: cs)) c j := by
  rw [C49_direction add P (d + 1) x (a :: c) j (by simpa using hd) (by simpa using hc), C49_direction add P d _ c j hd hc]
  rfl

/-- congruence on the nodes of the grid: `pre` are coordinates already dealt with -/
theorem sumT_congr (add : T → T → T) : ∀ (Ps : List Nat) (d : Nat) (x y : List Nat → Nat → T) (pre c : List Nat) (j : Nat), pre.length = d → InRange c Ps →
    (∀ c', InRange c' Ps → x (pre ++ c') j = y (pre ++ c') j) → sumT add d Ps x (pre ++ c) j = sumT add d Ps y (pre ++ c) j := by
  intro Ps
  induction Ps with
  | nil =>
    intro d x y pre c j _ hc h
    exact h c hc
  | cons P Ps ih =>
    intro d x y pre c j hpre hc h
    cases c with
    | nil => exact absurd hc (by simp [InRange])
    | cons a c =>
      simp only [sumT]
      have hpa : pre ++ a :: c = (pre ++ [a]) ++ c := by simp
      rw [hpa]
      refine ih (d + 1) _ _ (pre ++ [a]) c j (by simp [hpre]) hc.2 fun c' hc' => ?_
      have hga : ((pre ++ [a]) ++ c').getD d 0 = a := by
        rw [List.append_assoc, List.getD_eq_getElem?_getD, List.getElem?_append_right (by omega)]
        simp [hpre]
      have hdl : d < ((pre ++ [a]) ++ c').length := by simp [hpre]
      rw [C49_direction add P d x _ j hdl (by rw [hga]; exact hc.1), C49_direction add P d y _ j hdl (by rw [hga]; exact hc.1)]
      have hset : ∀ k, ((pre ++ [a]) ++ c').set d k = pre ++ (k :: c') := by
        intro k
        rw [List.append_assoc, List.set_append_right _ _ (by omega)]
        simp [hpre]
      unfold lineSum
      have hval : ∀ k, k < P → x (((pre ++ [a]) ++ c').set d k) j = y (((pre ++ [a]) ++ c').set d k) j := by
        intro k hk
        rw [hset k]
        exact h (k :: c') ⟨hk, hc'⟩
      beta_reduce
      rw [hval 0 (by have := hc.1; omega)]
      congr 1
      apply List.map_congr_left
      intro m hm
      rw [List.mem_range] at hm
      exact hval _ (by omega)

theorem sumT_shift (add : T → T → T) : ∀ (Ps : List Nat) (d a : Nat) (x : List Nat → Nat → T) (pre c : List Nat) (j : Nat), pre.length = d → InRange c Ps →
    sumT add (d + 1) Ps x (a :: (pre ++ c)) j = sumT add d Ps (fun cs => x (a :: cs)) (pre ++ c) j := by
  intro Ps
  induction Ps with
  | nil => intro d a x pre c j _ _; rfl
  | cons P Ps ih =>
    intro d a x pre c j hpre hc
    cases c with
    | nil => exact absurd hc (by simp [InRange])
    | cons b c =>
      simp only [sumT]
      have hpa : pre ++ b :: c = (pre ++ [b]) ++ c := by simp
      rw [hpa, ih (d + 1) a _ (pre ++ [b]) c j (by simp [hpre]) hc.2]
      refine sumT_congr add Ps (d + 1) _ _ (pre ++ [b]) c j (by simp [hpre]) hc.2 fun c' hc' => ?_
      have hga : ((pre ++ [b]) ++ c').getD d 0 = b := by
        rw [List.append_assoc, List.getD_eq_getElem?_getD, List.getElem?_append_right (by omega)]
        simp [hpre]
      exact sumDir_length_cons add P d a x _ j (by simp [hpre]) (by rw [hga]; exact hc.1)

/-! ## properties -/

/-- C49: on every node the result is the sum in one fixed order -/
theorem C49_order (add : T → T → T) : ∀ (Ps : List Nat) (x : List Nat → Nat → T) (c : List Nat) (j : Nat), InRange c Ps →
    sumT add 0 Ps x c j = gridSum add Ps fun c' => x c' j := by
  intro Ps
  induction Ps with
  | nil =>
    intro x c j hc
    cases c with
    | nil => rfl
    | cons => exact absurd hc (by simp [InRange])
  | cons P Ps ih =>
    intro x c j hc
    cases c with
    | nil => exact absurd hc (by simp [InRange])
    | cons a c =>
      have h := sumT_shift add Ps 0 a (sumDir add P 0 x) [] c j rfl hc.2
      simp only [List.nil_append] at h
      simp only [sumT, gridSum]
      rw [h, ih _ c j hc.2]
      congr 1
      funext cs
      rw [C49_direction add P 0 x (a :: cs) j (by simp) (by simpa using hc.1)]
      rfl

/-- C49: so the results agree on all nodes, bit for bit, for any addition -/
theorem C49_identical (add : T → T → T) (Ps : List Nat) (x : List Nat → Nat → T) (c c' : List Nat) (j : Nat) (hc : InRange c Ps) (hc' : InRange c' Ps) :
    sumT add 0 Ps x c j = sumT add 0 Ps x c' j := by
  rw [C49_order add Ps x c j hc, C49_order add Ps x c' j hc']

/-! ### exact addition -/

theorem foldl_add {M : Type} [AddCommMonoid M] (l : List M) (a : M) : l.foldl (· + ·) a = a + l.sum := by
  induction l generalizing a with
  | nil => simp
  | cons b l ih => rw [List.foldl_cons, ih, List.sum_cons, add_assoc]

theorem list_sum_range {M : Type} [AddCommMonoid M] (n : Nat) (f : Nat → M) : ((List.range n).map f).sum = ∑ m ∈ Finset.range n, f m := by
  induction n with
  | zero => simp
  | succ n ih => rw [List.range_succ, List.map_append, List.sum_append, ih, Finset.sum_range_succ]; simp

theorem lineSum_eq {M : Type} [AddCommMonoid M] (P : Nat) (hP : 0 < P) (f : Nat → M) : lineSum (· + ·) P f = ∑ k ∈ Finset.range P, f k := by
  obtain ⟨Q, rfl⟩ : ∃ Q, P = Q + 1 := ⟨P - 1, by omega⟩
  unfold lineSum
  rw [foldl_add, Finset.sum_range_succ', add_comm]
  congr 1
  simp only [Nat.add_sub_cancel]
  have : ((List.range Q).map fun m => f (Q - m)).sum = ∑ m ∈ Finset.range Q, f (Q - m) := by
    exact list_sum_range Q fun m => f (Q - m)
  rw [this, ← Finset.sum_range_reflect]
  refine Finset.sum_congr rfl fun k hk => ?_
  rw [Finset.mem_range] at hk
  congr 1
  omega

theorem sum_range_mul {M : Type} [AddCommMonoid M] (P : Nat) (hP : 0 < P) (f : Nat → Nat → M) : ∀ N,
    ∑ r ∈ Finset.range (P * N), f (r % P) (r / P) = ∑ q ∈ Finset.range N, ∑ k ∈ Finset.range P, f k q := by
  intro N
  induction N with
  | zero => simp
  | succ N ih =>
    rw [Finset.sum_range_succ, ← ih, Nat.mul_succ, Finset.sum_range_add]
    congr 1
    refine Finset.sum_congr rfl fun k hk => ?_
    rw [Finset.mem_range] at hk
    rw [Nat.mul_add_mod, Nat.mod_eq_of_lt hk, Nat.mul_add_div hP, Nat.div_eq_of_lt hk, Nat.add_zero]

/-- C49: for an exact, commutative addition it is the sum over all nodes -/
theorem C49_sum {M : Type} [AddCommMonoid M] : ∀ (Ps : List Nat) (f : List Nat → M), (∀ P ∈ Ps, 0 < P) →
    gridSum (· + ·) Ps f = ∑ r ∈ Finset.range (nsites Ps), f (digits r Ps) := by
  intro Ps
  induction Ps with
  | nil => intro f _; simp [gridSum, nsites, digits, one_nsmul]
  | cons P Ps ih =>
    intro f hP
    have hP0 := hP P (by simp)
    simp only [gridSum, nsites, digits]
    rw [ih _ fun Q hQ => hP Q (by simp [hQ]), sum_range_mul P hP0 (fun k q => f (k :: digits q Ps))]
    refine Finset.sum_congr rfl fun q _ => ?_
    exact lineSum_eq P hP0 _

/-- a non-trivial case with a non-associative operation: three by two nodes -/
example : sumT (fun a b => 2 * a + b) 0 [3, 2] (fun c _ => 10 * c.getD 0 0 + c.getD 1 0 + 1) [2, 1] 0 =
    sumT (fun a b => 2 * a + b) 0 [3, 2] (fun c _ => 10 * c.getD 0 0 + c.getD 1 0 + 1) [0, 0] 0 ∧
  sumT (fun a b => 2 * a + b) 0 [3, 2] (fun c _ => 10 * c.getD 0 0 + c.getD 1 0 + 1) [0, 0] 0 = 178 := by decide

end Verif.GlobalSum
