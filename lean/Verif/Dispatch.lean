import Verif.Subset
import Mathlib.Tactic.Ring
import Mathlib.Data.List.Nodup
import Mathlib.Algebra.Order.Group.Nat
/-
Distribution of a loop over threads, include/qdp_dispatch.h (OpenMP version).  The serial version (same file, lines 104-111) is the case of
one thread; the QMT version calls a library that is not part of the project.
-/
namespace Verif.Dispatch
open Verif Outcome Verif.Subset

/-! ## model -/

/-- the body of the parallel region, include/qdp_dispatch.h:36-51: `n` is `numSiteTable`, `T` the number of threads, `id` the own number.
The bounds passed to the function, or none if the thread has nothing to do.  The products are of type `int`. -/
def threadRange (n T id : Nat) : Outcome (Option (Nat × Nat)) :=
  let active := if T > n then n else T
  if id < n then do
    let a ← ckInt (n * id)
    let low ← cdiv a active
    let b ← ckInt (n * (id + 1))
    let high ← cdiv b active
    ok (some (low, high))
  else ok none

/-- all threads, include/qdp_dispatch.h:30-54 -/
def dispatch (n T : Nat) : Outcome (List (Option (Nat × Nat))) := mapO (threadRange n T) (List.range T)

/-- `for (j = lo; j < hi; ++j)`, the loop of every user function, include/qdp_scalar_specific.h:98-102, 135-139 -/
def share : Option (Nat × Nat) → List Nat
  | none => []
  | some (lo, hi) => List.range' lo (hi - lo)

/-! ## properties -/

/-- the number of threads that get work -/
def active (n T : Nat) : Nat := min T n

theorem threadRange_eq {n T id : Nat} (h : n * active n T < 2 ^ 31) (hid : id < T) :
    threadRange n T id = ok (if id < active n T then some (n * id / active n T, n * (id + 1) / active n T) else none) := by
  have ha : (if T > n then n else T) = active n T := by unfold active; split <;> omega
  unfold threadRange
  simp only [ha]
  by_cases h1 : id < n
  · have h2 : id < active n T := by unfold active; omega
    have h3 : n * (id + 1) ≤ n * active n T := Nat.mul_le_mul_left _ h2
    have h4 : n * id ≤ n * (id + 1) := Nat.mul_le_mul_left _ (by omega)
    rw [if_pos h1, if_pos h2, ckInt_of_lt (by omega), ckInt_of_lt (by omega)]
    have h5 : active n T ≠ 0 := by omega
    simp [cdiv, h5]
  · have h2 : ¬ id < active n T := by unfold active; omega
    rw [if_neg h1, if_neg h2]

theorem dispatch_eq {n T : Nat} (h : n * active n T < 2 ^ 31) :
    dispatch n T = ok ((List.range T).map fun id => if id < active n T then some (n * id / active n T, n * (id + 1) / active n T) else none) :=
  mapO_ok fun _ hid => threadRange_eq h (List.mem_range.1 hid)

theorem cover_prefix (n a : Nat) (k : Nat) :
    ((List.range k).flatMap fun id => share (some (n * id / a, n * (id + 1) / a))) = List.range (n * k / a) := by
  induction k with
  | zero => simp
  | succ k ih =>
    have h : n * k / a ≤ n * (k + 1) / a := Nat.div_le_div_right (Nat.mul_le_mul_left _ (by omega))
    rw [List.range_succ, List.flatMap_append, ih]
    simp only [List.flatMap_cons, List.flatMap_nil, List.append_nil, share]
    rw [List.range_eq_range', List.range_eq_range', show n * (k + 1) / a = n * k / a + (n * (k + 1) / a - n * k / a) by omega,
      ← List.range'_append_1]
    simp

/-- C47: the loops of the threads, one after the other, run through `0, 1, .., n-1`; with work for every active thread, the shares
differing by at most one iteration, and none for the other threads -/
theorem C47_cover {n T : Nat} (hT : 0 < T) (h : n * active n T < 2 ^ 31) :
    ∃ rs, dispatch n T = ok rs ∧ rs.length = T ∧ rs.flatMap share = List.range n ∧
      (∀ id r, rs[id]? = some r → id < active n T → n / active n T ≤ (share r).length ∧ (share r).length ≤ n / active n T + 1 ∧ 0 < (share r).length) ∧
      (∀ id r, rs[id]? = some r → ¬ id < active n T → share r = []) := by
  refine ⟨_, dispatch_eq h, by simp, ?_, ?_, ?_⟩
  · rw [List.flatMap_map]
    by_cases hn : n = 0
    · subst hn
      have : active 0 T = 0 := by unfold active; omega
      simp [this, share]
    · have hpos : 0 < active n T := by unfold active; omega
      have hle : active n T ≤ T := by unfold active; omega
      have hsplit : List.range T = List.range (active n T) ++ List.range' (active n T) (T - active n T) := by
        rw [List.range_eq_range', List.range_eq_range']
        conv_lhs => rw [show T = active n T + (T - active n T) by omega, ← List.range'_append_1]
        simp
      rw [hsplit, List.flatMap_append]
      have e1 : ((List.range (active n T)).flatMap fun id =>
          share (if id < active n T then some (n * id / active n T, n * (id + 1) / active n T) else none)) = List.range n := by
        rw [show List.range n = List.range (n * active n T / active n T) by rw [Nat.mul_div_cancel _ hpos], ← cover_prefix]
        unfold List.flatMap
        congr 1
        apply List.map_congr_left
        intro id hid
        rw [if_pos (List.mem_range.1 hid)]
      have e2 : ((List.range' (active n T) (T - active n T)).flatMap fun id =>
          share (if id < active n T then some (n * id / active n T, n * (id + 1) / active n T) else none)) = [] := by
        rw [List.flatMap_eq_nil_iff]
        intro id hid
        rw [List.mem_range'_1] at hid
        rw [if_neg (by omega)]
        rfl
      rw [e1, e2, List.append_nil]
  · intro id r hr hid
    rw [List.getElem?_map, List.getElem?_range (by unfold active at hid; omega)] at hr
    simp only [Option.map_some, Option.some.injEq] at hr
    rw [if_pos hid] at hr
    subst hr
    simp only [share, List.length_range']
    have han : active n T ≤ n := by unfold active; omega
    generalize active n T = a at *
    have hpos : 0 < a := by omega
    have hmul : n * (id + 1) = n * id + n := by ring
    rw [hmul]
    have h1 := Nat.div_add_mod (n * id) a
    have h2 := Nat.div_add_mod n a
    have h3 := Nat.div_add_mod (n * id + n) a
    have l1 := Nat.mod_lt (n * id) hpos
    have l2 := Nat.mod_lt n hpos
    have hadd : (n * id + n) / a = n * id / a + n / a + if a ≤ n * id % a + n % a then 1 else 0 := Nat.add_div hpos
    have hq : 1 ≤ n / a := (Nat.one_le_div_iff hpos).2 han
    rw [hadd]
    split <;> omega
  · intro id r hr hid
    rw [List.getElem?_map] at hr
    rcases hx : (List.range T)[id]? with _ | x
    · rw [hx] at hr; simp at hr
    · rw [hx] at hr
      have hlt : id < T := by
        have := List.getElem?_eq_some_iff.1 hx
        obtain ⟨h', _⟩ := this
        simpa using h'
      rw [List.getElem?_range hlt] at hx
      simp only [Option.map_some, Option.some.injEq] at hr hx
      subst hx
      rw [if_neg hid] at hr
      subst hr
      rfl

/-- C47: so no two threads share an iteration and none is left out -/
theorem C47_disjoint {n T : Nat} (hT : 0 < T) (h : n * active n T < 2 ^ 31) :
    ∃ rs, dispatch n T = ok rs ∧ (∀ j, j < n ↔ ∃ r ∈ rs, j ∈ share r) ∧
      ∀ (s t : Nat) (r r'), rs[s]? = some r → rs[t]? = some r' → s ≠ t → ∀ j ∈ share r, j ∉ share r' := by
  obtain ⟨rs, h1, _, h3, _⟩ := C47_cover hT h
  refine ⟨rs, h1, ?_, ?_⟩
  · intro j
    rw [← List.mem_range, ← h3, List.mem_flatMap]
  · intro s t r r' hs ht hne j hj hj'
    have hnd : (rs.flatMap share).Nodup := by rw [h3]; exact List.nodup_range
    rw [List.nodup_flatMap] at hnd
    have hp := List.pairwise_iff_getElem.1 hnd.2
    obtain ⟨hs1, hs2⟩ := List.getElem?_eq_some_iff.1 hs
    obtain ⟨ht1, ht2⟩ := List.getElem?_eq_some_iff.1 ht
    rcases Nat.lt_or_gt_of_ne hne with hlt | hlt
    · have := hp s t hs1 ht1 hlt
      rw [hs2, ht2] at this
      exact this hj hj'
    · have := hp t s ht1 hs1 hlt
      rw [hs2, ht2] at this
      exact this hj' hj

/-- C47: and from `2 ^ 31` on the bound of the last active thread overflows -/
theorem C47_overflow {n T : Nat} (h : 2 ^ 31 ≤ n * active n T) : threadRange n T (active n T - 1) = ub := by
  have hpos : 0 < active n T := by
    rcases Nat.eq_zero_or_pos (active n T) with h0 | h0
    · rw [h0] at h; omega
    · exact h0
  have hle : active n T ≤ n := by unfold active; omega
  have ha : (if T > n then n else T) = active n T := by unfold active; split <;> omega
  unfold threadRange
  simp only [ha]
  rw [if_pos (by omega)]
  have e : active n T - 1 + 1 = active n T := by omega
  rw [e]
  have hb : ckInt (n * active n T) = ub := by unfold ckInt; rw [if_neg (by omega)]
  have h5 : active n T ≠ 0 := by omega
  unfold ckInt cdiv at *
  split
  · simp only [ok_bind, hb, ub_bind]
  · simp only [ub_bind]

/-- non-trivial cases: ten iterations on four threads, two on four; 64 threads on a lattice of 32^3 * 1024 sites overflow -/
example : dispatch 10 4 = ok [some (0, 2), some (2, 5), some (5, 7), some (7, 10)] := by decide
example : dispatch 2 4 = ok [some (0, 1), some (1, 2), none, none] := by decide
example : 2 ^ 31 ≤ (32 * 32 * 32 * 1024) * active (32 * 32 * 32 * 1024) 64 := by decide

end Verif.Dispatch
