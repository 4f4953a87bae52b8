import Verif.Basic
/-
`uniquify_list` (lib/qdp_util.cc:124-169): collapse a list of ints to the list of distinct ints.
The work array `d` starts uninitialised; reading an unset entry, or indexing out of bounds, is undefined behaviour.
-/
namespace Verif.Util
open Verif Outcome

/-! ## Model -/

/-- read an entry that must have been written before -/
def rdSet {α : Type} (d : List (Option α)) (i : Nat) : Outcome α :=
  match d[i]? with
  | some (some a) => ok a
  | _ => ub

/-- `d[i] = v` -/
def wrSet {α : Type} (d : List (Option α)) (i : Nat) (v : α) : Outcome (List (Option α)) :=
  if i < d.length then ok (d.set i (some v)) else ub

/-- the search loop, lib/qdp_util.cc:148-154; `fuel` counts the remaining iterations `num - i` -/
def findLoop {α : Type} [DecidableEq α] (d : List (Option α)) (v : α) : Nat → Nat → Outcome Bool
  | 0, _ => ok false
  | fuel + 1, i => do
      let x ← rdSet d i
      if x = v then return true else findLoop d v fuel (i + 1)

/-- the `while` loop, lib/qdp_util.cc:139-160 -/
def uniqLoop {α : Type} [DecidableEq α] : List α → List (Option α) → Nat → α → Outcome (List (Option α) × Nat)
  | [], d, num, _ => ok (d, num)
  | this :: rest, d, num, prev => do
      if this ≠ prev then do
        let found ← findLoop d this num 0
        if found then uniqLoop rest d num this
        else do
          let d' ← wrSet d num this
          uniqLoop rest d' (num + 1) this
      else uniqLoop rest d num this

/-- copy loop, lib/qdp_util.cc:162-165 -/
def copyOut {α : Type} (d : List (Option α)) : Nat → Nat → Outcome (List α)
  | 0, _ => ok []
  | n + 1, i => do let x ← rdSet d i; let xs ← copyOut d n (i + 1); return x :: xs

/-- `uniquify_list`, lib/qdp_util.cc:126-168 -/
def uniquify {α : Type} [DecidableEq α] (ll : List α) : Outcome (List α) := do
  let first ← rd ll 0
  let d ← wrSet (List.replicate ll.length none) 0 first
  let (d, num) ← uniqLoop ll.tail d 1 first
  copyOut d num 0

/-! ## Specification -/

/-- distinct values in order of first appearance -/
def firsts {α : Type} [DecidableEq α] : List α → List α
  | [] => []
  | x :: xs => x :: (firsts xs).filter (· ≠ x)

/-! ## Lemmas -/

theorem mem_firsts {α : Type} [DecidableEq α] (x : α) (l : List α) : x ∈ firsts l ↔ x ∈ l := by
  induction l with
  | nil => simp [firsts]
  | cons a l ih =>
    simp only [firsts, List.mem_cons, List.mem_filter, ih, ne_eq, decide_eq_true_eq]
    by_cases h : x = a <;> simp [h]

theorem nodup_firsts {α : Type} [DecidableEq α] (l : List α) : (firsts l).Nodup := by
  induction l with
  | nil => simp [firsts]
  | cons a l ih =>
    simp only [firsts, List.nodup_cons, List.mem_filter, ne_eq, decide_eq_true_eq, not_true_eq_false, and_false,
      not_false_eq_true, true_and]
    exact ih.filter _

theorem firsts_sublist {α : Type} [DecidableEq α] (l : List α) : (firsts l).Sublist l := by
  induction l with
  | nil => simp [firsts]
  | cons a l ih => exact (List.filter_sublist.trans ih).cons_cons a

theorem rdSet_acc {α : Type} (acc : List α) (k i : Nat) (h : i < acc.length) :
    rdSet (acc.map some ++ List.replicate k none) i = ok acc[i] := by
  unfold rdSet
  rw [List.getElem?_append_left (by simpa using h)]
  simp [h]

theorem findLoop_eq {α : Type} [DecidableEq α] (acc : List α) (k : Nat) (v : α) (fuel i : Nat)
    (h : i + fuel = acc.length) :
    findLoop (acc.map some ++ List.replicate k none) v fuel i = ok (decide (v ∈ acc.drop i)) := by
  induction fuel generalizing i with
  | zero => simp [findLoop, List.drop_eq_nil_of_le (show acc.length ≤ i by omega)]
  | succ n ih =>
    have hi : i < acc.length := by omega
    rw [findLoop, rdSet_acc _ _ _ hi, ok_bind, List.drop_eq_getElem_cons hi]
    by_cases hx : acc[i] = v
    · simp [hx]
    · rw [if_neg hx, ih (i + 1) (by omega)]
      have : v ≠ acc[i] := fun e => hx e.symm
      simp only [List.mem_cons, this, false_or]

theorem wrSet_acc {α : Type} (acc : List α) (k : Nat) (v : α) :
    wrSet (acc.map some ++ List.replicate (k + 1) none) acc.length v =
      ok ((acc ++ [v]).map some ++ List.replicate k none) := by
  have hl : acc.length < (acc.map some ++ List.replicate (k + 1) (none : Option α)).length := by simp
  rw [wrSet, if_pos hl]
  congr 1
  rw [List.set_append_right _ _ (by simp)]
  simp [List.replicate_succ]

theorem copyOut_eq {α : Type} (acc : List α) (k : Nat) (n i : Nat) (h : i + n = acc.length) :
    copyOut (acc.map some ++ List.replicate k none) n i = ok (acc.drop i) := by
  induction n generalizing i with
  | zero => simp [copyOut, List.drop_eq_nil_of_le (show acc.length ≤ i by omega)]
  | succ n ih =>
    have hi : i < acc.length := by omega
    rw [copyOut, rdSet_acc _ _ _ hi, ok_bind, ih (i + 1) (by omega), ok_bind, List.drop_eq_getElem_cons hi]
    rfl

theorem uniqLoop_eq {α : Type} [DecidableEq α] (rest : List α) (acc : List α) (k : Nat) (prev : α) (hp : prev ∈ acc)
    (hk : rest.length ≤ k) :
    ∃ k', uniqLoop rest (acc.map some ++ List.replicate k none) acc.length prev =
      ok ((acc ++ (firsts rest).filter (· ∉ acc)).map some ++ List.replicate k' none,
          (acc ++ (firsts rest).filter (· ∉ acc)).length) := by
  induction rest generalizing acc k prev with
  | nil => exact ⟨k, by simp [uniqLoop, firsts]⟩
  | cons a rest ih =>
    simp only [List.length_cons] at hk
    have hskip : a ∈ acc → (firsts (a :: rest)).filter (· ∉ acc) = (firsts rest).filter (· ∉ acc) := by
      intro h
      simp only [firsts, List.filter_cons, h, not_true_eq_false, decide_false, Bool.false_eq_true, if_false,
        List.filter_filter]
      apply List.filter_congr
      intro x _
      by_cases hx : x ∈ acc
      · simp [hx]
      · have : x ≠ a := fun e => hx (e ▸ h)
        simp [hx, this]
    have hdone : a ∈ acc → ∃ k', uniqLoop rest (acc.map some ++ List.replicate k none) acc.length a =
        ok ((acc ++ (firsts (a :: rest)).filter (· ∉ acc)).map some ++ List.replicate k' none,
          (acc ++ (firsts (a :: rest)).filter (· ∉ acc)).length) := by
      intro h
      rw [hskip h]
      exact ih acc k a h (by omega)
    rw [uniqLoop]
    by_cases hne : a ≠ prev
    · rw [if_pos hne, findLoop_eq acc k a acc.length 0 (by omega), ok_bind, List.drop_zero]
      by_cases hm : a ∈ acc
      · simp only [hm, decide_true, if_true]
        exact hdone hm
      · simp only [hm, decide_false, Bool.false_eq_true, if_false]
        obtain ⟨k0, rfl⟩ : ∃ k0, k = k0 + 1 := ⟨k - 1, by omega⟩
        rw [wrSet_acc, ok_bind]
        obtain ⟨k', hk'⟩ := ih (acc ++ [a]) k0 a (by simp) (by omega)
        refine ⟨k', ?_⟩
        have hlen : (acc ++ [a]).length = acc.length + 1 := by simp
        rw [hlen] at hk'
        rw [hk']
        have : acc ++ [a] ++ (firsts rest).filter (· ∉ acc ++ [a]) = acc ++ (firsts (a :: rest)).filter (· ∉ acc) := by
          simp only [firsts, List.filter_cons, hm, not_false_eq_true, decide_true, if_true, List.append_assoc,
            List.singleton_append, List.filter_filter]
          congr 2
          apply List.filter_congr
          intro x _
          simp only [List.mem_append, List.mem_singleton, not_or]
          by_cases hx : x ∈ acc <;> by_cases hxa : x = a <;> simp [hx, hxa]
        rw [this]
    · rw [if_neg hne]
      exact hdone (by have : a = prev := by simpa using hne
                      rw [this]; exact hp)

theorem uniquify_eq {α : Type} [DecidableEq α] (ll : List α) (h : ll ≠ []) : uniquify ll = ok (firsts ll) := by
  cases ll with
  | nil => exact absurd rfl h
  | cons a rest =>
    have hw : wrSet (List.replicate (a :: rest).length (none : Option α)) 0 a =
        ok (([a] : List α).map some ++ List.replicate rest.length none) := by
      simpa using wrSet_acc ([] : List α) rest.length a
    obtain ⟨k', hk'⟩ := uniqLoop_eq rest [a] rest.length a (by simp) (Nat.le_refl _)
    have hk2 : uniqLoop (a :: rest).tail (([a] : List α).map some ++ List.replicate rest.length none) 1 a =
      ok (([a] ++ (firsts rest).filter (· ∉ [a])).map some ++ List.replicate k' none,
          ([a] ++ (firsts rest).filter (· ∉ [a])).length) := hk'
    rw [uniquify, rd_of_lt (by simp), ok_bind, List.getElem_cons_zero, hw, ok_bind, hk2, ok_bind]
    simp only []
    rw [copyOut_eq _ _ _ 0 (by omega)]
    simp [firsts]

end Verif.Util
