import Verif.Util
/-
Property C54 (uniquify_list).
-/
namespace Verif.Util
open Verif Outcome

/-- C54: for a non-empty list the result is the list of distinct values in order of first appearance. -/
theorem C54_uniquify_partial {α : Type} [DecidableEq α] (ll : List α) (h : ll ≠ []) :
    ∃ r, uniquify ll = ok r ∧ r.Nodup ∧ (∀ x, x ∈ r ↔ x ∈ ll) ∧ r.Sublist ll ∧ r = firsts ll :=
  ⟨firsts ll, uniquify_eq ll h, nodup_firsts ll, fun x => mem_firsts x ll, firsts_sublist ll, rfl⟩

/-- C54, the empty list: the first read is out of bounds. -/
theorem C54_empty_ub {α : Type} [DecidableEq α] : uniquify ([] : List α) = ub := rfl

example : uniquify [3, 3, 1, 3, 2, 1] = ok [3, 1, 2] := by decide

end Verif.Util
