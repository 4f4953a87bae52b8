import Verif.LayoutCreatePar
import Mathlib.Tactic.Ring
/-
Property C106, extents that are not positive.  Here the `int`s are integers, with the division of C++.
-/
namespace Verif.LayoutCreate
open Verif Outcome Verif.Layout Verif.LatticeIO

/-! ## Model -/

/-- a value stored in a 32-bit `int` -/
def ckZ (n : Int) : Outcome Int := if -2 ^ 31 ≤ n ∧ n < 2 ^ 31 then ok n else ub

/-- `_layout.vol *= _layout.nrow[i]`, lib/qdp_scalar_layout.cc:194-197 -/
def volLoopZ : List Int → Int → Outcome Int
  | [], v => ok v
  | l :: ls, v => do let v' ← ckZ (v * l); volLoopZ ls v'

/-- `crtesn`, usual variant, lib/qdp_layout.cc:125-146; C++ division rounds towards zero -/
def crtesnZ : Int → List Int → Outcome (List Int)
  | _, [] => ok []
  | ipos, l :: ls => do
      if l = 0 then ub
      let cs ← crtesnZ (ipos.tdiv l) ls
      return ipos.tmod l :: cs

/-- loop of `local_site`, lib/qdp_layout.cc:157-158 -/
def localSiteZGo (coord L : List Int) : Nat → Int → Outcome Int
  | 0, order => ok order
  | mmu + 1, order => do
      let l ← rd L mmu
      let c ← rd coord (mmu + 1)
      let o ← ckZ (l * (c + order))
      localSiteZGo coord L mmu o

/-- `local_site`, usual variant, lib/qdp_layout.cc:153-163 -/
def localSiteZ (coord L : List Int) : Outcome Int := do
  let o ← localSiteZGo coord L (L.length - 1) 0
  let c ← rd coord 0
  ckZ (o + c)

/-- `Layout::create`, lexicographic ordering on one node, lib/qdp_scalar_layout.cc:186-271: no loop is entered unless the product is positive -/
def createZ (nd : Nat) (L : List Int) : Outcome Unit := do
  if L.length ≠ nd then abort
  let vol ← volLoopZ L 1
  foldO (fun _ (i : Nat) => do
    let c ← crtesnZ i L
    let j ← localSiteZ c L
    if (i : Int) ≠ j then abort else ok ()) () (List.range vol.toNat)

/-! ## C106 -/

theorem tdiv_neg' (i a : Nat) : (i : Int).tdiv (-(a : Int)) = -((i / a : Nat) : Int) := by
  rw [Int.tdiv_neg]; rfl

theorem tmod_neg' (i a : Nat) : (i : Int).tmod (-(a : Int)) = ((i % a : Nat) : Int) := by
  rw [Int.tmod_neg]; rfl

/-- C106 fails for negative extents: a lattice with two negative extents has a positive "volume", passes the test of every site and is accepted;
the coordinates it is given are negative -/
theorem C106_negative_refuted (a b : Nat) (ha : 0 < a) (hb : 1 < b) (hv : a * b < 2 ^ 31) :
    createZ 2 [-(a : Int), -(b : Int)] = ok () ∧ crtesnZ (a : Nat) [-(a : Int), -(b : Int)] = ok [0, -1] := by
  have hba : a ≤ a * b := Nat.le_mul_of_pos_right _ (by omega)
  constructor
  · have h1 : volLoopZ [-(a : Int), -(b : Int)] 1 = ok ((a * b : Nat) : Int) := by
      simp only [volLoopZ, ckZ, one_mul]
      rw [if_pos (by omega), ok_bind, neg_mul_neg, ← Nat.cast_mul, if_pos (by omega), ok_bind]
    unfold createZ
    simp only [List.length_cons, List.length_nil, ne_eq, not_true_eq_false, ↓reduceIte, h1, ok_bind, Int.toNat_natCast]
    refine (fold_unit _).2 fun i hi => ?_
    rw [List.mem_range] at hi
    have hq : i / a < b := Nat.div_lt_of_lt_mul hi
    have hc : crtesnZ (i : Nat) [-(a : Int), -(b : Int)] = ok [((i % a : Nat) : Int), -((i / a : Nat) : Int)] := by
      simp only [crtesnZ]
      rw [if_neg (by omega), if_neg (by omega), tdiv_neg', tmod_neg']
      simp only [ok_bind, pure_def, Int.neg_tmod, Int.tmod_neg]
      rw [Int.tmod_eq_of_lt (Int.natCast_nonneg _) (by exact_mod_cast hq)]
    have hd := Nat.mod_add_div i a
    have hle : a * (i / a) ≤ i := Nat.mul_div_le i a
    have hl : localSiteZ [((i % a : Nat) : Int), -((i / a : Nat) : Int)] [-(a : Int), -(b : Int)] = ok (i : Int) := by
      simp only [localSiteZ, localSiteZGo, List.length_cons, List.length_nil, rd, List.getElem?_cons_zero, List.getElem?_cons_succ, ok_bind, ckZ,
        add_zero, neg_mul_neg, Nat.reduceAdd, Nat.reduceSub]
      rw [← Nat.cast_mul, if_pos (by omega), ok_bind, ok_bind]
      rw [← Nat.cast_add, Nat.add_comm, hd, if_pos (by omega)]
    rw [hc, ok_bind, hl, ok_bind, if_neg (by simp)]
  · simp only [crtesnZ]
    rw [if_neg (by omega), if_neg (by omega), tdiv_neg', tmod_neg', Nat.div_self ha, Nat.mod_self]
    simp only [ok_bind, pure_def, Int.neg_tmod, Int.tmod_neg]
    rw [Int.tmod_eq_of_lt (by omega) (by omega)]
    rfl

example : createZ 2 [-4, -6] = ok () := by decide
example : createZ 2 [4, 6] = ok () := by decide

end Verif.LayoutCreate
