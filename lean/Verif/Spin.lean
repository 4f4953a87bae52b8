import Verif.SpinTables
import Mathlib.NumberTheory.Zsqrtd.Basic
import Mathlib.LinearAlgebra.Matrix.ConjTranspose
import Mathlib.LinearAlgebra.Matrix.Notation
import Mathlib.Algebra.BigOperators.Fin
import Mathlib.Tactic.FinCases
import Mathlib.Tactic.Abel
import Mathlib.Tactic.Module
/-
Gamma matrices, spin projection and reconstruction, chiral projection.

A component of a spinor is whatever stands below the spin index (a colour vector of complex numbers, say): an additive group with
multiplication by i.  Arithmetic is exact.
-/
set_option linter.unusedSectionVars false
namespace Verif.Spin
open Verif Outcome

/-! ## components -/

/-- the operations of the components used here -/
class Cpt (M : Type) extends AddCommGroup M where
  timesI : M → M
  timesMinusI : M → M

/-- what is assumed of them -/
class LawfulCpt (M : Type) [Cpt M] : Prop where
  timesI_add : ∀ x y : M, Cpt.timesI (x + y) = Cpt.timesI x + Cpt.timesI y
  timesI_timesI : ∀ x : M, Cpt.timesI (Cpt.timesI x) = -x
  timesMinusI_eq : ∀ x : M, Cpt.timesMinusI x = -Cpt.timesI x

/-- `timesI(RComplex)`, `timesMinusI(RComplex)`, include/qdp_reality.h:2246-2254, 2276-2284 -/
instance {S : Type} [AddCommGroup S] : Cpt (S × S) where
  timesI s := (-s.2, s.1)
  timesMinusI s := (s.2, -s.1)

/-- colour vectors and matrices do it component by component, include/qdp_primvector.h, include/qdp_primmatrix.h -/
instance {ι M : Type} [Cpt M] : Cpt (ι → M) where
  timesI s := fun i => Cpt.timesI (s i)
  timesMinusI s := fun i => Cpt.timesMinusI (s i)

instance {S : Type} [AddCommGroup S] : LawfulCpt (S × S) where
  timesI_add x y := by ext <;> simp [Cpt.timesI, add_comm]
  timesI_timesI x := by ext <;> simp [Cpt.timesI]
  timesMinusI_eq x := by ext <;> simp [Cpt.timesI, Cpt.timesMinusI]

instance {ι M : Type} [Cpt M] [LawfulCpt M] : LawfulCpt (ι → M) where
  timesI_add x y := funext fun i => LawfulCpt.timesI_add (x i) (y i)
  timesI_timesI x := funext fun i => LawfulCpt.timesI_timesI (x i)
  timesMinusI_eq x := funext fun i => LawfulCpt.timesMinusI_eq (x i)

/-! ## model -/

section
variable {M : Type} [Cpt M]

def Ph.app : Ph → M → M
  | .one, x => x
  | .neg, x => -x
  | .i, x => Cpt.timesI x
  | .ni, x => Cpt.timesMinusI x

/-- the sixteen functions `Gamma * PSpinVector` of a table, cited there -/
def gammaVec (t : Fin 16 → Fin 4 → Ent) (n : Fin 16) (r : Fin 4 → M) : Fin 4 → M := fun a => (t n a).1.app (r (t n a).2)

/-- `Gamma * PSpinMatrix`, and the loop over the column around the table -/
def gammaMat (t : Fin 16 → Fin 4 → Ent) (n : Fin 16) (r : Fin 4 → Fin 4 → M) : Fin 4 → Fin 4 → M :=
  fun a i => (t n a).1.app (r (t n a).2 i)

/-- `PSpinMatrix * Gamma`, and the loop over the row -/
def matGamma (t : Fin 16 → Fin 4 → Ent) (n : Fin 16) (l : Fin 4 → Fin 4 → M) : Fin 4 → Fin 4 → M :=
  fun i a => (t n a).1.app (l i (t n a).2)

/-- `Gamma(m)` chosen at run time, include/qdp_primgamma.h:174-227, 271-324: an index into the table of function pointers, unchecked -/
def atRunTime {α : Type} (disp : List Nat) (f : Fin 16 → α) (m : Int) : Outcome α :=
  if m < 0 then ub
  else match disp[m.toNat]? with
    | none => ub
    | some n => if h : n < 16 then ok (f ⟨n, h⟩) else ub

/-- `s1.elem(a) ± [timesI](s1.elem(k))` -/
def Ph.addTo : Ph → M → M → M
  | .one, x, y => x + y
  | .neg, x, y => x - y
  | .i, x, y => x + Cpt.timesI y
  | .ni, x, y => x - Cpt.timesI y

/-- `spinProjectDir`, table cited there -/
def proj (d : Fin 8) (s : Fin 4 → M) : Fin 2 → M := fun a => (projT d a).1.addTo (s (a.castLE (by decide))) (s (projT d a).2)

/-- `spinReconstructDir`, table cited there -/
def recon (d : Fin 8) (s : Fin 2 → M) : Fin 4 → M := fun a => (reconT d a).1.app (s (reconT d a).2)

/-- `chiralProjectPlus`, include/qdp_primspinvec.h:1936-1948; for the rows of a matrix, include/qdp_primspinmat.h:1684-1700 -/
def chiralPlus (s : Fin 4 → M) : Fin 4 → M := ![s 0, s 1, 0, 0]
/-- `chiralProjectMinus`, include/qdp_primspinvec.h:1951-1963, include/qdp_primspinmat.h:1703-1718 -/
def chiralMinus (s : Fin 4 → M) : Fin 4 → M := ![0, 0, s 2, s 3]
end

/-! ## specification -/

/-- Gaussian integers -/
abbrev Gi := Zsqrtd (-1)
abbrev I : Gi := ⟨0, 1⟩

/-- action on components -/
def act {M : Type} [Cpt M] (z : Gi) (x : M) : M := z.re • x + z.im • Cpt.timesI x

/-- the basis of DeGrand and Rossi -/
def basis : Fin 4 → Matrix (Fin 4) (Fin 4) Gi := ![
  !![0, 0, 0, I; 0, 0, I, 0; 0, -I, 0, 0; -I, 0, 0, 0],
  !![0, 0, 0, -1; 0, 0, 1, 0; 0, 1, 0, 0; -1, 0, 0, 0],
  !![0, 0, I, 0; 0, 0, 0, -I; -I, 0, 0, 0; 0, I, 0, 0],
  !![0, 0, 1, 0; 0, 0, 0, 1; 1, 0, 0, 0; 0, 1, 0, 0]]

/-- the basis of Dirac and Pauli -/
def basisDP : Fin 4 → Matrix (Fin 4) (Fin 4) Gi := ![
  !![0, 0, 0, -I; 0, 0, -I, 0; 0, I, 0, 0; I, 0, 0, 0],
  !![0, 0, 0, -1; 0, 0, 1, 0; 0, 1, 0, 0; -1, 0, 0, 0],
  !![0, 0, -I, 0; 0, 0, 0, I; I, 0, 0, 0; 0, -I, 0, 0],
  !![1, 0, 0, 0; 0, 1, 0, 0; 0, 0, -1, 0; 0, 0, 0, -1]]

/-- the product over the bits of `n` -/
def gamma (g : Fin 4 → Matrix (Fin 4) (Fin 4) Gi) (n : Nat) : Matrix (Fin 4) (Fin 4) Gi :=
  (if n.testBit 0 then g 0 else 1) * (if n.testBit 1 then g 1 else 1) * (if n.testBit 2 then g 2 else 1) * (if n.testBit 3 then g 3 else 1)

/-- a matrix applied to a spinor -/
def mulVec {M : Type} [Cpt M] (A : Matrix (Fin 4) (Fin 4) Gi) (s : Fin 4 → M) : Fin 4 → M := fun a => ∑ b, act (A a b) (s b)

/-! ## gamma matrices -/

/-- the number an entry stands for -/
def Ph.num : Ph → Gi
  | .one => 1
  | .neg => -1
  | .i => I
  | .ni => -I

section
variable {M : Type} [Cpt M] [LawfulCpt M]

theorem act_num (p : Ph) (x : M) : act p.num x = p.app x := by
  cases p <;> simp [act, Ph.num, Ph.app, LawfulCpt.timesMinusI_eq, I]

theorem act_zero (x : M) : act 0 x = 0 := by simp [act]

theorem timesI_zero : Cpt.timesI (0 : M) = 0 := by
  have h := LawfulCpt.timesI_add (0 : M) 0
  simpa using h

theorem timesI_neg (x : M) : Cpt.timesI (-x) = -Cpt.timesI x := by
  have h := LawfulCpt.timesI_add x (-x)
  rw [add_neg_cancel, timesI_zero] at h
  exact (neg_eq_of_add_eq_zero_right h.symm).symm

/-- `timesI` as a homomorphism -/
def Jhom (M : Type) [Cpt M] [LawfulCpt M] : M →+ M := ⟨⟨Cpt.timesI, timesI_zero⟩, LawfulCpt.timesI_add⟩

theorem timesI_zsmul (n : ℤ) (x : M) : Cpt.timesI (n • x) = n • Cpt.timesI x := map_zsmul (Jhom M) n x

theorem timesI_sum {ι : Type} (s : Finset ι) (f : ι → M) : Cpt.timesI (∑ i ∈ s, f i) = ∑ i ∈ s, Cpt.timesI (f i) := map_sum (Jhom M) f s

theorem act_mul (z w : Gi) (x : M) : act (z * w) x = act z (act w x) := by
  simp only [act, Zsqrtd.re_mul, Zsqrtd.im_mul, LawfulCpt.timesI_add, timesI_zsmul, LawfulCpt.timesI_timesI]
  module

theorem act_add (z w : Gi) (x : M) : act (z + w) x = act z x + act w x := by
  simp only [act, Zsqrtd.re_add, Zsqrtd.im_add]
  module

theorem act_sum (z : Gi) (f : Fin 4 → M) : act z (∑ b, f b) = ∑ b, act z (f b) := by
  simp only [act, timesI_sum, Finset.smul_sum, Finset.sum_add_distrib]

theorem sum_act {ι : Type} (s : Finset ι) (f : ι → Gi) (x : M) : act (∑ i ∈ s, f i) x = ∑ i ∈ s, act (f i) x := by
  classical
  induction s using Finset.induction_on with
  | empty => simp [act_zero]
  | insert a s ha ih => rw [Finset.sum_insert ha, Finset.sum_insert ha, act_add, ih]

/-- products of matrices act one after the other -/
theorem mulVec_mul (A B : Matrix (Fin 4) (Fin 4) Gi) (s : Fin 4 → M) : mulVec (A * B) s = mulVec A (mulVec B s) := by
  funext a
  simp only [mulVec, Matrix.mul_apply, sum_act, act_mul]
  rw [Finset.sum_comm]
  refine Finset.sum_congr rfl fun b _ => ?_
  rw [act_sum]

/-- a matrix with one entry in each row, as the table says -/
theorem sum_table (t : Ent) (f : Fin 4 → M) : ∑ b, act (if b = t.2 then t.1.num else 0) (f b) = t.1.app (f t.2) := by
  have : ∀ b, act (if b = t.2 then t.1.num else 0) (f b) = if b = t.2 then t.1.app (f b) else 0 := by
    intro b
    split
    · exact act_num _ _
    · exact act_zero _
  simp only [this, Finset.sum_ite_eq', Finset.mem_univ, if_true]
end

/-- the tables hold the entries of the products -/
theorem table_left : ∀ (n : Fin 16) (b a : Fin 4), gamma basis n a b = if b = (vecL n a).2 then (vecL n a).1.num else 0 := by decide +kernel
theorem table_right : ∀ (n : Fin 16) (a b : Fin 4), gamma basis n b a = if b = (matR n a).2 then (matR n a).1.num else 0 := by decide +kernel
theorem table_mat : matL = vecL := by decide +kernel
theorem table_dp_left : ∀ (n : Fin 16) (b a : Fin 4), gamma basisDP n a b = if b = (vecDPL n a).2 then (vecDPL n a).1.num else 0 := by decide +kernel
theorem table_dp_right : ∀ (n : Fin 16) (a b : Fin 4), gamma basisDP n b a = if b = (matDPR n a).2 then (matDPR n a).1.num else 0 := by decide +kernel
theorem table_dp_mat : matDPL = vecDPL := by decide +kernel

section
variable {M : Type} [Cpt M] [LawfulCpt M]

/-- C42: multiplication of a spinor by `Gamma(n)` is multiplication by the product of the basis matrices of the bits of `n` -/
theorem C42_vector (n : Fin 16) (s : Fin 4 → M) : gammaVec vecL n s = mulVec (gamma basis n) s := by
  funext a
  simp only [mulVec, table_left, sum_table, gammaVec]

theorem C42_vector_DP (n : Fin 16) (s : Fin 4 → M) : gammaVec vecDPL n s = mulVec (gamma basisDP n) s := by
  funext a
  simp only [mulVec, table_dp_left, sum_table, gammaVec]

/-- C42: spin matrices from the left, column by column -/
theorem C42_left (n : Fin 16) (s : Fin 4 → Fin 4 → M) (a i : Fin 4) :
    gammaMat matL n s a i = ∑ b, act (gamma basis n a b) (s b i) := by
  simp only [table_left, sum_table (vecL n a) (fun b => s b i), gammaMat, table_mat]

theorem C42_left_DP (n : Fin 16) (s : Fin 4 → Fin 4 → M) (a i : Fin 4) :
    gammaMat matDPL n s a i = ∑ b, act (gamma basisDP n a b) (s b i) := by
  simp only [table_dp_left, sum_table (vecDPL n a) (fun b => s b i), gammaMat, table_dp_mat]

/-- C42: spin matrices from the right, row by row -/
theorem C42_right (n : Fin 16) (s : Fin 4 → Fin 4 → M) (i a : Fin 4) :
    matGamma matR n s i a = ∑ b, act (gamma basis n b a) (s i b) := by
  simp only [table_right, sum_table (matR n a) (fun b => s i b), matGamma]

theorem C42_right_DP (n : Fin 16) (s : Fin 4 → Fin 4 → M) (i a : Fin 4) :
    matGamma matDPR n s i a = ∑ b, act (gamma basisDP n b a) (s i b) := by
  simp only [table_dp_right, sum_table (matDPR n a) (fun b => s i b), matGamma]

/-- C42: the matrices of both bases are hermitian, square to one and anticommute -/
theorem C42_clifford :
    (∀ i, (basis i).conjTranspose = basis i) ∧ (∀ i j, basis i * basis j + basis j * basis i = if i = j then 2 else 0) ∧
    (∀ i, (basisDP i).conjTranspose = basisDP i) ∧ (∀ i j, basisDP i * basisDP j + basisDP j * basisDP i = if i = j then 2 else 0) := by
  refine ⟨?_, ?_, ?_, ?_⟩
  · intro i; refine Matrix.ext fun a b => ?_; revert i; revert a; revert b; decide +kernel
  · intro i j; refine Matrix.ext fun a b => ?_; revert i j; revert a; revert b; decide +kernel
  · intro i; refine Matrix.ext fun a b => ?_; revert i; revert a; revert b; decide +kernel
  · intro i j; refine Matrix.ext fun a b => ?_; revert i j; revert a; revert b; decide +kernel

/-- C42: an index chosen at run time selects the constant of the same number; any other index reads outside the table -/
theorem C42_run_time {α : Type} (f : Fin 16 → α) (m : Int) :
    atRunTime dispL f m = (if h : 0 ≤ m ∧ m < 16 then ok (f ⟨m.toNat, by omega⟩) else ub) ∧
    atRunTime dispR f m = atRunTime dispL f m ∧ atRunTime dispDPL f m = atRunTime dispL f m ∧ atRunTime dispDPR f m = atRunTime dispL f m := by
  refine ⟨?_, rfl, rfl, rfl⟩
  unfold atRunTime
  have hd : dispL = List.range 16 := by decide
  by_cases h : m < 0
  · rw [if_pos h, dif_neg (by omega)]
  · rw [if_neg h, hd]
    by_cases h2 : m < 16
    · rw [dif_pos ⟨by omega, h2⟩]
      have : (List.range 16)[m.toNat]? = some m.toNat := List.getElem?_range (by omega)
      rw [this]
      simp only
      rw [dif_pos (by omega)]
    · rw [dif_neg (by omega)]
      have : (List.range 16)[m.toNat]? = none := by
        rw [List.getElem?_eq_none_iff, List.length_range]; omega
      rw [this]
end

/-- non-trivial cases: gamma five of `(1, i, 2, -3i)`, and two factors in a row -/
example : gammaVec vecL 15 (![(1, 0), (0, 1), (2, 0), (0, -3)] : Fin 4 → ℤ × ℤ) = ![(1, 0), (0, 1), (-2, 0), (0, 3)] := by decide +kernel
example : gammaVec vecL 1 (gammaVec vecL 2 (![(1, 0), (0, 1), (2, 0), (0, -3)] : Fin 4 → ℤ × ℤ)) = gammaVec vecL 3 ![(1, 0), (0, 1), (2, 0), (0, -3)] ∧
    gammaVec vecL 3 (![(1, 0), (0, 1), (2, 0), (0, -3)] : Fin 4 → ℤ × ℤ) = ![(0, -1), (-1, 0), (0, -2), (3, 0)] := by decide +kernel

/-! ## projection and reconstruction -/

/-- direction and sign of a place in the tables -/
def dir (d : Fin 8) : Fin 4 := ⟨d.val / 2, by omega⟩
def sgn (d : Fin 8) : Gi := if d.val % 2 = 0 then 1 else -1

section
variable {M : Type} [Cpt M] [LawfulCpt M]

/-- `1 ± gamma` -/
def onePM (d : Fin 8) : Matrix (Fin 4) (Fin 4) Gi := 1 + sgn d • basis (dir d)

/-- row `a` of `1 ± gamma`: as the tables say -/
theorem onePM_row : ∀ (d : Fin 8) (b a : Fin 4), onePM d a b =
    (reconT d a).1.num * ((if b = (reconT d a).2.castLE (by decide) then 1 else 0) +
      (if b = (projT d (reconT d a).2).2 then (projT d (reconT d a).2).1.num else 0)) := by decide +kernel

theorem addTo_eq (p : Ph) (x y : M) : p.addTo x y = x + act p.num y := by
  cases p <;> simp [Ph.addTo, act, Ph.num, I, sub_eq_add_neg]

/-- C43: reconstruction after projection is multiplication by `1 ± gamma` -/
theorem C43_project (d : Fin 8) (s : Fin 4 → M) : recon d (proj d s) = mulVec (onePM d) s := by
  funext a
  simp only [mulVec, onePM_row, act_mul, act_add, recon, proj, ← act_num, addTo_eq]
  have h1 : ∀ b, act (if b = (reconT d a).2.castLE (by decide) then (1 : Gi) else 0) (s b) =
      if b = (reconT d a).2.castLE (by decide) then s b else 0 := by
    intro b
    split
    · simp [act]
    · exact act_zero _
  have h2 : ∑ b, act (if b = (projT d (reconT d a).2).2 then (projT d (reconT d a).2).1.num else 0) (s b) =
      act (projT d (reconT d a).2).1.num (s (projT d (reconT d a).2).2) := by
    rw [act_num]; exact sum_table _ _
  rw [← act_sum, Finset.sum_add_distrib, h2]
  simp only [h1, Finset.sum_ite_eq', Finset.mem_univ, if_true]

theorem onePM_sq : ∀ d, onePM d * onePM d = 2 • onePM d := by
  intro d; refine Matrix.ext fun a b => ?_; revert d a b; decide +kernel

theorem onePM_opp : ∀ d e, dir d = dir e → sgn d ≠ sgn e → onePM d * onePM e = 0 := by
  intro d e h1 h2; refine Matrix.ext fun a b => ?_; revert d e; revert a b; decide +kernel

/-- C43: applied twice it doubles -/
theorem C43_twice (d : Fin 8) (s : Fin 4 → M) : recon d (proj d (recon d (proj d s))) = 2 • recon d (proj d s) := by
  rw [C43_project, C43_project, ← mulVec_mul, onePM_sq]
  funext a
  simp only [mulVec, two_smul, Matrix.add_apply, act_add, Finset.sum_add_distrib, Pi.add_apply]

/-- C43: opposite signs annihilate -/
theorem C43_opposite (d e : Fin 8) (h1 : dir d = dir e) (h2 : sgn d ≠ sgn e) (s : Fin 4 → M) : recon d (proj d (recon e (proj e s))) = 0 := by
  rw [C43_project, C43_project, ← mulVec_mul, onePM_opp d e h1 h2]
  funext a
  simp only [mulVec, Matrix.zero_apply, act_zero, Finset.sum_const_zero, Pi.zero_apply]

/-- C43: what is done to the colour components of the half spinor in between (the link, say) is done to the result -/
theorem C43_link {N : Type} [Cpt N] [LawfulCpt N] (u : M →+ N) (hu : ∀ x, u (Cpt.timesI x) = Cpt.timesI (u x)) (d : Fin 8) (s : Fin 4 → M) :
    recon d (fun a => u (proj d s a)) = fun a => u (mulVec (onePM d) s a) := by
  have happ : ∀ (p : Ph) x, u (p.app x) = p.app (u x) := by
    intro p x
    cases p <;> simp [Ph.app, hu, LawfulCpt.timesMinusI_eq]
  rw [← C43_project]
  funext a
  simp only [recon, happ]

example : recon 0 (proj 0 (![(1, 0), (0, 1), (2, 0), (0, -3)] : Fin 4 → ℤ × ℤ)) = ![(4, 0), (0, 3), (3, 0), (0, -4)] := by decide +kernel

/-! ## chiral projection -/

theorem C57_chiral (s : Fin 4 → M) :
    2 • chiralPlus s = s + gammaVec vecL 15 s ∧ 2 • chiralMinus s = s - gammaVec vecL 15 s ∧ chiralPlus s + chiralMinus s = s ∧
    chiralPlus (chiralPlus s) = chiralPlus s ∧ chiralMinus (chiralMinus s) = chiralMinus s ∧
    chiralPlus (chiralMinus s) = 0 ∧ chiralMinus (chiralPlus s) = 0 := by
  refine ⟨?_, ?_, ?_, ?_, ?_, ?_, ?_⟩ <;> funext a <;> fin_cases a <;>
    simp [chiralPlus, chiralMinus, gammaVec, vecL, Ph.app, two_smul]

/-- in the basis of Dirac and Pauli they are not the projectors on chirality -/
theorem C57_not_DP : ∃ s : Fin 4 → ℤ × ℤ, 2 • chiralPlus s ≠ s + gammaVec vecDPL 15 s := by
  refine ⟨![(1, 0), 0, 0, 0], fun h => ?_⟩
  have := congrFun h 2
  simp [chiralPlus, gammaVec, vecDPL, Ph.app] at this
  exact absurd this (by decide)
end

end Verif.Spin
