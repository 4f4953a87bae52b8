import Verif.Gauge
import Mathlib.Algebra.Polynomial.AlgebraMap
import Mathlib.LinearAlgebra.Matrix.DotProduct
import Mathlib.LinearAlgebra.Matrix.ToLinearEquiv
import Mathlib.Analysis.Complex.Order
/-
The exponential series to twelfth order of an antihermitian matrix is invertible.  Its even part C and its odd part A S have no
common zeros: the polynomials C and t S of t = A^2 are coprime.
-/
namespace Verif.Gauge
open Polynomial Finset

/-- the series `1 + A + A^2/2! + ... + A^12/12!` -/
noncomputable def series12 {n : Nat} (A : Mat n) : Mat n := ∑ k ∈ range 13, (1 / (k.factorial : ℂ)) • A ^ k

noncomputable def cP : ℂ[X] := (479001600) + (239500800) * X ^ 2 + (19958400) * X ^ 4 + (665280) * X ^ 6 + (11880) * X ^ 8 + (132) * X ^ 10 + X ^ 12
noncomputable def sP : ℂ[X] := (479001600) + (79833600) * X ^ 2 + (3991680) * X ^ 4 + (95040) * X ^ 6 + (1320) * X ^ 8 + (12) * X ^ 10
noncomputable def aP : ℂ[X] := (80272401822720) + (31481600002560) * X ^ 2 + (1999253373120) * X ^ 4 + (53135020608) * X ^ 6 + (760436760) * X ^ 8 + (7830540) * X ^ 10
noncomputable def bP : ℂ[X] := (-71617800913920) + (-9148436631360) * X ^ 2 + (-354430041408) * X ^ 4 + (-6826971744) * X ^ 6 + (-77725720) * X ^ 8 + (-652545) * X ^ 10

theorem bezout : aP * cP + bP * X * (X * sP) = 38450608908925796352000 := by
  unfold aP bP cP sP
  ring

theorem series_eq {n : Nat} (A : Mat n) : (479001600 : ℂ) • series12 A = aeval A (cP + X * sP) := by
  have e : (cP + X * sP : ℂ[X]) = ∑ k ∈ range 13, C ((479001600 : ℂ) * (1 / (k.factorial : ℂ))) * X ^ k := by
    unfold cP sP
    simp only [sum_range_succ, sum_range_zero, Nat.factorial]
    norm_num
    simp only [map_ofNat]
    ring
  rw [e, map_sum, series12, smul_sum]
  refine sum_congr rfl fun k _ => ?_
  rw [map_mul, aeval_C, map_pow, aeval_X, smul_smul, ← Algebra.smul_def]

section
variable {n : Nat} {A : Mat n} (hA : star A = -A)
include hA

theorem star_term (m k : Nat) : star ((m : Mat n) * A ^ k) = (-1) ^ k * ((m : Mat n) * A ^ k) := by
  rw [star_mul, star_pow, star_natCast, hA, neg_pow, mul_assoc, (Nat.cast_commute m (A ^ k)).eq]

theorem star_cP : star (aeval A cP) = aeval A cP := by
  have e : aeval A cP = (479001600 : ℕ) * A ^ 0 + (239500800 : ℕ) * A ^ 2 + (19958400 : ℕ) * A ^ 4 + (665280 : ℕ) * A ^ 6 + (11880 : ℕ) * A ^ 8 +
      (132 : ℕ) * A ^ 10 + (1 : ℕ) * A ^ 12 := by
    unfold cP
    simp only [map_add, map_mul, map_pow, aeval_X, map_ofNat, Nat.cast_ofNat, pow_zero, mul_one, Nat.cast_one, one_mul]
  rw [e]
  simp only [star_add, star_term hA]
  norm_num

theorem star_sP : star (aeval A (X * sP)) = -aeval A (X * sP) := by
  have e : aeval A (X * sP) = (479001600 : ℕ) * A ^ 1 + (79833600 : ℕ) * A ^ 3 + (3991680 : ℕ) * A ^ 5 + (95040 : ℕ) * A ^ 7 + (1320 : ℕ) * A ^ 9 +
      (12 : ℕ) * A ^ 11 := by
    have : (X * sP : ℂ[X]) = ((479001600 : ℕ) : ℂ[X]) * X ^ 1 + ((79833600 : ℕ) : ℂ[X]) * X ^ 3 + ((3991680 : ℕ) : ℂ[X]) * X ^ 5 + ((95040 : ℕ) : ℂ[X]) * X ^ 7 + ((1320 : ℕ) : ℂ[X]) * X ^ 9 +
        ((12 : ℕ) : ℂ[X]) * X ^ 11 := by
      unfold sP
      push_cast
      ring
    rw [this]
    simp only [map_add, map_mul, map_pow, aeval_X, map_natCast]
  rw [e]
  simp only [star_add, star_term hA]
  norm_num
  abel

theorem series_det : (series12 A).det ≠ 0 := by
  intro hdet
  obtain ⟨v, hv, h0⟩ := Matrix.exists_mulVec_eq_zero_iff.2 hdet
  set Cm := aeval A cP with hC
  set Om := aeval A (X * sP) with hO
  have hM : (Cm + Om).mulVec v = 0 := by
    have := congrArg (fun B : Mat n => B.mulVec v) (series_eq A)
    simp only [map_add, Matrix.smul_mulVec, h0, smul_zero] at this
    exact this.symm
  have hcomm : Cm * Om = Om * Cm := by rw [hC, hO, ← map_mul, ← map_mul, mul_comm]
  have hsum : star (Cm.mulVec v) ⬝ᵥ Cm.mulVec v + star (Om.mulVec v) ⬝ᵥ Om.mulVec v = 0 := by
    rw [Matrix.star_mulVec, Matrix.star_mulVec, ← Matrix.dotProduct_mulVec, ← Matrix.dotProduct_mulVec, ← Matrix.star_eq_conjTranspose,
      ← Matrix.star_eq_conjTranspose, star_cP hA, star_sP hA, Matrix.mulVec_mulVec, Matrix.mulVec_mulVec, ← dotProduct_add, ← Matrix.add_mulVec]
    have : Cm * Cm + -Om * Om = (Cm - Om) * (Cm + Om) := by
      rw [sub_mul, mul_add, mul_add, hcomm, neg_mul]; abel
    rw [← hC, ← hO, this, ← Matrix.mulVec_mulVec, hM]
    simp
  have hre : ∀ w : Fin n → ℂ, star w ⬝ᵥ w = ((∑ i, ‖w i‖ ^ 2 : ℝ) : ℂ) := by
    intro w
    rw [dotProduct, Complex.ofReal_sum]
    refine sum_congr rfl fun i _ => ?_
    rw [← Complex.normSq_eq_norm_sq, Complex.normSq_eq_conj_mul_self]
    rfl
  rw [hre, hre, ← Complex.ofReal_add, Complex.ofReal_eq_zero] at hsum
  have nn : ∀ w : Fin n → ℂ, 0 ≤ ∑ i, ‖w i‖ ^ 2 := fun w => sum_nonneg fun i _ => sq_nonneg _
  have z : ∀ w : Fin n → ℂ, ∑ i, ‖w i‖ ^ 2 = 0 → w = 0 := by
    intro w h
    funext i
    have := (sum_eq_zero_iff_of_nonneg fun i _ => sq_nonneg ‖w i‖).1 h i (mem_univ i)
    simpa using this
  have hc0 : Cm.mulVec v = 0 := z _ (by linarith [nn (Cm.mulVec v), nn (Om.mulVec v)])
  have ho0 : Om.mulVec v = 0 := z _ (by linarith [nn (Cm.mulVec v), nn (Om.mulVec v)])
  have hb := congrArg (aeval A) bezout
  rw [map_add, map_mul, map_mul, ← hC, ← hO, map_ofNat] at hb
  have hb' := congrArg (fun B : Mat n => B.mulVec v) hb
  simp only [Matrix.add_mulVec, ← Matrix.mulVec_mulVec, hc0, ho0, Matrix.mulVec_zero, add_zero] at hb'
  rw [Matrix.ofNat_mulVec] at hb'
  exact hv ((smul_eq_zero.1 hb'.symm).resolve_left (by norm_num))

end

end Verif.Gauge
