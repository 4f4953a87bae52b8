import Verif.SiteFlat
import Mathlib.Algebra.BigOperators.Fin
import Mathlib.Data.Fin.VecNotation
import Mathlib.LinearAlgebra.Matrix.Determinant.Basic
/-
Contractions of colour and of spin: include/qdp_primcolormat.h, include/qdp_primcolorvec.h, include/qdp_primspinmat.h.

The elements are numbers of any commutative ring: K for RScalar, `Cx K` for RComplex, with the operations of include/qdp_reality.h (`cx_mul` below).
The versions for 1, 2, 4 colours stop the program (include/qdp_primcolormat.h:539-600, 707-780) and are not modelled further.
-/
set_option linter.unusedVariables false
namespace Verif.Contract

/-! ## model -/

section
variable {R : Type} [CommRing R]

/-- `colorContract(PColorMatrix<T1,3>, PColorMatrix<T2,3>, PColorMatrix<T3,3>)`, include/qdp_primcolormat.h:476-524 -/
def colorContract (s1 s2 s3 : Fin 3 → Fin 3 → R) : R :=
  (s1 0 0*s2 1 1
           -  s1 1 0*s2 0 1
           -  s1 0 1*s2 1 0
           +  s1 1 1*s2 0 0)*s3 2 2
           + (s1 1 1*s2 2 2
           -  s1 2 1*s2 1 2
           -  s1 1 2*s2 2 1
           +  s1 2 2*s2 1 1)*s3 0 0
           + (s1 2 2*s2 0 0
           -  s1 0 2*s2 2 0
           -  s1 2 0*s2 0 2
           +  s1 0 0*s2 2 2)*s3 1 1
           + (s1 1 0*s2 2 1
           -  s1 2 0*s2 1 1
           -  s1 1 1*s2 2 0
           +  s1 2 1*s2 1 0)*s3 0 2
           + (s1 1 2*s2 2 0
           -  s1 2 2*s2 1 0
           -  s1 1 0*s2 2 2
           +  s1 2 0*s2 1 2)*s3 0 1
           + (s1 2 0*s2 0 1
           -  s1 0 0*s2 2 1
           -  s1 2 1*s2 0 0
           +  s1 0 1*s2 2 0)*s3 1 2
           + (s1 2 1*s2 0 2
           -  s1 0 1*s2 2 2
           -  s1 2 2*s2 0 1
           +  s1 0 2*s2 2 1)*s3 1 0
           + (s1 0 1*s2 1 2
           -  s1 1 1*s2 0 2
           -  s1 0 2*s2 1 1
           +  s1 1 2*s2 0 1)*s3 2 0
           + (s1 0 2*s2 1 0
           -  s1 1 2*s2 0 0
           -  s1 0 0*s2 1 2
           +  s1 1 0*s2 0 2)*s3 2 1

/-- `quarkContractXX(PColorMatrix<T1,3>, PColorMatrix<T2,3>)`, include/qdp_primcolormat.h:611-690 -/
def quarkContractXX (s1 s2 : Fin 3 → Fin 3 → R) : Fin 3 → Fin 3 → R :=
  ![![s1 1 1*s2 2 2
              - s1 1 2*s2 2 1
              - s1 2 1*s2 1 2
              + s1 2 2*s2 1 1,
      s1 2 1*s2 0 2
              - s1 2 2*s2 0 1
              - s1 0 1*s2 2 2
              + s1 0 2*s2 2 1,
      s1 0 1*s2 1 2
              - s1 0 2*s2 1 1
              - s1 1 1*s2 0 2
              + s1 1 2*s2 0 1],
    ![s1 1 2*s2 2 0
              - s1 1 0*s2 2 2
              - s1 2 2*s2 1 0
              + s1 2 0*s2 1 2,
      s1 2 2*s2 0 0
              - s1 2 0*s2 0 2
              - s1 0 2*s2 2 0
              + s1 0 0*s2 2 2,
      s1 0 2*s2 1 0
              - s1 0 0*s2 1 2
              - s1 1 2*s2 0 0
              + s1 1 0*s2 0 2],
    ![s1 1 0*s2 2 1
              - s1 1 1*s2 2 0
              - s1 2 0*s2 1 1
              + s1 2 1*s2 1 0,
      s1 2 0*s2 0 1
              - s1 2 1*s2 0 0
              - s1 0 0*s2 2 1
              + s1 0 1*s2 2 0,
      s1 0 0*s2 1 1
              - s1 0 1*s2 1 0
              - s1 1 0*s2 0 1
              + s1 1 1*s2 0 0]]

/-- `colorContract(PColorVector<T1,3>, PColorVector<T2,3>, PColorVector<T3,3>)`, include/qdp_primcolorvec.h:266-281 -/
def vecContract3 (s1 s2 s3 : Fin 3 → R) : R :=
  (s1 0*s2 1
           -  s1 1*s2 0)*s3 2
           + (s1 1*s2 2
           -  s1 2*s2 1)*s3 0
           + (s1 2*s2 0
           -  s1 0*s2 2)*s3 1

/-- `colorVectorContract`, include/qdp_primcolorvec.h:299-309 -/
def colorVectorContract {n : Nat} (s1 s2 : Fin (n + 1) → R) : R := Site.accum (· + ·) n fun i => s1 i * s2 i

/-- `colorCrossProduct`, include/qdp_primcolorvec.h:329-338 -/
def colorCrossProduct (s1 s2 : Fin 3 → R) : Fin 3 → R :=
  ![s1 1*s2 2 - s1 2*s2 1, s1 2*s2 0 - s1 0*s2 2, s1 0*s2 1 - s1 1*s2 0]

/-- `localColorInnerProduct(PColorVector<T1,N>, PColorVector<T2,N>)`, include/qdp_primcolorvec.h:206-216; `conj` is `adj` of the element -/
def localColorInnerProduct (conj : R → R) {n : Nat} (l r : Fin (n + 1) → R) : R := Site.accum (· + ·) n fun k => conj (l k) * r k

end

/-- which spin indices of the two matrices are summed: `quarkContract13`, ..14, ..23, ..24, ..12, ..34 -/
inductive Con | c13 | c14 | c23 | c24 | c12 | c34

section
variable {A B C : Type}

/-- `quarkContract13` … `quarkContract34`, include/qdp_primspinmat.h:1747-1847: the same function with `f` for `quarkContractXX` of the elements -/
def quarkContract (c : Con) (add : C → C → C) (f : A → B → C) {n : Nat} (s1 : Fin (n + 1) → Fin (n + 1) → A) (s2 : Fin (n + 1) → Fin (n + 1) → B) :
    Fin (n + 1) → Fin (n + 1) → C := fun i j =>
  match c with
  | .c13 => Site.accum add n fun k => f (s1 k i) (s2 k j)
  | .c14 => Site.accum add n fun k => f (s1 k i) (s2 j k)
  | .c23 => Site.accum add n fun k => f (s1 i k) (s2 k j)
  | .c24 => Site.accum add n fun k => f (s1 i k) (s2 j k)
  | .c12 => Site.accum add n fun k => f (s1 k k) (s2 i j)
  | .c34 => Site.accum add n fun k => f (s1 i j) (s2 k k)

/-- `traceSpinQuarkContract13`, include/qdp_primspinmat.h:1729-1743 -/
def traceSpinQuarkContract13 (add : C → C → C) (f : A → B → C) {n : Nat} (l : Fin (n + 1) → Fin (n + 1) → A) (r : Fin (n + 1) → Fin (n + 1) → B) : C :=
  Site.accum2 add n fun j k => f (l k j) (r k j)

/-- `localColorInnerProduct(PSpinMatrix<T1,N>, PSpinMatrix<T2,N>)`, include/qdp_primspinmat.h:482-495 -/
def spinColorInner (add : C → C → C) (f : A → B → C) {n : Nat} (l : Fin (n + 1) → Fin (n + 1) → A) (r : Fin (n + 1) → Fin (n + 1) → B) :
    Fin (n + 1) → Fin (n + 1) → C := fun i j => Site.accum add n fun k => f (l k i) (r k j)

end

/-! ## specification -/

/-- the totally antisymmetric symbol with ε(0,1,2) = 1: the product of the differences of the indices, halved -/
def eps (i j k : Fin 3) : Int := ((j : Int) - i) * ((k : Int) - i) * ((k : Int) - j) / 2

example : eps 0 1 2 = 1 ∧ eps 1 2 0 = 1 ∧ eps 2 0 1 = 1 ∧ eps 1 0 2 = -1 ∧ eps 0 2 1 = -1 ∧ eps 2 1 0 = -1 ∧ eps 1 1 2 = 0 := by decide

/-- the sign changes with two indices exchanged -/
theorem eps_swap : ∀ i j k, eps j i k = - eps i j k ∧ eps i k j = - eps i j k := by decide

/-! ## proofs -/

section
variable {R : Type} [CommRing R]

theorem eps_table (f : Fin 3 → Fin 3 → Fin 3 → R) :
    (∑ i, ∑ j, ∑ k, (eps i j k : R) * f i j k) = f 0 1 2 + f 1 2 0 + f 2 0 1 - f 1 0 2 - f 0 2 1 - f 2 1 0 := by
  simp only [Fin.sum_univ_three]
  simp only [show eps 0 0 0 = 0 from by decide, show eps 0 0 1 = 0 from by decide, show eps 0 0 2 = 0 from by decide,
    show eps 0 1 0 = 0 from by decide, show eps 0 1 1 = 0 from by decide, show eps 0 1 2 = 1 from by decide,
    show eps 0 2 0 = 0 from by decide, show eps 0 2 1 = -1 from by decide, show eps 0 2 2 = 0 from by decide,
    show eps 1 0 0 = 0 from by decide, show eps 1 0 1 = 0 from by decide, show eps 1 0 2 = -1 from by decide,
    show eps 1 1 0 = 0 from by decide, show eps 1 1 1 = 0 from by decide, show eps 1 1 2 = 0 from by decide,
    show eps 1 2 0 = 1 from by decide, show eps 1 2 1 = 0 from by decide, show eps 1 2 2 = 0 from by decide,
    show eps 2 0 0 = 0 from by decide, show eps 2 0 1 = 1 from by decide, show eps 2 0 2 = 0 from by decide,
    show eps 2 1 0 = -1 from by decide, show eps 2 1 1 = 0 from by decide, show eps 2 1 2 = 0 from by decide,
    show eps 2 2 0 = 0 from by decide, show eps 2 2 1 = 0 from by decide, show eps 2 2 2 = 0 from by decide,
    Int.cast_zero, Int.cast_one, Int.cast_neg]
  ring

/-- the sum with one index of the symbol held -/
theorem eps_table2 (f : Fin 3 → Fin 3 → R) (k : Fin 3) :
    (∑ i, ∑ j, (eps i j k : R) * f i j) = f (k + 1) (k + 2) - f (k + 2) (k + 1) := by
  have e : ∀ g : Fin 3 → Fin 3 → Int, g = (fun i j => eps i j k) → (∑ i, ∑ j, (eps i j k : R) * f i j) = ∑ i, ∑ j, (g i j : R) * f i j := by
    intro g h; subst h; rfl
  simp only [Fin.sum_univ_three]
  fin_cases k <;>
    simp only [Fin.zero_eta, Fin.mk_one, Fin.reduceFinMk, show (0 : Fin 3) + 1 = 1 from rfl, show (0 : Fin 3) + 2 = 2 from rfl,
      show (1 : Fin 3) + 1 = 2 from rfl, show (1 : Fin 3) + 2 = 0 from rfl, show (2 : Fin 3) + 1 = 0 from rfl, show (2 : Fin 3) + 2 = 1 from rfl,
      show eps 0 0 0 = 0 from by decide, show eps 0 0 1 = 0 from by decide, show eps 0 0 2 = 0 from by decide,
      show eps 0 1 0 = 0 from by decide, show eps 0 1 1 = 0 from by decide, show eps 0 1 2 = 1 from by decide,
      show eps 0 2 0 = 0 from by decide, show eps 0 2 1 = -1 from by decide, show eps 0 2 2 = 0 from by decide,
      show eps 1 0 0 = 0 from by decide, show eps 1 0 1 = 0 from by decide, show eps 1 0 2 = -1 from by decide,
      show eps 1 1 0 = 0 from by decide, show eps 1 1 1 = 0 from by decide, show eps 1 1 2 = 0 from by decide,
      show eps 1 2 0 = 1 from by decide, show eps 1 2 1 = 0 from by decide, show eps 1 2 2 = 0 from by decide,
      show eps 2 0 0 = 0 from by decide, show eps 2 0 1 = 1 from by decide, show eps 2 0 2 = 0 from by decide,
      show eps 2 1 0 = -1 from by decide, show eps 2 1 1 = 0 from by decide, show eps 2 1 2 = 0 from by decide,
      show eps 2 2 0 = 0 from by decide, show eps 2 2 1 = 0 from by decide, show eps 2 2 2 = 0 from by decide,
      Int.cast_zero, Int.cast_one, Int.cast_neg] <;> ring

/-- `colorContract` of matrices: Σ ε(i1,j1,k1) ε(i2,j2,k2) Q1(i1,i2) Q2(j1,j2) Q3(k1,k2) -/
theorem C65_colorContract (s1 s2 s3 : Fin 3 → Fin 3 → R) :
    colorContract s1 s2 s3 =
      ∑ i1, ∑ j1, ∑ k1, (eps i1 j1 k1 : R) * ∑ i2, ∑ j2, ∑ k2, (eps i2 j2 k2 : R) * (s1 i1 i2 * s2 j1 j2 * s3 k1 k2) := by
  rw [eps_table]
  simp only [eps_table]
  unfold colorContract
  ring

/-- `quarkContractXX`: d(k2,k1) = Σ ε(i1,j1,k1) ε(i2,j2,k2) Q1(i1,i2) Q2(j1,j2) -/
theorem C65_quarkContractXX (s1 s2 : Fin 3 → Fin 3 → R) (k1 k2 : Fin 3) :
    quarkContractXX s1 s2 k2 k1 = ∑ i1, ∑ j1, (eps i1 j1 k1 : R) * ∑ i2, ∑ j2, (eps i2 j2 k2 : R) * (s1 i1 i2 * s2 j1 j2) := by
  rw [eps_table2]
  simp only [eps_table2]
  fin_cases k1 <;> fin_cases k2 <;> (show _ - _ - _ + _ = _; simp [show (2 : Fin 3) + 1 = 0 from rfl, show (2 : Fin 3) + 2 = 1 from rfl,
    show (1 : Fin 3) + 1 = 2 from rfl, show (1 : Fin 3) + 2 = 0 from rfl]; ring)

/-- `colorContract` of vectors: Σ ε(i,j,k) V1(i) V2(j) V3(k) -/
theorem C65_vecContract3 (s1 s2 s3 : Fin 3 → R) : vecContract3 s1 s2 s3 = ∑ i, ∑ j, ∑ k, (eps i j k : R) * (s1 i * s2 j * s3 k) := by
  rw [eps_table]; unfold vecContract3; ring

/-- `colorVectorContract`: Σ V1(i) V2(i) -/
theorem C65_colorVectorContract {n : Nat} (s1 s2 : Fin (n + 1) → R) : colorVectorContract s1 s2 = ∑ i, s1 i * s2 i :=
  Site.accum_sum n _

/-- `colorCrossProduct`: d(k) = Σ ε(i,j,k) V1(i) V2(j) -/
theorem C65_colorCrossProduct (s1 s2 : Fin 3 → R) (k : Fin 3) : colorCrossProduct s1 s2 k = ∑ i, ∑ j, (eps i j k : R) * (s1 i * s2 j) := by
  rw [eps_table2]
  fin_cases k <;> rfl

/-- `localColorInnerProduct`: Σ adj(l(k)) r(k) -/
theorem C65_localColorInnerProduct (conj : R → R) {n : Nat} (l r : Fin (n + 1) → R) :
    localColorInnerProduct conj l r = ∑ k, conj (l k) * r k := Site.accum_sum n _

/-- of one matrix three times: 6 times the determinant -/
theorem C65_det (u : Fin 3 → Fin 3 → R) : colorContract u u u = 6 * Matrix.det (Matrix.of u) := by
  rw [Matrix.det_fin_three]; unfold colorContract; simp only [Matrix.of_apply]; ring

/-- the contraction of three is the trace of the contraction of two times the third -/
theorem C65_trace (s1 s2 s3 : Fin 3 → Fin 3 → R) : colorContract s1 s2 s3 = ∑ i, ∑ j, quarkContractXX s1 s2 i j * s3 j i := by
  simp only [Fin.sum_univ_three]
  unfold colorContract
  simp [quarkContractXX]
  ring

/-- the determinant of three vectors is the contraction of the cross product with the third -/
theorem C65_cross (s1 s2 s3 : Fin 3 → R) : vecContract3 s1 s2 s3 = colorVectorContract (colorCrossProduct s1 s2) s3 := by
  rw [show colorVectorContract (colorCrossProduct s1 s2) s3 =
    (s1 1*s2 2 - s1 2*s2 1) * s3 0 + (s1 2*s2 0 - s1 0*s2 2) * s3 1 + (s1 0*s2 1 - s1 1*s2 0) * s3 2 from rfl]
  unfold vecContract3
  ring

/-- all three arguments of `colorContract` may be exchanged -/
theorem C65_symm (s1 s2 s3 : Fin 3 → Fin 3 → R) : colorContract s2 s1 s3 = colorContract s1 s2 s3 ∧ colorContract s1 s3 s2 = colorContract s1 s2 s3 := by
  unfold colorContract; constructor <;> ring

/-- Σ ε(i,j,k) u(i,a) u(j,b) u(k,c) = det(u) ε(a,b,c) -/
theorem eps_det (u : Fin 3 → Fin 3 → R) (a b c : Fin 3) :
    (∑ i, ∑ j, ∑ k, (eps i j k : R) * (u i a * u j b * u k c)) = Matrix.det (Matrix.of u) * (eps a b c : R) := by
  rw [eps_table, Matrix.det_fin_three]
  simp only [Matrix.of_apply]
  fin_cases a <;> fin_cases b <;> fin_cases c <;>
    simp only [Fin.zero_eta, Fin.mk_one, Fin.reduceFinMk,
      show eps 0 0 0 = 0 from by decide, show eps 0 0 1 = 0 from by decide, show eps 0 0 2 = 0 from by decide,
      show eps 0 1 0 = 0 from by decide, show eps 0 1 1 = 0 from by decide, show eps 0 1 2 = 1 from by decide,
      show eps 0 2 0 = 0 from by decide, show eps 0 2 1 = -1 from by decide, show eps 0 2 2 = 0 from by decide,
      show eps 1 0 0 = 0 from by decide, show eps 1 0 1 = 0 from by decide, show eps 1 0 2 = -1 from by decide,
      show eps 1 1 0 = 0 from by decide, show eps 1 1 1 = 0 from by decide, show eps 1 1 2 = 0 from by decide,
      show eps 1 2 0 = 1 from by decide, show eps 1 2 1 = 0 from by decide, show eps 1 2 2 = 0 from by decide,
      show eps 2 0 0 = 0 from by decide, show eps 2 0 1 = 1 from by decide, show eps 2 0 2 = 0 from by decide,
      show eps 2 1 0 = -1 from by decide, show eps 2 1 1 = 0 from by decide, show eps 2 1 2 = 0 from by decide,
      show eps 2 2 0 = 0 from by decide, show eps 2 2 1 = 0 from by decide, show eps 2 2 2 = 0 from by decide,
      Int.cast_zero, Int.cast_one, Int.cast_neg] <;> ring

/-! ## spin -/

/-- each contraction is the sum over the two indices its name gives: of the four indices (1: row of the first, 2: column of the first, 3: row of the
second, 4: column of the second) the two summed are equal and the others are the row and the column of the result -/
theorem C65_spin {A B : Type} (f : A → B → R) {n : Nat} (s1 : Fin (n + 1) → Fin (n + 1) → A) (s2 : Fin (n + 1) → Fin (n + 1) → B) (i j : Fin (n + 1)) :
    (quarkContract .c13 (· + ·) f s1 s2 i j = ∑ k, f (s1 k i) (s2 k j)) ∧
    (quarkContract .c14 (· + ·) f s1 s2 i j = ∑ k, f (s1 k i) (s2 j k)) ∧
    (quarkContract .c23 (· + ·) f s1 s2 i j = ∑ k, f (s1 i k) (s2 k j)) ∧
    (quarkContract .c24 (· + ·) f s1 s2 i j = ∑ k, f (s1 i k) (s2 j k)) ∧
    (quarkContract .c12 (· + ·) f s1 s2 i j = ∑ k, f (s1 k k) (s2 i j)) ∧
    (quarkContract .c34 (· + ·) f s1 s2 i j = ∑ k, f (s1 i j) (s2 k k)) :=
  ⟨Site.accum_sum n fun k => f (s1 k i) (s2 k j), Site.accum_sum n fun k => f (s1 k i) (s2 j k), Site.accum_sum n fun k => f (s1 i k) (s2 k j),
    Site.accum_sum n fun k => f (s1 i k) (s2 j k), Site.accum_sum n fun k => f (s1 k k) (s2 i j), Site.accum_sum n fun k => f (s1 i j) (s2 k k)⟩

/-- the fused trace is the trace over the spin of the contraction -/
theorem C65_traceSpin {A B C : Type} {add : C → C → C} (ha : ∀ x y z, add (add x y) z = add x (add y z)) (f : A → B → C) {n : Nat}
    (l : Fin (n + 1) → Fin (n + 1) → A) (r : Fin (n + 1) → Fin (n + 1) → B) :
    traceSpinQuarkContract13 add f l r = Site.accum add n fun i => quarkContract .c13 add f l r i i := by
  unfold traceSpinQuarkContract13
  rw [Site.accum2_eq ha]
  rfl

/-- the inner product in colour of two spin matrices of colour vectors is adj(l)·r in spin and colour -/
theorem C65_spinColorInner (conj : R → R) {n m : Nat} (l r : Fin (n + 1) → Fin (n + 1) → Fin (m + 1) → R) (i j : Fin (n + 1)) :
    spinColorInner (· + ·) (localColorInnerProduct conj) l r i j = ∑ k, ∑ c, conj (l k i c) * r k j c := by
  unfold spinColorInner
  rw [Site.accum_sum]
  exact Finset.sum_congr rfl fun k _ => Site.accum_sum m _

/-- gauge covariance: with u l v in place of each matrix the result is multiplied by the determinants -/
theorem C65_left (u : Fin 3 → Fin 3 → R) (s1 s2 s3 : Fin 3 → Fin 3 → R) :
    colorContract (fun i j => ∑ a, u i a * s1 a j) (fun i j => ∑ a, u i a * s2 a j) (fun i j => ∑ a, u i a * s3 a j) =
      Matrix.det (Matrix.of u) * colorContract s1 s2 s3 := by
  rw [C65_colorContract, C65_colorContract]
  have h : ∀ (t : Fin 3 → Fin 3 → Fin 3 → R), (∑ i1, ∑ j1, ∑ k1, (eps i1 j1 k1 : R) *
      (∑ a, ∑ b, ∑ c, u i1 a * u j1 b * u k1 c * t a b c)) = Matrix.det (Matrix.of u) * ∑ a, ∑ b, ∑ c, (eps a b c : R) * t a b c := by
    intro t
    rw [eps_table, eps_table]
    simp only [Fin.sum_univ_three, Matrix.det_fin_three, Matrix.of_apply]
    ring
  refine Eq.trans ?_ (h fun a b c => ∑ i2, ∑ j2, ∑ k2, (eps i2 j2 k2 : R) * (s1 a i2 * s2 b j2 * s3 c k2))
  refine Finset.sum_congr rfl fun i1 _ => Finset.sum_congr rfl fun j1 _ => Finset.sum_congr rfl fun k1 _ => ?_
  congr 1
  simp only [eps_table]
  have q : ∀ (x y z : Fin 3), (∑ a, u i1 a * s1 a x) * (∑ a, u j1 a * s2 a y) * (∑ a, u k1 a * s3 a z) =
      ∑ a, ∑ b, ∑ c, u i1 a * u j1 b * u k1 c * (s1 a x * s2 b y * s3 c z) := by
    intro x y z
    simp only [Fin.sum_univ_three]; ring
  simp only [q, ← Finset.sum_add_distrib, ← Finset.sum_sub_distrib]
  refine Finset.sum_congr rfl fun a _ => Finset.sum_congr rfl fun b _ => Finset.sum_congr rfl fun c _ => ?_
  ring

theorem transposed (s1 s2 s3 : Fin 3 → Fin 3 → R) :
    colorContract (fun i j => s1 j i) (fun i j => s2 j i) (fun i j => s3 j i) = colorContract s1 s2 s3 := by
  unfold colorContract; ring

theorem C65_right (v : Fin 3 → Fin 3 → R) (s1 s2 s3 : Fin 3 → Fin 3 → R) :
    colorContract (fun i j => ∑ a, s1 i a * v a j) (fun i j => ∑ a, s2 i a * v a j) (fun i j => ∑ a, s3 i a * v a j) =
      Matrix.det (Matrix.of v) * colorContract s1 s2 s3 := by
  rw [← transposed, ← transposed s1 s2 s3]
  have := C65_left (fun i j => v j i) (fun i j => s1 j i) (fun i j => s2 j i) (fun i j => s3 j i)
  have d : Matrix.det (Matrix.of fun i j => v j i) = Matrix.det (Matrix.of v) := Matrix.det_transpose (Matrix.of v)
  rw [d] at this
  rw [← this]
  congr 1 <;> (funext i j; exact Finset.sum_congr rfl fun a _ => mul_comm _ _)

end

/-- the product of complex numbers in the contractions is that of include/qdp_reality.h:1910-1916 -/
theorem cx_mul {K : Type} [CommRing K] (x y : Site.Cx K) : x * y = Site.mul .cc x y := rfl

/-- a case: the unit matrix -/
example : colorContract (R := Int) (fun i j => if i = j then 1 else 0) (fun i j => if i = j then 1 else 0) (fun i j => if i = j then 1 else 0) = 6 := by
  decide

end Verif.Contract
