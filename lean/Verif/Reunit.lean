import Verif.LatticeIOProps
import Mathlib.Analysis.SpecialFunctions.Complex.Arg
import Mathlib.Analysis.SpecialFunctions.Pow.Real
import Mathlib.LinearAlgebra.UnitaryGroup
import Mathlib.LinearAlgebra.Matrix.Block
/-
Reunitarization of gauge fields: model of examples/reunit.cc.

Every statement of the function acts on all sites alike (see Verif.Evaluate, Verif.Spmd), so the model runs the function
at one site; the labels and the count of bad sites are formed over all sites (`reunit`).  `sigmasq` is computed here whatever
the flag; without a flag the code leaves it out and it is not used.  Arithmetic is that of real and
complex numbers, without rounding; a division by zero, which gives an infinity or a NaN, is outside the model (`ub`).
`a[i][j]` is a `multi2d` of Nc x Nc complex numbers; the indices used are below Nc, so it is a function here.
-/
namespace Verif.Reunit
open Verif Outcome Verif.LatticeIO
open scoped ComplexConjugate

/-! ## Model -/

/-- `multi2d<LatticeComplex> a(Nc,Nc)` at a site, examples/reunit.cc:44, 58-61 -/
abbrev Arr := Nat → Nat → ℂ

/-- `a[i][j] = v` -/
def upd (a : Arr) (i j : Nat) (v : ℂ) : Arr := fun k l => if k = i ∧ l = j then v else a k l

/-- `for(int c = lo; c < hi; ++c)` -/
def forN {σ : Type} (lo hi : Nat) (f : Nat → σ → σ) (s : σ) : σ := (List.range' lo (hi - lo)).foldl (fun s c => f c s) s

/-- `for(int c = lo; c < hi; ++c)` with a body that may fail -/
def forO {σ : Type} (lo hi : Nat) (f : Nat → σ → Outcome σ) (s : σ) : Outcome σ := foldO (fun s c => f c s) s (List.range' lo (hi - lo))

/-- `localNorm2` of a complex number, include/qdp_reality.h:2445-2453 -/
def nrm2 (z : ℂ) : ℝ := z.re * z.re + z.im * z.im

/-- real division -/
noncomputable def divR (x y : ℝ) : Outcome ℝ := if y = 0 then ub else ok (x / y)

/-- the norm of column `j`: examples/reunit.cc:118-121, 187-190, 212-215, 285-288, 330-333 -/
noncomputable def colNorm (n : Nat) (a : Arr) (j : Nat) : ℝ :=
  Real.sqrt (forN 1 n (fun c t => t + nrm2 (a c j)) (nrm2 (a 0 j)))

/-- `a[c][j] *= t`, all c: examples/reunit.cc:127-128, 196-197, 220-221, 301-302, 338-339, 386-387 -/
noncomputable def scale (n : Nat) (j : Nat) (t : ℂ) (a : Arr) : Arr := forN 0 n (fun c a => upd a c j (a c j * t)) a

/-- `t2 = adj(a[c][i]) * a[c][j]`, summed over c: examples/reunit.cc:201-203, 310-314 -/
noncomputable def dot (n : Nat) (a : Arr) (i j : Nat) : ℂ :=
  forN 1 n (fun c t => t + conj (a c i) * a c j) (conj (a 0 i) * a 0 j)

/-- `a[c][j] -= t2 * a[c][i]`, all c: examples/reunit.cc:207-208, 322-325 -/
noncomputable def orth (n : Nat) (i j : Nat) (t2 : ℂ) (a : Arr) : Arr := forN 0 n (fun c a => upd a c j (a c j - t2 * a c i)) a

/-- `sigmasq += localNorm2(row[c] - a[c][Nc-1])`, all c, and the root: examples/reunit.cc:145-148, 245-248, 395-398 -/
noncomputable def dev (n : Nat) (row : Nat → ℂ) (a : Arr) (s : ℝ) : ℝ :=
  Real.sqrt (forN 0 n (fun c s => s + nrm2 (row c - a c (n - 1))) s)

/-- examples/reunit.cc:68-83; the result is the matrix and `sigmasq` -/
noncomputable def case1 (a : Arr) : Outcome (Arr × ℝ) := do
  let sigmasq := Real.sqrt (nrm2 (a 0 0))
  let re ← divR (a 0 0).re sigmasq
  let im ← divR (a 0 0).im sigmasq
  return (upd a 0 0 ⟨re, im⟩, |1 - sigmasq|)

/-- examples/reunit.cc:107-149 -/
noncomputable def case2 (a : Arr) : Outcome (Arr × ℝ) := do
  let row := fun c => a c 1
  let t1 := colNorm 2 a 0
  let t4 ← divR 1 t1
  let a := scale 2 0 t4 a
  let a := upd a 1 1 (conj (a 0 0))
  let a := upd a 0 1 (-conj (a 1 0))
  return (a, dev 2 row a ((1 - t1) ^ 2))

/-- examples/reunit.cc:175-249 -/
noncomputable def case3 (a : Arr) : Outcome (Arr × ℝ) := do
  let row := fun c => a c 2
  let t1 := colNorm 3 a 0
  let t4 ← divR 1 t1
  let a := scale 3 0 t4 a
  let t2 := dot 3 a 0 1
  let a := orth 3 0 1 t2 a
  let t3 := colNorm 3 a 1
  let t4 ← divR 1 t3
  let a := scale 3 1 t4 a
  let a := upd a 0 2 (conj (a 1 0) * conj (a 2 1) - conj (a 2 0) * conj (a 1 1))
  let a := upd a 1 2 (conj (a 2 0) * conj (a 0 1) - conj (a 0 0) * conj (a 2 1))
  let a := upd a 2 2 (conj (a 0 0) * conj (a 1 1) - conj (a 1 0) * conj (a 0 1))
  return (a, dev 3 row a ((1 - t1) ^ 2 + nrm2 t2 + (1 - t3) ^ 2))

/-- the variables of the loop over columns -/
structure GS where
  a : Arr
  sigmasq : ℝ
  t1 : ℝ

/-- one pass over an earlier column `i`, examples/reunit.cc:309-325 -/
noncomputable def gsInner (n j i : Nat) (s : GS) : GS :=
  let t2 := dot n s.a i j
  { s with sigmasq := if j < n - 1 then s.sigmasq + nrm2 t2 else s.sigmasq, a := orth n i j t2 s.a }

/-- one column `j`, examples/reunit.cc:305-348 -/
noncomputable def gsCol (n j : Nat) (s : GS) : Outcome GS := do
  let s := forN 0 j (gsInner n j) s
  let t1 := colNorm n s.a j
  let t3 ← divR 1 t1
  return ⟨scale n j t3 s.a, if j < n - 1 then s.sigmasq + (1 - t1) ^ 2 else s.sigmasq, t1⟩

/-- Gram-Schmidt, examples/reunit.cc:283-348 -/
noncomputable def gramSchmidt (n : Nat) (a : Arr) : Outcome GS := do
  let t1 := colNorm n a 0
  let t3 ← divR 1 t1
  forO 1 n (gsCol n) ⟨scale n 0 t3 a, (1 - t1) ^ 2, t1⟩

/-- `b[j][i] - sum over c < m of b[c][i]*b[j][c]`, examples/reunit.cc:361-363, 370-372 -/
noncomputable def luDot (b : Arr) (i j m : Nat) : ℂ := forN 0 m (fun c t => t - b c i * b j c) (b j i)

/-- examples/reunit.cc:374: `adj(b[j][j]) * t2 / localNorm2(b[j][j])` -/
noncomputable def luQuot (x t : ℂ) : Outcome ℂ := do
  let re ← divR (conj x * t).re (nrm2 x)
  let im ← divR (conj x * t).im (nrm2 x)
  return ⟨re, im⟩

/-- one pass `j` of the decomposition, examples/reunit.cc:357-376 -/
noncomputable def luCol (n j : Nat) (b : Arr) : Outcome Arr :=
  let b := forN 0 (j + 1) (fun i b => upd b j i (luDot b i j i)) b
  forO (j + 1) n (fun i b => do return upd b j i (← luQuot (b j j) (luDot b i j j))) b

/-- the determinant by LU decomposition without pivoting, examples/reunit.cc:353-381 -/
noncomputable def luDet (n : Nat) (a : Arr) : Outcome ℂ := do
  let b ← forO 0 n (luCol n) a
  return forN 2 n (fun c t => t * b c c) (b 0 0 * b 1 1)

/-- `atan2(y, x)` -/
noncomputable def atan2 (y x : ℝ) : ℝ := Complex.arg ⟨x, y⟩

/-- examples/reunit.cc:273-399; line 384 has `real(t1)`, the norm of the last column before it was scaled, where the
determinant `t2` is meant -/
noncomputable def caseN (n : Nat) (a : Arr) : Outcome (Arr × ℝ) := do
  let row := fun c => a c (n - 1)
  let s ← gramSchmidt n a
  let t2 ← luDet n s.a
  let t4 := atan2 t2.im s.t1
  let a := scale n (n - 1) ⟨Real.cos t4, -Real.sin t4⟩ s.a
  return (a, dev n row a s.sigmasq)

/-- the switch at one site, examples/reunit.cc:64-421 -/
noncomputable def site (nc : Nat) (a : Arr) : Outcome (Arr × ℝ) :=
  match nc with
  | 0 => abort
  | 1 => case1 a
  | 2 => case2 a
  | 3 => case3 a
  | n => caseN n a

/-- examples/examples.h:21 -/
inductive Flag | plain | error | label
deriving DecidableEq

/-- `fuzz`, examples/reunit.cc:56 -/
noncomputable def fuzz : ℝ := 1 / 10 ^ 5

/-- the function: matrices at `vol` sites, labels `bad`; examples/reunit.cc:39-429.  The result is the matrices, the labels
and `numbad`. -/
noncomputable def reunit (nc vol : Nat) (flag : Flag) (xa : Nat → Arr) (bad : Nat → Bool) :
    Outcome ((Nat → Arr) × (Nat → Bool) × Nat) := do
  let (q, s) ← forO 0 vol (fun x (r : (Nat → Arr) × (Nat → ℝ)) => do
    let (q, s) ← site nc (xa x)
    return (Function.update r.1 x q, Function.update r.2 x s)) (xa, fun _ => 0)
  let over := forN 0 vol (fun x k => k + if s x > fuzz then 1 else 0) 0
  match flag with
  | .plain => return (q, bad, 0)
  | .error => if over > 0 then abort else return (q, bad, over)
  | .label => return (q, fun x => if x < vol then decide (s x > fuzz) else bad x, over)

/-! ## Specification -/

/-- the matrix at a site -/
def mat (n : Nat) (a : Arr) : Matrix (Fin n) (Fin n) ℂ := fun i j => a i j

/-- `A = Q R` in the columns below `m`, with R upper triangular and positive on the diagonal: the columns of Q are those of A,
orthonormalized from left to right -/
def Orthonormalized (n m : Nat) (A Q : Matrix (Fin n) (Fin n) ℂ) : Prop :=
  ∃ R : Matrix (Fin n) (Fin n) ℂ, (∀ i j, j < i → R i j = 0) ∧ (∀ j, j.val < m → 0 < (R j j).re ∧ (R j j).im = 0) ∧
    ∀ i j, j.val < m → A i j = (Q * R) i j

/-- the square of the distance of two matrices -/
noncomputable def dist2 {n : Nat} (A B : Matrix (Fin n) (Fin n) ℂ) : ℝ := ∑ i, ∑ j, ‖A i j - B i j‖ ^ 2

/-- the first `m` columns are linearly independent -/
def Indep (n m : Nat) (A : Matrix (Fin n) (Fin n) ℂ) : Prop :=
  LinearIndependent ℂ (fun (j : {j : Fin n // j.val < m}) (i : Fin n) => A i j)

end Verif.Reunit
