import Verif.RngProps
import Verif.SeedProps
import Verif.LatticeIOProps
import Mathlib.Analysis.SpecialFunctions.Trigonometric.Basic
import Mathlib.Analysis.SpecialFunctions.Pow.Real
/-
Gaussian fields: model of `gaussian(OLattice, Subset)`, include/qdp_parscalar_specific.h:569-588 and
include/qdp_scalar_specific.h:385-402, and of `fill_gaussian`, include/qdp_reality.h:1781-1801, 2542-2564 (passed on by
the levels above, include/qdp_primscalar.h:1394-1399, include/qdp_primvector.h:844-850, include/qdp_primspinvec.h:1099-1105,
include/qdp_primmatrix.h:1568-1575).

Simplifications: the uniform deviates are those of Verif.Seed with their rounding; logarithm, square root, sine, cosine
and the products are those of real numbers (no rounding); the logarithm of zero and the root of a negative number, which
give an infinity and a NaN, are outside the model (`ub`).  The site type is a list of `n` real or `n` complex numbers in
the order in which `fill_random` and `fill_gaussian` visit them.
-/
namespace Verif.Gauss
open Verif Outcome Verif.Layout Verif.ParLayout Verif.Seed Verif.Rng Verif.Subset Verif.LatticeIO

/-! ## Model -/

/-- an element of the site type: `RScalar` or `RComplex` -/
inductive Num
  | s (x : ℝ)
  | c (re im : ℝ)

/-- logarithm of a deviate -/
noncomputable def lnU (u : ℝ) : Outcome ℝ := if 0 < u then ok (Real.log u) else ub

/-- square root -/
noncomputable def sqrtU (x : ℝ) : Outcome ℝ := if 0 ≤ x then ok (Real.sqrt x) else ub

/-- the constant for 2 pi, include/qdp_reality.h:1792, 2553 -/
noncomputable def twoPi : ℝ := 6.283185307

/-- `fill_gaussian(RScalar)`, include/qdp_reality.h:1783-1801 -/
noncomputable def fillS (u1 u2 : ℝ) : Outcome Num := do
  let r2 := u2 * twoPi
  let gr := Real.cos r2
  let l ← lnU u1
  let r1 ← sqrtU (-2 * l)
  return .s (r1 * gr)

/-- `fill_gaussian(RComplex)`, include/qdp_reality.h:2544-2564; the imaginary parts of `r1` and `r2` are not used -/
noncomputable def fillC (u1 u2 : ℝ) : Outcome Num := do
  let r2 := u2 * twoPi
  let gr := Real.cos r2
  let gi := Real.sin r2
  let l ← lnU u1
  let r1 ← sqrtU (-2 * l)
  return .c (r1 * gr) (r1 * gi)

/-- the site type: number of elements, complex or not -/
structure Shape where
  n : Nat
  cplx : Bool

/-- numbers drawn by `fill_random` per site, include/qdp_reality.h:1771-1775, 2531-2537 -/
def Shape.draws (sh : Shape) : Nat := if sh.cplx then 2 * sh.n else sh.n

/-- the deviate a seed is converted to, include/qdp_random.h:54-65, lib/qdp_random.cc:217-233; `p` is the number of
significant bits of `Real` -/
noncomputable def dev (p : Nat) (s : PSeed) : ℝ := (sranfValue p s : ℝ) / 2 ^ 47

/-- element `q` of a site -/
noncomputable def fillElem (p : Nat) (sh : Shape) (x1 x2 : List PSeed) (q : Nat) : Outcome Num :=
  if sh.cplx then do
    let a ← rd x1 (2 * q)
    let b ← rd x2 (2 * q)
    fillC (dev p a) (dev p b)
  else do
    let a ← rd x1 q
    let b ← rd x2 q
    fillS (dev p a) (dev p b)

/-- `fill_gaussian` of a site -/
noncomputable def fillSite (p : Nat) (sh : Shape) (x1 x2 : List PSeed) : Outcome (List Num) :=
  mapO (fillElem p sh x1 x2) (List.range sh.n)

/-- `r1.elem(i)`: a site `random` has not written is not initialised -/
def look (w : List (Nat × List PSeed)) (i : Nat) : Outcome (List PSeed) :=
  match w.find? fun x => x.1 == i with
  | some x => ok x.2
  | none => ub

/-- one iteration of the site loop, include/qdp_parscalar_specific.h:582-586 -/
noncomputable def site (p : Nat) (sh : Shape) (w1 w2 : List (Nat × List PSeed)) (tab : List Nat) (d : Nat → List Num) (j : Nat) :
    Outcome (Nat → List Num) := do
  let i ← rd tab j
  let x1 ← look w1 i
  let x2 ← look w2 i
  let g ← fillSite p sh x1 x2
  return Function.update d i g

/-- how the threads run the three loops: iterations of each thread and order of the critical sections in the two calls
of `random`, order of the iterations in the last loop -/
structure Sched where
  own1 : List (List Nat)
  crit1 : List Nat
  own2 : List (List Nat)
  crit2 : List Nat
  order : List Nat

/-- `gaussian(OLattice, Subset)`, include/qdp_parscalar_specific.h:569-588 (`guarded = true`),
include/qdp_scalar_specific.h:385-402 (`guarded = false`) -/
noncomputable def gaussian (guarded : Bool) (p : Nat) (sh : Shape) (st : State) (tab : List Nat) (sc : Sched)
    (d : Nat → List Num) : Outcome ((Nat → List Num) × State) := do
  let (w1, st) ← randomLattice guarded st tab sh.draws sc.own1 sc.crit1
  let (w2, st) ← randomLattice guarded st tab sh.draws sc.own2 sc.crit2
  let d ← foldO (site p sh w1 w2 tab) d sc.order
  return (d, st)

/-! ## Specification -/

/-- the transform of Box and Muller with the angle `t` in place of 2 pi -/
noncomputable def boxMuller (t u1 u2 : ℝ) : ℝ × ℝ :=
  (Real.sqrt (-2 * Real.log u1) * Real.cos (t * u2), Real.sqrt (-2 * Real.log u1) * Real.sin (t * u2))

/-- the four 12-bit digits of a seed -/
def digits (n : Nat) : PSeed := ⟨n % 4096, n / 4096 % 4096, n / 4096 ^ 2 % 4096, n / 4096 ^ 3 % 2048⟩

/-- element `n` of the sequence as a deviate -/
noncomputable def uni (p s n : Nat) : ℝ := dev p (digits (elem A s n))

/-- what element `q` of the site of rank `l` holds after the call, `v` sites in the lattice, seed `s` before the call: the
transform of two elements of the sequence, one of the first call of `random`, one of the second -/
noncomputable def want (p v s : Nat) (sh : Shape) (l q : Nat) : Num :=
  let q' := if sh.cplx then 2 * q else q
  let z := boxMuller twoPi (uni p s ((l + 1) + q' * (v + 1))) (uni p s (sh.draws * (v + 1) + (l + 1) + q' * (v + 1)))
  if sh.cplx then .c z.1 z.2 else .s z.1

end Verif.Gauss
