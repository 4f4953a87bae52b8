import Verif.HadronThm
import Verif.Contract
/-
The baryons of the examples (examples/baryon_w.cc) as a program of lattice operations, on top of Verif.Hadron.

The function returns at once unless there are four spins and three colours; the model is for that case.  Arithmetic is without rounding;
that of `int` overflows.  A spin matrix times a propagator and the traces are sums over all indices (C64 is about the loops);
`quarkContract13` is the model of C65.  `sumMulti` of several fields is one `sumMulti` for each.
-/
namespace Verif.Baryon
open Verif Outcome Verif.Layout Verif.ParLayout Verif.ParMap Verif.Spmd Verif.Shift Verif.Subset Verif.Hadron
open Verif.Gauge (Mat siteSum)
open Verif.Dslash (gam gam5)

/-! ## Model -/

/-- SpinMatrix -/
abbrev SM := Fin 4 → Fin 4 → ℂ

/-- `g_one`, examples/baryon_w.cc:107 -/
def gOne : SM := fun a b => if a = b then 1 else 0

/-- `Gamma(m) * s` of a spin matrix, tables cited in Verif.SpinTables -/
noncomputable def gs (m : Fin 16) (s : SM) : SM := Spin.gammaMat Spin.matL m s

/-- `timesI` -/
noncomputable def tI (s : SM) : SM := fun a b => Complex.I * s a b

/-- a real number times a spin matrix -/
noncomputable def rs (r : ℂ) (s : SM) : SM := fun a b => r * s a b

/-- `g_tmp1`, `Cgm`, `Cg4m`, `CgmNR`, `S_proj`, examples/baryon_w.cc:111-118 -/
noncomputable def gTmp1 : SM := rs 0.5 (gs 2 gOne + tI (gs 1 gOne))
noncomputable def cgm : SM := gs 10 gTmp1
noncomputable def cg4m : SM := gs 10 (gs 8 gTmp1)
noncomputable def cgmNR : SM := cgm - cg4m
noncomputable def sProj : SM := rs 0.5 ((gOne + gs 8 gOne) - tI (gs 3 gOne + gs 11 gOne))

/-- a spin matrix times a propagator, and from the right: the colour part of the first is a PScalar -/
def sL (M : SM) (A : Prp 3) : Prp 3 := fun a b i j => ∑ c, M a c * A c b i j
def sR (A : Prp 3) (M : SM) : Prp 3 := fun a b i j => ∑ c, A a c i j * M c b

/-- `quarkContract13` of propagators, include/qdp_primspinmat.h:1747-1762, include/qdp_primcolormat.h:611-690 -/
def diq (A B : Prp 3) : Prp 3 := Contract.quarkContract .c13 (· + ·) Contract.quarkContractXX A B

/-- `traceSpin`, `traceColor` -/
def traceSpin (A : Prp 3) : Fin 3 → Fin 3 → ℂ := ∑ a, A a a
def traceColor (A : Prp 3) : SM := fun a b => ∑ i, A a b i i

/-- a propagator times a colour matrix -/
def pcmul (A : Prp 3) (U : Fin 3 → Fin 3 → ℂ) : Prp 3 := fun a b i j => ∑ k, A a b i k * U k j

/-- `trace(S * T)` of spin matrices -/
def strace2 (S T : SM) : ℂ := ∑ a, ∑ b, S a b * T b a

/-- `trace(S_proj * traceColor(q * traceSpin(d))) + w * trace(S_proj * traceColor(q * d))`, examples/baryon_w.cc:138-139, 151-152; `w` is 1
where it is not written -/
noncomputable def bVal (w : ℂ) (q d : Prp 3) : ℂ :=
  strace2 sProj (traceColor (pcmul q (traceSpin d))) + w * strace2 sProj (traceColor (pmul q d))

/-- the two factors of `quarkContract13` -/
structure Pair where
  l : Prp 3 → Prp 3
  r : Prp 3 → Prp 3

/-- one case with a diquark: `di_quark` is field b, `b_prop` is field b + 1 -/
noncomputable def contraction {R : Type} (q b : Nat) (w : ℂ) (d : Pair) (k : Prog (V 3) R) : Prog (V 3) R :=
  .assign b allSites ⟨[q], fun vs => pv (diq (d.l (vs.getD 0 0).p) (d.r (vs.getD 0 0).p))⟩ <|
  .assign (b + 1) allSites ⟨[q, b], fun vs => zv (bVal w (vs.getD 0 0).p (vs.getD 1 0).p)⟩ k

/-- `b_prop *= 3.0` -/
def times3 {R : Type} (b : Nat) (k : Prog (V 3) R) : Prog (V 3) R :=
  .assign (b + 1) allSites ⟨[b + 1], fun vs => zv ((vs.getD 0 0).z * 3)⟩ k

/-- the `switch`, examples/baryon_w.cc:132-214 -/
noncomputable def oneBaryon {R : Type} (q b : Nat) (fail : Prog (V 3) R) : Nat → Prog (V 3) R → Prog (V 3) R
  | 0, k => contraction q b 1 ⟨fun Q => gR 5 Q, fun Q => gL 5 Q⟩ k
  | 1, k => times3 b k
  | 2, k => contraction q b 2 ⟨fun Q => sR Q cgm, fun Q => sL cgm Q⟩ <| times3 b k
  | 3, k => contraction q b 1 ⟨fun Q => gR 13 Q, fun Q => gL 13 Q⟩ k
  | 4, k => times3 b k
  | 5, k => contraction q b 2 ⟨fun Q => sR Q cg4m, fun Q => sL cg4m Q⟩ <| times3 b k
  | 6, k => contraction q b 1 ⟨fun Q => gR 5 Q + gR 13 Q, fun Q => gL 5 Q + gL 13 Q⟩ k
  | 7, k => times3 b k
  | 8, k => contraction q b 2 ⟨fun Q => sR Q cgmNR, fun Q => sL cgmNR Q⟩ <| times3 b k
  | _, _ => fail

/-- the loop over the baryons, examples/baryon_w.cc:124-217: `b_prop_a[i]` is field b + 2 + i -/
noncomputable def bLoop {R : Type} (q b : Nat) (fail : Prog (V 3) R) : List Nat → Prog (V 3) R → Prog (V 3) R
  | [], k => k
  | i :: is, k => oneBaryon q b fail i <|
      .assign (b + 2 + i) allSites ⟨[b + 1], fun vs => zv (vs.getD 0 0).z⟩ <| bLoop q b fail is k

/-- `sumMulti(b_prop_a, timeslice)`, examples/baryon_w.cc:221 -/
noncomputable def sumsLoop {R : Type} (L : List Nat) (jd b : Nat) : List Nat → List (List ℂ) → (List (List ℂ) → Prog (V 3) R) → Prog (V 3) R
  | [], acc, k => k acc
  | i :: is, acc, k => sumMulti L jd ⟨[b + 2 + i], fun vs => zv (vs.getD 0 0).z⟩ (List.range (L.getD jd 0)) [] fun h =>
      sumsLoop L jd b is (acc ++ [h]) k

/-- `bc_spec < 0 && (t_eff+t0) >= length`, examples/baryon_w.cc:232 -/
def past (length : Nat) (t0 bc e : Int) : Outcome Bool :=
  if bc < 0 then do let s ← ckI (e + t0); return decide ((length : Int) ≤ s) else ok false

/-- the loop over `t`, examples/baryon_w.cc:228-236; the array has any contents before -/
noncomputable def place (length : Nat) (t0 bc : Int) (any hsum : List ℂ) : Outcome (List ℂ) :=
  slots length t0 (fun t e _ => do
    let neg ← past length t0 bc e
    let h ← rd hsum t
    return if neg then -0.5 * h else 0.5 * h) (List.range length) any

/-- `baryon`, examples/baryon_w.cc:83-238: `quark_propagator` is field q, temporaries are fields from b on; `t0` is `t_source[j_decay]` -/
noncomputable def baryon {R : Type} (L : List Nat) (q b jd : Nat) (t0 bc : Int) (any : List ℂ) (k : Outcome (List (List ℂ)) → Prog (V 3) R) :
    Prog (V 3) R :=
  bLoop q b (k abort) (List.range 9) <|
  sumsLoop L jd b (List.range 9) [] fun hsum =>
  k (mapO (place (L.getD jd 0) t0 bc any) hsum)

/-! ## Specification

An operator for a baryon is a linear combination of terms `eps_abc (f_a^T M g_b) h_c`, with one matrix `M` and flavours `f, g, h`.  Its
correlation function with its Dirac adjoint is given by Wick's theorem: the sum over the pairings of quarks and antiquarks of the same
flavour, with the sign of the permutation. -/

/-- flavours -/
abbrev u : Fin 3 := 0
abbrev d : Fin 3 := 1
abbrev s : Fin 3 := 2

/-- a linear combination of terms, by their flavours -/
abbrev Op := List (ℂ × (Fin 3 → Fin 3))

/-- `|P> = (d M u) u` -/
def protonOp : Op := [(1, ![d, u, u])]
/-- `|L> = 2 (u M d) s + (s M d) u + (u M s) d` -/
def lambdaOp : Op := [(2, ![u, d, s]), (1, ![s, d, u]), (1, ![u, s, d])]
/-- `|D> = 2 (d M u) u + (u M u) d` -/
def deltaOp : Op := [(2, ![d, u, u]), (1, ![u, u, d])]

/-- the expectation of three quarks at `x` and three antiquarks at `y` in reverse order, all quarks having the propagator `S` -/
noncomputable def wick (S : PM 3) (f g : Fin 3 → Fin 3) (x y : Fin 3 → Fin 4 × Fin 3) : ℂ :=
  ∑ p : Equiv.Perm (Fin 3), if f = g ∘ p then ((Equiv.Perm.sign p : ℤ) : ℂ) * ∏ i, S (x i) (y (p i)) else 0

/-- the matrix of the Dirac adjoint of `a^T M b` -/
noncomputable def dirac (M : Matrix (Fin 4) (Fin 4) ℂ) : Matrix (Fin 4) (Fin 4) ℂ := gam 3 * M.conjTranspose * (gam 3).transpose

/-- the correlation function of two terms -/
noncomputable def termCorr (S : PM 3) (M M' : Matrix (Fin 4) (Fin 4) ℂ) (f g : Fin 3 → Fin 3) (al be : Fin 4) : ℂ :=
  ∑ s0, ∑ s1, ∑ t0, ∑ t1, M s0 s1 * M' t1 t0 *
    ∑ a0, ∑ a1, ∑ a2, (Contract.eps a0 a1 a2 : ℂ) * ∑ b0, ∑ b1, ∑ b2, (Contract.eps b0 b1 b2 : ℂ) *
      wick S f g ![(s0, a0), (s1, a1), (al, a2)] ![(t0, b0), (t1, b1), (be, b2)]

/-- the correlation function of an operator and its Dirac adjoint -/
noncomputable def corr (S : PM 3) (M : Matrix (Fin 4) (Fin 4) ℂ) (O : Op) : Matrix (Fin 4) (Fin 4) ℂ := fun al be =>
  (O.map fun p => (O.map fun p' => p.1 * star p'.1 * termCorr S M (dirac M) p.2 p'.2 al be).sum).sum

/-- projects on positive parity and spin up -/
noncomputable def upProj : Matrix (Fin 4) (Fin 4) ℂ := ((1 / 2 : ℂ) • (1 + gam 3)) * ((1 / 2 : ℂ) • (1 - Complex.I • (gam 0 * gam 1)))

/-- charge conjugation, and the matrix called gamma_- -/
noncomputable def C : Matrix (Fin 4) (Fin 4) ℂ := gam 1 * gam 3
noncomputable def gMinus : Matrix (Fin 4) (Fin 4) ℂ := (1 / 2 : ℂ) • (gam 1 + Complex.I • gam 0)

/-- the diquark matrices `B_1`, `B_2`: gamma_4 between C and the other; `B_3` is their difference -/
noncomputable def diquark (g : Matrix (Fin 4) (Fin 4) ℂ) : Fin 3 → Matrix (Fin 4) (Fin 4) ℂ :=
  ![C * g, C * gam 3 * g, C * g - C * gam 3 * g]

/-- the correlation function at a site: baryon 3k is the proton, 3k + 1 the Lambda, 3k + 2 the Delta; the last two are halved -/
noncomputable def baryonAt (S : PM 3) (k : Fin 3) : Fin 3 → ℂ :=
  ![(upProj * corr S (diquark gam5 k) protonOp).trace,
    (upProj * corr S (diquark gam5 k) lambdaOp).trace / 2,
    (upProj * corr S (diquark gMinus k) deltaOp).trace / 2]

/-- the sign of the boundary condition: for slices beyond the end of the lattice -/
def bcSign (length : Nat) (t0 bc : Int) (s : Nat) : ℂ := if bc < 0 ∧ length ≤ s + t0 then -1 else 1

end Verif.Baryon
