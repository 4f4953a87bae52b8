import Verif.DslashThm
import Mathlib.LinearAlgebra.Matrix.Kronecker
import Mathlib.Analysis.SpecialFunctions.Trigonometric.Basic
/-
The correlation functions of the examples: mesons (examples/mesons_w.cc) and currents (examples/formfac_w.cc), as programs of lattice
operations (Verif.Spmd), with the gamma matrices of Verif.Spin.

As in Verif.Gauge, a shifted subexpression is assigned to a temporary first, and arithmetic is without rounding; that of `int` overflows.
`sumMulti` is one sum for every subset (C50 is about its single pass over the sites).  `twopi` is taken to be 2 pi.  What is written to
the XML file is modelled as a list of records.
-/
namespace Verif.Hadron
open Verif Outcome Verif.Layout Verif.ParLayout Verif.ParMap Verif.Spmd Verif.Shift Verif.Subset
open Verif.Gauge (Mat GaugeField shiftF up siteSum transform UnitaryOn)
open Verif.Dslash (gam gam5 down wilson)
open scoped Kronecker

/-! ## Model -/

/-- LatticePropagator at a site: a spin matrix of colour matrices -/
abbrev Prp (n : Nat) := Fin 4 → Fin 4 → Fin n → Fin n → ℂ

/-- the types in use: colour matrix, propagator, complex number -/
abbrev V (n : Nat) := Mat n × Prp n × ℂ

def V.m {n : Nat} (v : V n) : Mat n := v.1
def V.p {n : Nat} (v : V n) : Prp n := v.2.1
def V.z {n : Nat} (v : V n) : ℂ := v.2.2
def pv {n : Nat} (x : Prp n) : V n := (0, x, 0)
def zv {n : Nat} (x : ℂ) : V n := (0, 0, x)

/-- product, adjoint and trace of matrices of matrices, include/qdp_primmatrix.h:649-668, 844-858, 905-916; the loops are those of C64 -/
def pmul {n : Nat} (A B : Prp n) : Prp n := fun a b i j => ∑ c, ∑ k, A a c i k * B c b k j
def padj {n : Nat} (A : Prp n) : Prp n := fun a b i j => star (A b a j i)
def ptrace {n : Nat} (A : Prp n) : ℂ := ∑ a, ∑ i, A a a i i
/-- a colour matrix times a propagator: the spin part of the first is a PScalar -/
def cmul {n : Nat} (U : Mat n) (A : Prp n) : Prp n := fun a b i j => ∑ k, U i k * A a b k j
/-- `Gamma(m) * p` and `p * Gamma(m)`, tables cited in Verif.SpinTables -/
noncomputable def gL {n : Nat} (m : Fin 16) (A : Prp n) : Prp n := Spin.gammaMat Spin.matL m A
noncomputable def gR {n : Nat} (m : Fin 16) (A : Prp n) : Prp n := Spin.matGamma Spin.matR m A

/-- a subset of `timeslice`, examples/mesons_w.cc:11-23, examples/formfac_w.cc:14-26 -/
def slice (L : List Nat) (jd t : Nat) : SubsetOf := ⟨fun c => (c.getD jd 0 : Nat), L.getD jd 0, t⟩

/-- `sumMulti(rhs, timeslice)`: `hsum[t]` for the `t` of a list -/
def sumMulti {n : Nat} {R : Type} (L : List Nat) (jd : Nat) (rhs : Rhs (V n)) : List Nat → List ℂ → (List ℂ → Prog (V n) R) → Prog (V n) R
  | [], acc, k => k acc
  | t :: ts, acc, k => .sum (slice L jd t) rhs fun v => sumMulti L jd rhs ts (acc ++ [v.z]) k

/-- an `int`: overflow is undefined -/
def ckI (x : Int) : Outcome Int := if -2 ^ 31 ≤ x ∧ x < 2 ^ 31 then ok x else ub

/-- `t_eff = (t - t0 + length) % length`, examples/mesons_w.cc:80, examples/formfac_w.cc:157, 169; the remainder has the sign of the
dividend -/
def tEff (length : Nat) (t0 : Int) (t : Nat) : Outcome Int := do
  let d ← ckI (t - t0)
  let e ← ckI (d + length)
  if length = 0 then ub else return e.tmod length

/-- the loops over `t` that fill an array: `a[t_eff] = w(t, t_eff, a[t_eff])`, examples/mesons_w.cc:78-83,
examples/formfac_w.cc:155-160, 166-172.  The index is not checked. -/
def slots {K : Type} (length : Nat) (t0 : Int) (w : Nat → Int → K → Outcome K) : List Nat → List K → Outcome (List K)
  | [], a => ok a
  | t :: ts, a => do
      let e ← tEff length t0 t
      if e < 0 then ub
      else do
        let old ← rd a e.toNat
        let new ← w t e old
        slots length t0 w ts (a.set e.toNat new)

/-- `Gamma(G5) * p * Gamma(G5)`, `G5 = Ns*Ns-1`, examples/mesons_w.cc:57, 63, examples/formfac_w.cc:67, 80 -/
noncomputable def anti {n : Nat} (s : Nat) : Rhs (V n) := ⟨[s], fun vs => pv (gR 15 (gL 15 (vs.getD 0 0).p))⟩

/-- `real(trace(adj(anti_quark_prop) * Gamma(n) * quark_prop_1 * Gamma(n)))`, examples/mesons_w.cc:71; the products are formed from the
left -/
noncomputable def mesonRhs {n : Nat} (a q : Nat) (m : Fin 16) : Rhs (V n) := ⟨[a, q], fun vs =>
  zv ((ptrace (gR m (pmul (gR m (padj (vs.getD 0 0).p)) (vs.getD 1 0).p))).re : ℂ)⟩

/-- the loop over `n`, examples/mesons_w.cc:65-84; `psi_sq` is field b + 1 -/
noncomputable def mesonLoop {n : Nat} {R : Type} (L : List Nat) (jd : Nat) (t0 : Int) (q b : Nat) : List (Fin 16) → Outcome (List (List ℝ)) →
    (Outcome (List (List ℝ)) → Prog (V n) R) → Prog (V n) R
  | [], out, k => k out
  | m :: ms, out, k =>
      .assign (b + 1) allSites (mesonRhs b q m) <|
      sumMulti L jd ⟨[b + 1], fun vs => zv (vs.getD 0 0).z⟩ (List.range (L.getD jd 0)) [] fun hsum =>
      mesonLoop L jd t0 q b ms (do
        let o ← out
        let r ← slots (L.getD jd 0) t0 (fun t _ old => do let h ← rd hsum t; return old + h.re) (List.range (L.getD jd 0))
          (List.replicate (L.getD jd 0) 0)
        return o ++ [r]) k

/-- `mesons`, examples/mesons_w.cc:45-88: `quark_prop_1`, `quark_prop_2` are the fields q1, q2, `anti_quark_prop` is field b.  `t0` is
`t_source[j_decay]`; a direction that does not exist is outside the model. -/
noncomputable def mesons {n : Nat} {R : Type} (L : List Nat) (q1 q2 b jd : Nat) (t0 : Int) (k : Outcome (List (List ℝ)) → Prog (V n) R) : Prog (V n) R :=
  .assign b allSites (anti q2) <| mesonLoop L jd t0 q1 b (List.finRange 16) (ok []) k

/-- `Gamma(1 << mu)`: up to four directions -/
def gix (mu : Nat) : Fin 16 := Fin.ofNat 16 (2 ^ mu)

/-- what is written for one current and one momentum, examples/formfac_w.cc:175-181 -/
structure Rec where
  mu : Nat
  mom : List Int
  loc : List ℂ
  non : List ℂ

/-- `inser_mom`, examples/formfac_w.cc:121-127: the `n`-th point of the grid, shifted by `(L-1)/2` -/
def inserMom (nd m : Nat) : Outcome (List Int) := do
  let c ← crtesn m (List.replicate (nd - 1) 5)
  return c.map fun (x : Nat) => (x : Int) - (5 - 1) / 2

/-- `q_sq`, examples/formfac_w.cc:123-128 -/
def qSq (p : List Int) : Int := (p.map fun x => x * x).sum

/-- `p_dot_x`, examples/formfac_w.cc:135-147: the loop over `nu`, `j` counts the components of the momentum -/
noncomputable def pDotX (jd : Nat) (p : List Int) : (nu j : Nat) → (L : List Nat) → (x : List ℝ) → ℝ
  | nu, j, l :: L, c :: x =>
      if nu = jd then pDotX jd p (nu + 1) j L x
      else c * (2 * Real.pi) * (p.getD j 0 : Int) / l + pDotX jd p (nu + 1) (j + 1) L x
  | _, _, _, _ => 0

/-- `phasefac`, examples/formfac_w.cc:135-150, of the coordinates; the statements of the loop are taken together -/
noncomputable def phaseRhs {n : Nat} (L : List Nat) (jd b : Nat) (p : List Int) : Rhs (V n) :=
  ⟨(List.range L.length).map (b + ·), fun vs =>
    zv ⟨Real.cos (pDotX jd p 0 0 L (vs.map fun v => v.z.re)), Real.sin (pDotX jd p 0 0 L (vs.map fun v => v.z.re))⟩⟩

/-- the product of two complex fields -/
def zmul {n : Nat} (a b : Nat) : Rhs (V n) := ⟨[a, b], fun vs => zv ((vs.getD 0 0).z * (vs.getD 1 0).z)⟩

/-- `local_cur3ptfn`, `nonlocal_cur3ptfn`, and what is written so far -/
structure FState where
  loc : List ℂ
  non : List ℂ
  out : List Rec

/-- examples/formfac_w.cc:155-181 -/
noncomputable def fillCur (length : Nat) (t0 : Int) (mu : Nat) (p : List Int) (h1 h2 : List ℂ) (st : FState) : Outcome FState := do
  let loc ← slots length t0 (fun t _ _ => rd h1 t) (List.range length) st.loc
  let non ← slots length t0 (fun t _ _ => do let h ← rd h2 t; return 0.5 * h) (List.range length) st.non
  return ⟨loc, non, st.out ++ [⟨mu, p, loc, non⟩]⟩

/-- the loop over the momenta, examples/formfac_w.cc:119-182: the fields from `b` are the coordinates, c + 1 and c + 3 the currents -/
noncomputable def momLoop {n : Nat} {R : Type} (L : List Nat) (jd : Nat) (t0 : Int) (b c mu : Nat) : List Nat → Outcome FState →
    (Outcome FState → Prog (V n) R) → Prog (V n) R
  | [], st, k => k st
  | m :: ms, st, k =>
      match inserMom L.length m with
      | .ok p =>
          if qSq p > 4 then momLoop L jd t0 b c mu ms st k
          else
            .assign (c + 6) allSites (phaseRhs L jd b p) <|
            sumMulti L jd (zmul (c + 6) (c + 1)) (List.range (L.getD jd 0)) [] fun h1 =>
            sumMulti L jd (zmul (c + 6) (c + 3)) (List.range (L.getD jd 0)) [] fun h2 =>
            momLoop L jd t0 b c mu ms (do let st ← st; fillCur (L.getD jd 0) t0 mu p h1 h2 st) k
      | _ => k .ub

/-- `corr_local_fn`, examples/formfac_w.cc:92 -/
noncomputable def localRhs {n : Nat} (a q : Nat) (mu : Nat) : Rhs (V n) := ⟨[a, q], fun vs =>
  zv (ptrace (pmul (gR (gix mu) (padj (vs.getD 0 0).p)) (vs.getD 1 0).p))⟩

/-- `corr_nonlocal_fn`, examples/formfac_w.cc:102-104: of the link, the shifted antiquark and the quark -/
noncomputable def nonlocalRhs {n : Nat} (u a q : Nat) (mu : Nat) : Rhs (V n) := ⟨[u, a, q], fun vs =>
  zv (ptrace (pmul (padj (cmul (vs.getD 0 0).m (vs.getD 1 0).p)) ((vs.getD 2 0).p + gL (gix mu) (vs.getD 2 0).p)))⟩

/-- `corr_nonlocal_fn -= ...`, examples/formfac_w.cc:107 -/
noncomputable def nonlocalRhs2 {n : Nat} (c a s : Nat) (mu : Nat) : Rhs (V n) := ⟨[c, a, s], fun vs =>
  zv ((vs.getD 0 0).z - ptrace (pmul (padj (vs.getD 1 0).p) ((vs.getD 2 0).p - gL (gix mu) (vs.getD 2 0).p)))⟩

/-- the loop over `mu`, examples/formfac_w.cc:86-183 -/
noncomputable def curLoop {n : Nat} {R : Type} (L : List Nat) (jd : Nat) (t0 : Int) (q b c : Nat) : List Nat → Outcome FState →
    (Outcome FState → Prog (V n) R) → Prog (V n) R
  | [], st, k => k st
  | mu :: mus, st, k =>
      .assign (c + 1) allSites (localRhs c q mu) <|
      .map (c + 2) c (shiftF L mu) <|
      .assign (c + 3) allSites (nonlocalRhs mu (c + 2) q mu) <|
      .map (c + 4) q (shiftF L mu) <|
      .assign (c + 5) allSites ⟨[mu, c + 4], fun vs => pv (cmul (vs.getD 0 0).m (vs.getD 1 0).p)⟩ <|
      .assign (c + 3) allSites (nonlocalRhs2 (c + 3) c (c + 5) mu) <|
      momLoop L jd t0 b c mu (List.range (5 ^ (L.length - 1))) st fun st => curLoop L jd t0 q b c mus st k

/-- `my_coord`, examples/formfac_w.cc:72-74 -/
def coordLoop {n : Nat} {R : Type} (b : Nat) : List Nat → Prog (V n) R → Prog (V n) R
  | [], k => k
  | mu :: mus, k => .coord (b + mu) mu (fun x => zv (x : ℂ)) <| coordLoop b mus k

/-- `FormFac`, examples/formfac_w.cc:43-188: the links are the fields 0, 1, ..., `quark_propagator` and `seq_quark_prop` the fields q and s,
temporaries the fields from `b` on.  The two arrays have any contents in the beginning. -/
noncomputable def formFac {n : Nat} {R : Type} (L : List Nat) (q s b jd : Nat) (t0 : Int) (any1 any2 : List ℂ) (k : Outcome FState → Prog (V n) R) :
    Prog (V n) R :=
  coordLoop b (List.range L.length) <|
  .assign (b + L.length) allSites (anti s) <|
  curLoop L jd t0 q b (b + L.length) (List.range L.length) (ok ⟨any1, any2, []⟩) k

/-! ## Specification -/

/-- a propagator at a site as one matrix -/
abbrev PM (n : Nat) := Matrix (Fin 4 × Fin n) (Fin 4 × Fin n) ℂ

/-- the entries of a field of propagators -/
def flat {n : Nat} (A : Prp n) : PM n := fun x y => A x.1 y.1 x.2 y.2

/-- matrices that act on spin and on colour only -/
def onSpin {n : Nat} (A : Matrix (Fin 4) (Fin 4) ℂ) : PM n := A ⊗ₖ 1
def onColour {n : Nat} (U : Mat n) : PM n := 1 ⊗ₖ U

/-- the product over the bits of `m` -/
noncomputable def Gam (m : Nat) : Matrix (Fin 4) (Fin 4) ℂ :=
  (if m.testBit 0 then gam 0 else 1) * (if m.testBit 1 then gam 1 else 1) * (if m.testBit 2 then gam 2 else 1) * (if m.testBit 3 then gam 3 else 1)

/-- the sum over the sites of a time slice -/
noncomputable def timeSum {M : Type} [AddCommMonoid M] (L : List Nat) (jd t : Nat) (w : List Nat → M) : M :=
  siteSum L fun x => if x.getD jd 0 = t then w x else 0

/-- the time that is `s` after `t0`, on a circle -/
def after (length : Nat) (t0 : Int) (s : Nat) : Nat := ((t0 + s) % length).toNat

/-- the correlation function of two quark fields, of the bilinear number `m` -/
noncomputable def mesonAt {n : Nat} (S1 S2 : PM n) (m : Nat) : ℝ :=
  (((onSpin gam5 * S2 * onSpin gam5).conjTranspose * onSpin (Gam m) * S1 * onSpin (Gam m)).trace).re

/-- the local current -/
noncomputable def localJ {n : Nat} (A Q : List Nat → PM n) (mu : Fin 4) (x : List Nat) : ℂ := ((A x).conjTranspose * onSpin (gam mu) * Q x).trace

/-- twice the conserved current: psibar(x+mu) U^dag (1 + gamma) psi(x) - psibar(x) U (1 - gamma) psi(x+mu) -/
noncomputable def conservedJ {n : Nat} (L : List Nat) (u : GaugeField n) (A Q : List Nat → PM n) (mu : Fin 4) (x : List Nat) : ℂ :=
  ((A (up L mu x)).conjTranspose * onColour (star (u mu x)) * onSpin (1 + gam mu) * Q x).trace -
  ((A x).conjTranspose * onColour (u mu x) * onSpin (1 - gam mu) * Q (up L mu x)).trace

/-- p.x: the momenta are those of the directions other than `jd`, in order -/
noncomputable def dot (L : List Nat) (jd : Nat) (p : List Int) (x : List Nat) : ℝ :=
  ∑ nu ∈ Finset.range L.length, if nu = jd then 0 else
    2 * Real.pi * (p.getD (if nu < jd then nu else nu - 1) 0 : Int) * x.getD nu 0 / L.getD nu 0

noncomputable def phase (L : List Nat) (jd : Nat) (p : List Int) (x : List Nat) : ℂ := Complex.exp (Complex.I * dot L jd p x)

end Verif.Hadron
