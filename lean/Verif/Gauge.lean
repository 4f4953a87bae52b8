import Verif.SpmdProps
import Verif.ReunitN
/-
Gauge field programs of the examples: the average plaquette (examples/mesplq.cc), the Polyakov loop (examples/polylp.cc),
the random gauge transformation (examples/rgauge.cc) with the projection (examples/taproj.cc) and the exponential
(examples/expm12.cc) it calls.

They are written as programs of lattice operations (Verif.Spmd), statement by statement, so that the theorems about them hold
on every machine and for every interleaving of its nodes.  A shifted subexpression is a statement of its own, assigned to a
temporary, as `Map::operator()` does on a parallel machine.  `reunit` is one statement (Verif.Reunit is about what it does at a
site).  Arithmetic is that of real and complex numbers, without rounding; that of `int`, in the normalizations, overflows.
-/
namespace Verif.Gauge
open Verif Outcome Verif.Layout Verif.ParLayout Verif.ParMap Verif.Spmd Verif.Shift Verif.Subset

/-! ## Model -/

/-- LatticeColorMatrix at a site -/
abbrev Mat (n : Nat) := Matrix (Fin n) (Fin n) ℂ

/-- the types in use: colour matrix, complex number, fermion -/
abbrev V (n : Nat) := Mat n × ℂ × (Fin 4 → Fin n → ℂ)

def V.m {n : Nat} (v : V n) : Mat n := v.1
def V.z {n : Nat} (v : V n) : ℂ := v.2.1
def mv {n : Nat} (A : Mat n) : V n := (A, 0, 0)
def zv {n : Nat} (z : ℂ) : V n := (0, z, 0)

/-- expressions of one and of two matrix fields -/
def m1 {n : Nat} (a : Nat) (f : Mat n → Mat n) : Rhs (V n) := ⟨[a], fun vs => mv (f (vs.getD 0 0).m)⟩
def m2 {n : Nat} (a b : Nat) (f : Mat n → Mat n → Mat n) : Rhs (V n) := ⟨[a, b], fun vs => mv (f (vs.getD 0 0).m (vs.getD 1 0).m)⟩

/-- `shift(.,FORWARD,mu)` -/
def shiftF (L : List Nat) (mu : Nat) : List Nat → Int → Outcome (List Nat) := shiftFunc L Sgn.fwd.toInt mu

/-- examples/mesplq.cc:36-43: one plane.  `u[mu]` is field number mu, the temporaries are the fields from `b` on -/
noncomputable def plane {n : Nat} {R : Type} (L : List Nat) (b mu nu : Nat) (k : ℝ → Prog (V n) R) : Prog (V n) R :=
  .map b nu (shiftF L mu) <|
  .map (b + 1) mu (shiftF L nu) <|
  .assign (b + 2) allSites (m2 b (b + 1) fun x y => x * star y) <|
  .assign (b + 3) allSites (m2 (b + 2) nu fun x y => x * star y) <|
  .sum allSites ⟨[mu, b + 3], fun vs => zv (((vs.getD 0 0).m * (vs.getD 1 0).m).trace.re : ℂ)⟩ fun v => k v.z.re

/-- `w_plaq`, `s_plaq`, `t_plaq` before normalization -/
structure Acc where
  w : ℝ
  s : ℝ
  t : ℝ

/-- examples/mesplq.cc:53-58 -/
noncomputable def Acc.add (nd mu nu : Nat) (a : Acc) (tmp : ℝ) : Acc :=
  if mu = nd - 1 ∨ nu = nd - 1 then ⟨a.w + tmp, a.s, a.t + tmp⟩ else ⟨a.w + tmp, a.s + tmp, a.t⟩

/-- the planes in the order of examples/mesplq.cc:31-33 -/
def planes (nd : Nat) : List (Nat × Nat) := (List.range' 1 (nd - 1)).flatMap fun mu => (List.range mu).map fun nu => (mu, nu)

/-- examples/mesplq.cc:31-60 -/
noncomputable def planeLoop {n : Nat} {R : Type} (L : List Nat) (b : Nat) : List (Nat × Nat) → Acc → (Acc → Prog (V n) R) → Prog (V n) R
  | [], a, k => k a
  | (mu, nu) :: ps, a, k => plane L b mu nu fun tmp => planeLoop L b ps (a.add L.length mu nu tmp) k

/-- examples/mesplq.cc:72-73 -/
noncomputable def linkLoop {n : Nat} {R : Type} : List Nat → ℝ → (ℝ → Prog (V n) R) → Prog (V n) R
  | [], x, k => k x
  | mu :: ms, x, k => .sum allSites ⟨[mu], fun vs => zv ((vs.getD 0 0).m.trace.re : ℂ)⟩ fun v => linkLoop ms (x + v.z.re) k

/-- what `MesPlq` returns -/
structure Obs where
  w : ℝ
  s : ℝ
  t : ℝ
  link : ℝ

/-- examples/mesplq.cc:62-69, 75: `Layout::vol()*Nd*(Nd-1)*Nc` and the others are products of `int`; a division by zero is
undefined here -/
noncomputable def normalize (vol nd nc : Nat) (a : Acc) (link : ℝ) : Outcome Obs := do
  let v1 ← ckInt (vol * nd)
  let v2 ← ckInt (v1 * (nd - 1))
  let v3 ← ckInt (v2 * nc)
  let w := a.w * (← Reunit.divR 2 v3)
  let s ← if nd > 2 then do
      let v1 ← ckInt (vol * (nd - 1))
      let v2 ← ckInt (v1 * (nd - 2))
      let v3 ← ckInt (v2 * nc)
      pure (a.s * (← Reunit.divR 2 v3))
    else pure a.s
  let v1 ← ckInt (vol * (nd - 1))
  let v2 ← ckInt (v1 * nc)
  let t ← Reunit.divR a.t v2
  let v ← ckInt (12 * vol)
  let l ← Reunit.divR link v
  return ⟨w, s, t, l⟩

/-- `MesPlq`, examples/mesplq.cc:23-78 -/
noncomputable def mesPlq {n : Nat} {R : Type} (L : List Nat) (b : Nat) (k : Outcome Obs → Prog (V n) R) : Prog (V n) R :=
  planeLoop L b (planes L.length) ⟨0, 0, 0⟩ fun a =>
  linkLoop (List.range L.length) 0 fun l => k (normalize (nsites L) L.length n a l)

/-- examples/polylp.cc:29-33: `m` passes -/
noncomputable def polyLoop {n : Nat} {R : Type} (L : List Nat) (b mu : Nat) : Nat → Prog (V n) R → Prog (V n) R
  | 0, k => k
  | m + 1, k => .map (b + 1) b (shiftF L mu) <| .assign b allSites (m2 mu (b + 1) fun x y => x * y) <| polyLoop L b mu m k

/-- `polylp`, examples/polylp.cc:21-39; `Nc*Layout::vol()` is a product of `int`.  Directions that do not exist are outside the
model. -/
noncomputable def polylp {n : Nat} {R : Type} (L : List Nat) (b mu : Nat) (k : Outcome ℂ → Prog (V n) R) : Prog (V n) R :=
  .assign b allSites (m1 mu id) <|
  polyLoop L b mu (L.getD mu 0 - 1) <|
  .sum allSites ⟨[b], fun vs => zv (vs.getD 0 0).m.trace⟩ fun v => k (do
    let d ← ckInt (n * nsites L)
    if d = 0 then ub else ok (v.z / d))

/-- `taproj` of field `a`, examples/taproj.cc:26-49; `PMatrix = PScalar` fills the diagonal (include/qdp_primmatrix.h:40-51).
`tmp` is kept as the number with no imaginary part. -/
noncomputable def taproj {n : Nat} {R : Type} (a b : Nat) (k : Prog (V n) R) : Prog (V n) R :=
  .assign b allSites (m1 a id) <|
  .assign a allSites (m2 a b fun x y => x - star y) <|
  (if n > 1 then fun k =>
    .assign (b + 1) allSites ⟨[a], fun vs => zv ((vs.getD 0 0).m.trace.im : ℂ)⟩ <|
    .assign (b + 1) allSites ⟨[b + 1], fun vs => zv ((vs.getD 0 0).z * (1 / n : ℝ))⟩ <|
    .assign (b + 2) allSites ⟨[b + 1], fun vs => mv (Matrix.diagonal fun _ => ⟨0, (vs.getD 0 0).z.re⟩)⟩ <|
    .assign a allSites (m2 a (b + 2) fun x y => x - y) k
  else fun k => k) <|
  .assign a allSites (m1 a fun x => ((1 / 2 : ℝ) : ℂ) • x) k

/-- examples/expm12.cc:34-41, passes i, i+1, ..., `m` of them -/
noncomputable def expLoop {n : Nat} {R : Type} (a b : Nat) : Nat → Nat → Prog (V n) R → Prog (V n) R
  | _, 0, k => k
  | i, m + 1, k =>
    .assign (b + 2) allSites (m2 (b + 1) b fun x y => x * y) <|
    .assign (b + 1) allSites (m1 (b + 2) fun x => ((1 / i : ℝ) : ℂ) • x) <|
    .assign a allSites (m2 a (b + 1) fun x y => x + y) <| expLoop a b (i + 1) m k

/-- `expm12` of field `a`, examples/expm12.cc:23-44; `PMatrix += PScalar` adds to the diagonal
(include/qdp_primmatrix.h:87-95) -/
noncomputable def expm12 {n : Nat} {R : Type} (a b : Nat) (k : Prog (V n) R) : Prog (V n) R :=
  .assign b allSites (m1 a id) <|
  .assign (b + 1) allSites (m1 a id) <|
  .assign a allSites (m1 a fun x => x + Matrix.diagonal fun _ => 1) <|
  expLoop a b 2 11 k

/-- the array `a[i][j]` taken from a matrix, examples/reunit.cc:58-61 -/
def arr {n : Nat} (A : Mat n) : Reunit.Arr := fun i j => if h : i < n ∧ j < n then A ⟨i, h.1⟩ ⟨j, h.2⟩ else 0

/-- `reunit` at a site as a function: where it fails (a NaN or a stop) the matrix is left as it is; the theorems show that it does
not fail -/
noncomputable def reunitSite {n : Nat} (A : Mat n) : Mat n :=
  match Reunit.site n (arr A) with
  | ok (q, _) => Reunit.mat n q
  | _ => A

/-- examples/rgauge.cc:39-43, the directions of a list.  `G` is the field of the transformation. -/
noncomputable def gaugeLoop {n : Nat} {R : Type} (L : List Nat) (G b : Nat) : List Nat → Prog (V n) R → Prog (V n) R
  | [], k => k
  | mu :: ms, k =>
    .assign b allSites (m2 G mu fun x y => x * y) <|
    .assign (b + 1) allSites (m1 G star) <|
    .map (b + 2) (b + 1) (shiftF L mu) <|
    .assign mu allSites (m2 b (b + 2) fun x y => x * y) <| gaugeLoop L G b ms k

/-- `rgauge` after its call of `gaussian`, examples/rgauge.cc:33-44: G holds whatever random matrices -/
noncomputable def rgauge {n : Nat} {R : Type} (L : List Nat) (G b : Nat) (k : Prog (V n) R) : Prog (V n) R :=
  taproj G b <| expm12 G b <|
  .assign G allSites (m1 G reunitSite) <|
  gaugeLoop L G b (List.range L.length) k

/-! ## Specification -/

/-- a gauge field: a matrix for every direction and site -/
abbrev GaugeField (n : Nat) := Nat → List Nat → Mat n

/-- the site one step ahead -/
abbrev up (L : List Nat) (mu : Nat) (x : List Nat) : List Nat := nbr L x .fwd mu

/-- the product of the links around the square at x in the plane of mu and nu -/
noncomputable def plaq {n : Nat} (L : List Nat) (u : GaugeField n) (mu nu : Nat) (x : List Nat) : Mat n :=
  u mu x * u nu (up L mu x) * star (u mu (up L nu x)) * star (u nu x)

/-- sum over all sites -/
noncomputable def siteSum {M : Type} [AddCommMonoid M] (L : List Nat) (w : List Nat → M) : M := ∑ r ∈ Finset.range (nsites L), w (digits r L)

/-- the normalized real trace of the plaquettes of a plane, summed over sites -/
noncomputable def planeSum {n : Nat} (L : List Nat) (u : GaugeField n) (mu nu : Nat) : ℝ := siteSum L fun x => (plaq L u mu nu x).trace.re

/-- what `MesPlq` is to return: the averages over all planes, the planes without and the planes with the last direction, of the
real trace of the plaquette divided by Nc; and the real trace of the links over twelve times the volume -/
structure IsPlaq {n : Nat} (L : List Nat) (u : GaugeField n) (o : Obs) : Prop where
  w : o.w = 2 / (nsites L * L.length * (L.length - 1) * n) * ∑ mu ∈ Finset.range L.length, ∑ nu ∈ Finset.range mu, planeSum L u mu nu
  s : o.s = (if L.length > 2 then 2 / ((nsites L : ℝ) * (L.length - 1) * (L.length - 2) * n) else (1 : ℝ)) *
    ∑ mu ∈ Finset.range (L.length - 1), ∑ nu ∈ Finset.range mu, planeSum L u mu nu
  t : o.t = 1 / (nsites L * (L.length - 1) * n) * ∑ nu ∈ Finset.range (L.length - 1), planeSum L u (L.length - 1) nu
  link : o.link = 1 / (12 * nsites L) * ∑ mu ∈ Finset.range L.length, siteSum L fun x => (u mu x).trace.re

/-- the gauge transform of u by G -/
noncomputable def transform {n : Nat} (L : List Nat) (G : List Nat → Mat n) (u : GaugeField n) : GaugeField n :=
  fun mu x => G x * u mu x * star (G (up L mu x))

/-- the product of m links in direction mu starting at x -/
noncomputable def line {n : Nat} (L : List Nat) (u : GaugeField n) (mu : Nat) : Nat → List Nat → Mat n
  | 0, _ => 1
  | m + 1, x => u mu x * line L u mu m (up L mu x)

/-- the gauge field held by the fields 0, 1, ... -/
def links {n : Nat} (f : Nat → List Nat → V n) : GaugeField n := fun mu x => (f mu x).m

end Verif.Gauge
