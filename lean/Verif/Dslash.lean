import Verif.GaugeThm
import Verif.Spin
/-
The Wilson operator of the examples (examples/dslashm_w.cc): `dslash` in one statement, `dslash2` in many, both as programs of
lattice operations (Verif.Spmd), with the projections of Verif.Spin.

As in Verif.Gauge, a shifted subexpression is assigned to a temporary first.  Arithmetic is without rounding, the order of a sum is not
kept.
-/
namespace Verif.Dslash
open Verif Outcome Verif.Layout Verif.ParLayout Verif.ParMap Verif.Spmd Verif.Shift Verif.Subset Verif.Gauge

/-! ## Model -/

/-- `timesI(RComplex)`, `timesMinusI(RComplex)`, include/qdp_reality.h:2245-2254, 2275-2284 -/
noncomputable instance : Spin.Cpt ℂ where
  timesI z := ⟨-z.im, z.re⟩
  timesMinusI z := ⟨z.im, -z.re⟩

/-- LatticeFermion and LatticeHalfFermion at a site -/
abbrev Ferm (n : Nat) := Fin 4 → Fin n → ℂ
abbrev Half (n : Nat) := Fin 2 → Fin n → ℂ

/-- the types in use -/
abbrev V (n : Nat) := Mat n × Ferm n × Half n

def V.m {n : Nat} (v : V n) : Mat n := v.1
def V.f {n : Nat} (v : V n) : Ferm n := v.2.1
def V.h {n : Nat} (v : V n) : Half n := v.2.2
def fv {n : Nat} (x : Ferm n) : V n := (0, x, 0)
def hv {n : Nat} (x : Half n) : V n := (0, 0, x)

/-- a colour matrix times a half fermion: colour by colour, for every spin -/
def mulH {n : Nat} (U : Mat n) (h : Half n) : Half n := fun a => U.mulVec (h a)

/-- a term of the operator: `spinReconstruct<rcn>(u[link] * shift(spinProject<prj>(psi), FORWARD, mu))` or
`spinReconstruct<rcn>(shift(adj(u[link]) * spinProject<prj>(psi), BACKWARD, mu))`.  The functions are numbered as in
Verif.SpinTables: twice the direction, plus one for `Minus`. -/
structure Term where
  fwd : Bool
  rcn : Fin 8
  link : Nat
  prj : Fin 8
  mu : Nat

/-- `dslash`, examples/dslashm_w.cc:66-86 -/
def dslashPlus : List Term := [
  ⟨true, 1, 0, 1, 0⟩, ⟨false, 0, 0, 0, 0⟩,
  ⟨true, 3, 1, 3, 1⟩, ⟨false, 2, 1, 2, 1⟩,
  ⟨true, 5, 2, 5, 2⟩, ⟨false, 4, 2, 4, 2⟩,
  ⟨true, 7, 3, 7, 3⟩, ⟨false, 6, 3, 6, 3⟩]

/-- `dslash`, examples/dslashm_w.cc:87-107 -/
def dslashMinus : List Term := [
  ⟨true, 0, 0, 0, 0⟩, ⟨false, 1, 0, 1, 0⟩,
  ⟨true, 2, 1, 2, 1⟩, ⟨false, 3, 1, 3, 1⟩,
  ⟨true, 4, 2, 4, 2⟩, ⟨false, 5, 2, 5, 2⟩,
  ⟨true, 6, 3, 6, 3⟩, ⟨false, 7, 3, 7, 3⟩]

/-- `dslash2`, `case 1`, examples/dslashm_w.cc:155-199 -/
def dslash2Plus : List Term := [
  ⟨true, 1, 0, 1, 0⟩, ⟨true, 3, 1, 3, 1⟩, ⟨true, 5, 2, 5, 2⟩, ⟨true, 7, 3, 7, 3⟩,
  ⟨false, 0, 0, 0, 0⟩, ⟨false, 2, 1, 2, 1⟩, ⟨false, 4, 2, 4, 2⟩, ⟨false, 6, 3, 6, 3⟩]

/-- `dslash2`, `case (-1)`, examples/dslashm_w.cc:201-243 -/
def dslash2Minus : List Term := [
  ⟨true, 0, 0, 0, 0⟩, ⟨true, 2, 1, 2, 1⟩, ⟨true, 4, 2, 4, 2⟩, ⟨true, 6, 3, 6, 3⟩,
  ⟨false, 1, 0, 1, 0⟩, ⟨false, 3, 1, 3, 1⟩, ⟨false, 5, 2, 5, 2⟩, ⟨false, 7, 3, 7, 3⟩]

/-- `shift(., FORWARD or BACKWARD, mu)` -/
def Term.shift (L : List Nat) (t : Term) : List Nat → Int → Outcome (List Nat) := shiftFunc L (if t.fwd then Sgn.fwd else Sgn.bwd).toInt t.mu

/-- what is shifted, an expression of `psi` and of the link -/
noncomputable def Term.arg {n : Nat} (t : Term) (psi : Nat) : Rhs (V n) := ⟨[psi, t.link], fun vs =>
  hv (if t.fwd then Spin.proj t.prj (vs.getD 0 0).f else mulH (star (vs.getD 1 0).m) (Spin.proj t.prj (vs.getD 0 0).f))⟩

/-- what is added to the result, of the link and of the shifted half fermion -/
noncomputable def Term.val {n : Nat} (t : Term) (u : Mat n) (h : Half n) : Ferm n := Spin.recon t.rcn (if t.fwd then mulH u h else h)

/-- the shifted subexpressions of `dslash`: the one of term number i is in field `b + 2 i + 1` -/
noncomputable def prepare {n : Nat} {R : Type} (L : List Nat) (psi : Nat) : List Term → Nat → Prog (V n) R → Prog (V n) R
  | [], _, k => k
  | t :: ts, b, k => .assign b allSites (t.arg psi) <| .map (b + 1) b (t.shift L) <| prepare L psi ts (b + 2) k

/-- the expression on the right hand side: its fields, link and temporary of every term, and its value -/
def sources : List Term → Nat → List Nat
  | [], _ => []
  | t :: ts, b => t.link :: (b + 1) :: sources ts (b + 2)

noncomputable def total {n : Nat} : List Term → List (V n) → Ferm n
  | t :: ts, u :: h :: vs => t.val u.m h.h + total ts vs
  | _, _ => 0

/-- `rb[cb]` -/
def rb (cb : Nat) : SubsetOf := ⟨rbFunc, 2, cb⟩

/-- `dslash`, examples/dslashm_w.cc:45-122 (the branch that is compiled); `Nd` up to four, terms of other directions are left out by
the preprocessor.  `psi` and `chi` are fields, temporaries are the fields from `b` on. -/
noncomputable def dslash {n : Nat} {R : Type} (L : List Nat) (chi psi b : Nat) (isign : Int) (cb : Nat) (k : Prog (V n) R) : Prog (V n) R :=
  let ts := (if isign > 0 then dslashPlus else dslashMinus).filter fun t => t.mu < L.length
  prepare L psi ts b <| .assign chi (rb cb) ⟨sources ts b, fun vs => fv (total ts vs)⟩ k

/-- one term of `dslash2`, three statements: `tmp[rb[otherCB]] = ...; tmp2[rb[cb]] = shift(tmp, ...); chi[rb[cb]] += ...` (`=` in the
first).  `tmp` is field b, `tmp2` field b + 1, the shifted field b + 2. -/
noncomputable def step2 {n : Nat} {R : Type} (L : List Nat) (chi psi b : Nat) (cb other : Nat) (first : Bool) (on : SubsetOf) (t : Term)
    (k : Prog (V n) R) : Prog (V n) R :=
  .assign b (rb other) (t.arg psi) <|
  .map (b + 2) b (t.shift L) <|
  .assign (b + 1) on ⟨[b + 2], fun vs => hv (vs.getD 0 0).h⟩ <|
  .assign chi (rb cb) ⟨[chi, t.link, b + 1], fun vs =>
    fv (if first then t.val (vs.getD 1 0).m (vs.getD 2 0).h else (vs.getD 0 0).f + t.val (vs.getD 1 0).m (vs.getD 2 0).h)⟩ k

/-- the terms one after the other; in the last one of `case (-1)` the subset of the assignment to `tmp2` is missing, line 238 -/
noncomputable def steps2 {n : Nat} {R : Type} (L : List Nat) (chi psi b : Nat) (cb other : Nat) (bare : Bool) : Bool → List Term → Prog (V n) R → Prog (V n) R
  | _, [], k => k
  | first, t :: ts, k => step2 L chi psi b cb other first (if bare && ts.isEmpty then allSites else rb cb) t <| steps2 L chi psi b cb other bare false ts k

/-- `dslash2`, examples/dslashm_w.cc:125-246 -/
noncomputable def dslash2 {n : Nat} {R : Type} (L : List Nat) (chi psi b : Nat) (isign : Int) (cb : Nat) (k : Prog (V n) R) : Prog (V n) R :=
  let other := if cb = 0 then 1 else 0
  if isign = 1 then steps2 L chi psi b cb other false true dslash2Plus k
  else if isign = -1 then steps2 L chi psi b cb other true true dslash2Minus k
  else k

/-! ## Specification -/

/-- the gamma matrices -/
def gam : Fin 4 → Matrix (Fin 4) (Fin 4) ℂ := ![
  !![0, 0, 0, Complex.I; 0, 0, Complex.I, 0; 0, -Complex.I, 0, 0; -Complex.I, 0, 0, 0],
  !![0, 0, 0, -1; 0, 0, 1, 0; 0, 1, 0, 0; -1, 0, 0, 0],
  !![0, 0, Complex.I, 0; 0, 0, 0, -Complex.I; -Complex.I, 0, 0, 0; 0, Complex.I, 0, 0],
  !![0, 0, 1, 0; 0, 0, 0, 1; 1, 0, 0, 0; 0, 1, 0, 0]]

/-- a field of spinors: spin by colour -/
abbrev Spinor (n : Nat) := List Nat → Matrix (Fin 4) (Fin n) ℂ

/-- the site one step back -/
abbrev down (L : List Nat) (mu : Nat) (x : List Nat) : List Nat := nbr L x .bwd mu

/-- the Wilson operator: `sum_mu U_mu(x) (1 - s gamma_mu) psi(x+mu) + U_mu(x-mu)^dag (1 + s gamma_mu) psi(x-mu)`.  Colour matrices act from
the right by their transposes. -/
noncomputable def wilson {n : Nat} (L : List Nat) (u : GaugeField n) (s : ℂ) (psi : Spinor n) : Spinor n := fun x =>
  ∑ mu : Fin 4, if mu < L.length then
    (1 - s • gam mu) * psi (up L mu x) * (u mu x).transpose + (1 + s • gam mu) * psi (down L mu x) * (star (u mu (down L mu x))).transpose
  else 0

/-- the gauge field held by the fields 0, 1, ... -/
def lk {n : Nat} (f : Nat → List Nat → V n) : GaugeField n := fun mu x => (f mu x).m

/-- the spinors held by a field -/
def sp {n : Nat} (f : List Nat → V n) : Spinor n := fun x => (f x).f

/-- sites of one colour -/
def onCB (cb : Nat) (x : List Nat) : Prop := x.sum % 2 = cb

end Verif.Dslash
