import Verif.ArchiveThm
import Verif.ArchiveHdrThm
import Verif.FloatTextThm
import Verif.GaugeProps
/-
Gauge-field archives (NERSC format), the whole file: `mesplq`, `writeArchiv(header, u, file)` and `readArchiv(header, u, file)` of
lib/qdp_iogauge.cc:26-65, 497-530 and 691-706.  The header is that of `Verif.ArchiveHdr`, the binary part that of `Verif.Archive`.

`Nd = 4` (the header code stops for anything else) and `Nc = 3`.  Links are real numbers; the conversion to `float` is arbitrary here and
bounded in the theorems; the third row is completed in exact arithmetic.  What `mesplq` returns for the field of a machine is an argument
`mes`, because the machine computes it with rounding; `mesplq` below is the same function as a program of lattice operations with exact
arithmetic.  `Double` is the type `Fl` of `Verif.FloatText`: finite, infinite or not a number.  Opening and closing the file, and the lines
printed to the terminal, are left out.
-/
namespace Verif.ArchiveFile
open Verif Outcome ByteOrder Verif.Layout Verif.ParLayout Verif.Subset Verif.BinIO Verif.LatticeIO Verif.Archive Verif.ArchiveHdr
open Verif.FloatText (Fl showF extract f64)
open Verif.XmlNum (takeSign)
open Verif.Spmd (Prog)
open Verif.Gauge (V planeLoop planes linkLoop plaq siteSum planeSum GaugeField)

/-! ## Model -/

/-- lib/qdp_iogauge.cc:56 and 62: the products `Layout::vol()*Nd*(Nd-1)*Nc` and `Layout::vol()*Nd*Nc` are products of `int` -/
noncomputable def normalizeIo (vol nd nc : Nat) (w link : ℝ) : Outcome (ℝ × ℝ) := do
  let v1 ← ckInt (vol * nd)
  let v2 ← ckInt (v1 * (nd - 1))
  let v3 ← ckInt (v2 * nc)
  let w := w * (← Reunit.divR 2 v3)
  let v4 ← ckInt (vol * nd)
  let v5 ← ckInt (v4 * nc)
  let l ← Reunit.divR link v5
  return (w, l)

/-- `mesplq`, lib/qdp_iogauge.cc:33-63: the loops over planes (38-53) are, statement by statement, those of examples/mesplq.cc, of which
only the sum `w_plaq` over all planes is used; then the loop over links (59-60) -/
noncomputable def mesplq {n : Nat} {R : Type} (L : List Nat) (b : Nat) (k : Outcome (ℝ × ℝ) → Prog (V n) R) : Prog (V n) R :=
  planeLoop L b (planes L.length) ⟨0, 0, 0⟩ fun a =>
  linkLoop (List.range L.length) 0 fun l => k (normalizeIo (nsites L) L.length n a.w l)

/-- `sscanf("%lf")` behind the white space: `nan` and `inf` are read; a number out of range (which is never printed) is taken for no number -/
def scanF (t : List Byte) : Option (Fl × List Byte) :=
  let s := takeSign t
  if [110, 97, 110] <+: s.2 then some (.nan s.1, s.2.drop 3)
  else if [105, 110, 102] <+: s.2 then some (.inf s.1, s.2.drop 3)
  else
    let r := extract f64 ⟨t, false, false⟩ (.fin false 0)
    if r.1.fail then none else some (r.2, r.1.rest)

/-- `head << x` for a `Double` (six digits, the default of a `std::ostringstream`), lib/qdp_iogauge.cc:621-622, and `sscanf`, 331-340 -/
def six : Dbl Fl := ⟨showF 6, scanF⟩

/-- the value of a finite number -/
def signed (neg : Bool) (x : ℚ) : ℚ := if neg then -x else x

/-- `fabs(a - b) > tol` with `tol = 1.e-5`, lib/qdp_iogauge.cc:30, 515, 522; the difference of finite numbers is taken without rounding;
every comparison with a nan is false -/
def far : Fl → Fl → Bool
  | .fin s x, .fin t y => decide (1 / 10 ^ 5 < |signed s x - signed t y|)
  | .nan _, _ => false
  | _, .nan _ => false
  | .inf s, .inf t => s != t
  | .inf _, .fin _ _ => true
  | .fin _ _, .inf _ => true

/-- the two libraries: one process, many processes -/
inductive Code | single | par

/-- a machine: the library, byte order of the hosts, layout, conversions to and from `float`, and what uninitialised buffers hold -/
structure Host where
  code : Code
  be : Bool
  g : Geom
  N : Num ℝ
  junk : Nat → BitVec 32
  sj : Nat → ℝ

/-- `computeChecksum(u, mat_size)` -/
def Host.checksum (M : Host) (mat : Nat) (F : Nat → Archive.Field ℝ) : Outcome (BitVec 32) := match M.code with
  | .single => computeChecksumS M.be M.N M.g 4 mat M.junk (F 0)
  | .par => computeChecksumP M.be M.N M.g 4 mat M.junk F

/-- `writeArchiv(cfg_out, u, mat_size)` -/
def Host.writeData (M : Host) (mat : Nat) (F : Nat → Archive.Field ℝ) (d : Dev) : Outcome Dev := match M.code with
  | .single => writeArchivS M.be M.N M.g 4 mat M.junk (F 0) d
  | .par => writeArchivP M.be M.N M.g 4 mat M.junk F d

/-- `readArchiv(cfg_in, u, checksum, mat_size, float_size)`; the checksum is the same on all nodes -/
noncomputable def Host.readData (M : Host) (mat fs : Nat) (F : Nat → Archive.Field ℝ) (d : Dev) : Outcome (((Nat → Archive.Field ℝ) × BitVec 32) × Dev) := match M.code with
  | .single => do
    let r ← readArchivS M.be M.N M.g 4 mat fs M.sj (F 0) d
    ok ((fun _ => r.1.1, r.1.2), r.2)
  | .par => do
    let rs ← mapO (fun n => readArchivP M.be M.N M.g 4 mat fs M.sj F d n) (List.range M.g.nodes)
    let r ← rd rs 0
    ok ((fun n => (rs.getD n r).1.1, r.1.2), r.2)

/-- `writeArchiv(header, u, file)`, lib/qdp_iogauge.cc:691-706 -/
noncomputable def writeFile (M : Host) (mes : (Nat → Archive.Field ℝ) → Outcome (Fl × Fl)) (h : Hdr Fl) (F : Nat → Archive.Field ℝ) (d : Dev) : Outcome (Hdr Fl × Dev) := do
  let m ← mes F
  let c ← M.checksum h.mat F
  let h := { h with plaq := m.1, link := m.2, checksum := c }
  let d ← writeHdr M.be six M.g.L h d
  let d ← M.writeData h.mat F d
  ok (h, d)

/-- `readArchiv(header, u, file)`, lib/qdp_iogauge.cc:497-530 -/
noncomputable def readFile (M : Host) (mes : (Nat → Archive.Field ℝ) → Outcome (Fl × Fl)) (h0 : Hdr Fl) (F : Nat → Archive.Field ℝ) (d : Dev) :
    Outcome (Hdr Fl × (Nat → Archive.Field ℝ)) := do
  let q ← readHdr six M.g.L h0 d
  let r ← M.readData q.1.mat q.1.fsize F q.2
  if r.1.2 ≠ q.1.checksum then abort else do
  let m ← mes r.1.1
  if far q.1.plaq m.1 then abort
  else if far q.1.link m.2 then abort
  else ok (q.1, r.1.1)

/-! ## Specification -/

/-- a field of links -/
abbrev Links := Nat → List Nat → Link ℝ

/-- the links as complex matrices -/
def mats (f : Links) : GaugeField 3 := fun mu x => toC (f mu x)

/-- the average over sites and planes of Re tr(plaquette)/3 -/
noncomputable def avgPlaq (L : List Nat) (u : GaugeField 3) : ℝ := (∑ mu ∈ Finset.range 4, ∑ nu ∈ Finset.range mu, planeSum L u mu nu) / (18 * nsites L)
/-- the average over sites and directions of Re tr(link)/3 -/
noncomputable def avgLink (L : List Nat) (u : GaugeField 3) : ℝ := (∑ mu ∈ Finset.range 4, siteSum L fun x => (u mu x).trace.re) / (12 * nsites L)

/-- the double `x` is within `η` of the real number `r` -/
def Near (η : ℝ) (x : Fl) (r : ℝ) : Prop := ∃ neg q, x = .fin neg q ∧ FloatText.Rep f64 q ∧ |(signed neg q : ℝ) - r| ≤ η

/-- `mes` gives plaquette and link trace of the field `f` to within `η`, wherever the machine keeps its sites -/
def Measured (g : Geom) (mes : (Nat → Archive.Field ℝ) → Outcome (Fl × Fl)) (η : ℝ) (f : Links) : Prop :=
  ∀ F, HoldsG g 4 F f → ∃ p l, mes F = ok (p, l) ∧ Near η p (avgPlaq g.L (mats f)) ∧ Near η l (avgLink g.L (mats f))

/-- the machine is one of those the library runs on: a single process has one node; buffers of one site fit into an `int` (they do) -/
def Host.Runs (M : Host) : Prop := M.g.Good ∧ 0 < M.g.nodes ∧ (match M.code with | .single => M.g.nodes = 1 | .par => True)

/-- numbers of absolute value at most one change by at most `ε` when they are stored as `float` -/
def Rounds (N : Num ℝ) (ε : ℝ) : Prop := ∀ x, |x| ≤ 1 → |N.of32 (N.toW x) - x| ≤ ε

/-- every link is in SU(3) -/
def SpecialUnitary (L : List Nat) (f : Links) : Prop := ∀ mu x, mu < 4 → InRange x L → toC (f mu x) ∈ Matrix.specialUnitaryGroup (Fin 3) ℂ

/-- what can be stored of the header: all but plaquette, link trace and checksum, which are computed -/
def HdrOk (h : Hdr Fl) : Prop := (∃ b0 b1 b2 b3 : Int, h.boundary = [b0, b1, b2, b3] ∧ ∀ b ∈ h.boundary, b = 1 ∨ b = -1) ∧ h.seq.natAbs < 10 ^ 10 ∧
  ∀ v ∈ [h.id, h.label, h.creator, h.hardware, h.creation, h.archive], CleanText v ∧ v.length < 108

end Verif.ArchiveFile
