import Verif.PeekPoke
import Verif.ShiftProps
import Verif.LatticeIOThm
import Mathlib.Algebra.BigOperators.Intervals
/-
The library for machines with vector instructions ("scalarvec"): include/qdp_scalarvec_specific.h, lib/qdp_scalarvec_specific.cc,
lib/qdp_scalarvec_layout.cc, lib/qdp_scalarvecsite_specific.cc and the inner grid `ILattice`, include/qdp_inner.h.

A field is an array of outer elements; every outer element holds the values of `INNER_LEN = 1 << INNER_LOG` sites.  `INNER_LOG` is 2 in
single and 1 in double precision (include/qdp_precision.h:31,38); here it is the parameter `k`.

Simplifications: in the source the vector of `INNER_LEN` words sits inside the spin, colour and complex structure; a vector of site values is
the same data with the two indices exchanged (`getSite`, `copy_site`, `gather_sites`, `zero_rep`, `copymask` on the outer structures only
pass the inner index on).  A field that has not been written is an arbitrary array of the right shape.
-/
namespace Verif.Vec
open Verif Outcome ByteOrder Verif.Layout Verif.ParLayout Verif.Subset Verif.Shift Verif.PeekPoke Verif.BinIO Verif.LatticeIO

/-! ## Model -/

section model
variable {V : Type}

/-- `i >> INNER_LOG`, include/qdp_scalarvec_specific.h:432 and wherever a site is looked up -/
def outer (k i : Nat) : Nat := i >>> k
/-- `i & ((1 << INNER_LOG)-1)`, include/qdp_scalarvec_specific.h:433 -/
def inner (k i : Nat) : Nat := i &&& ((1 <<< k) - 1)

/-- `getSite(l.elem(iouter), iinner)`, include/qdp_inner.h:3276-3281 -/
def getAt (k : Nat) (F : List (List V)) (i : Nat) : Outcome V := do
  let v ← rd F (outer k i)
  rd v (inner k i)

/-- `copy_site(l.elem(iouter), iinner, x)`, include/qdp_inner.h:3294-3300 -/
def setAt (k : Nat) (F : List (List V)) (i : Nat) (x : V) : Outcome (List (List V)) := do
  let v ← rd F (outer k i)
  let w ← wrElem v (inner k i) x
  wrElem F (outer k i) w

/-- `peekSite`, include/qdp_scalarvec_specific.h:758-771 -/
def peekSite (k : Nat) (g : Geom) (F : List (List V)) (c : List Nat) : Outcome V := do
  let i ← g.linearSiteIndex c
  getAt k F i

/-- `pokeSite`, include/qdp_scalarvec_specific.h:800-808 -/
def pokeSite (k : Nat) (g : Geom) (F : List (List V)) (x : V) (c : List Nat) : Outcome (List (List V)) := do
  let i ← g.linearSiteIndex c
  setAt k F i x

/-- `QDP_extract`, include/qdp_scalarvec_specific.h:818-832 -/
def extract (k : Nat) (F : List (List V)) (tab : List Nat) (dest : List V) : Outcome (List V) :=
  foldO (fun d i => do let x ← getAt k F i; wrElem d i x) dest tab

/-- `QDP_insert`, include/qdp_scalarvec_specific.h:843-857 -/
def insert (k : Nat) (F : List (List V)) (src : List V) (tab : List Nat) : Outcome (List (List V)) :=
  foldO (fun F i => do let x ← rd src i; setAt k F i x) F tab

/-- `Layout::latticeCoordinate(mu)`, lib/qdp_scalarvecsite_specific.cc:18-37; `F` is the field before it is filled -/
def latticeCoordinate (k : Nat) (g : Geom) (mu : Int) (F : List (List Nat)) : Outcome (List (List Nat)) :=
  if mu < 0 ∨ mu ≥ (g.L.length : Int) then abort
  else foldO (fun F i => do
    let c ← g.siteCoords 0 i
    let x ← rd c mu.toNat
    setAt k F i x) F (List.range g.sites)

/-- `Map::make`, lib/qdp_scalarvec_specific.cc:15-45: the table `goffsets` -/
def mapMake (g : Geom) (func : List Nat → Int → Outcome (List Nat)) : Outcome (List Nat) :=
  mapO (fun linear => do
    let coord ← g.siteCoords 0 linear
    let fcoord ← func coord 1
    g.linearSiteIndex fcoord) (List.range g.sites)

/-- `gather_sites` for an inner length of 4, include/qdp_inner.h:3318-3330 -/
def gather4 (s0 : List V) (i0 : Nat) (s1 : List V) (i1 : Nat) (s2 : List V) (i2 : Nat) (s3 : List V) (i3 : Nat) : Outcome (List V) := do
  let x0 ← rd s0 i0
  let x1 ← rd s1 i1
  let x2 ← rd s2 i2
  let x3 ← rd s3 i3
  return [x0, x1, x2, x3]

/-- `gather_sites` for an inner length of 2, include/qdp_inner.h:3305-3313: both values are taken from the first argument -/
def gather2 (s0 : List V) (i0 : Nat) (_s1 : List V) (i1 : Nat) : Outcome (List V) := do
  let x0 ← rd s0 i0
  let x1 ← rd s0 i1
  return [x0, x1]

/-- the body of the loop of `Map::operator()` (`INNER_LOG = 2`), include/qdp_scalarvec_specific.h:918-948 -/
def mapStep (goff : List Nat) (l : List (List V)) (d : List (List V)) (i : Nat) : Outcome (List (List V)) := do
  let g0 ← rd goff (i + 0)
  let g1 ← rd goff (i + 1)
  let g2 ← rd goff (i + 2)
  let g3 ← rd goff (i + 3)
  let s0 ← rd l (outer 2 g0)
  let s1 ← rd l (outer 2 g1)
  let s2 ← rd l (outer 2 g2)
  let s3 ← rd l (outer 2 g3)
  let w ← gather4 s0 (inner 2 g0) s1 (inner 2 g1) s2 (inner 2 g2) s3 (inner 2 g3)
  wrElem d (outer 2 i) w

/-- `Map::operator()`, include/qdp_scalarvec_specific.h:902-957; `d` is the new field before it is filled -/
def applyMap (sites : Nat) (goff : List Nat) (l d : List (List V)) : Outcome (List (List V)) := do
  let is ← strides 0 sites 4
  foldO (mapStep goff l) d is

/-- an operator of one argument on the inner grid, include/qdp_inner.h:1878-1965, 2400-2780: `d.elem(i) = op(l.elem(i))` -/
def inner1 {A B : Type} (op : A → B) (N : Nat) (l : List A) : Outcome (List B) :=
  mapO (fun i => do let a ← rd l i; return op a) (List.range N)
/-- an operator of two arguments on the inner grid, include/qdp_inner.h:1968-2400: `d.elem(i) = op(l.elem(i), r.elem(i))` -/
def inner2 {A B C : Type} (op : A → B → C) (N : Nat) (l : List A) (r : List B) : Outcome (List C) :=
  mapO (fun i => do let a ← rd l i; let b ← rd r i; return op a b) (List.range N)
/-- `where` on the inner grid, include/qdp_inner.h:3534-3666, and `copymask`, 3334-3342 -/
def inner3 {A B C D : Type} (op : A → B → C → D) (N : Nat) (l : List A) (m : List B) (r : List C) : Outcome (List D) :=
  mapO (fun i => do let a ← rd l i; let b ← rd m i; let c ← rd r i; return op a b c) (List.range N)

/-- what is under a statement or a sum: the outer element `i` of an expression of fields, `forEach(s1, EvalLeaf1(i), OpCombine())` -/
inductive Expr (V : Type)
  | leaf (F : List (List V))
  | op1 (op : V → V) (a : Expr V)
  | op2 (op : V → V → V) (a b : Expr V)

def evalAt (k : Nat) : Expr V → Nat → Outcome (List V)
  | .leaf F, i => rd F i
  | .op1 op a, i => do let x ← evalAt k a i; inner1 op (2 ^ k) x
  | .op2 op a b, i => do let x ← evalAt k a i; let y ← evalAt k b i; inner2 op (2 ^ k) x y

/-- `zero_rep(OLattice)` over the outer sites, include/qdp_scalarvec_specific.h:320-327, and of an inner vector, include/qdp_inner.h:3284-3291 -/
def zeroRep [Zero V] (k n : Nat) (F : List (List V)) : Outcome (List (List V)) :=
  foldO (fun F i => wrElem F i (List.replicate (2 ^ k) 0)) F (List.range n)

/-- `copymask(OLattice, mask, OLattice)`, include/qdp_scalarvec_specific.h:162-170 -/
def copymask (k n : Nat) (F : List (List V)) (mask : List (List Bool)) (S : List (List V)) : Outcome (List (List V)) :=
  foldO (fun F i => do
    let d ← rd F i
    let m ← rd mask i
    let s ← rd S i
    let w ← inner3 (fun d m s => if m then s else d) (2 ^ k) d m s
    wrElem F i w) F (List.range n)

/-- `evaluate(OLattice, op, rhs, Subset)`, include/qdp_scalarvec_specific.h:60-133: `QDP_NOT_IMPLEMENTED` is defined (line 58), so all that is
compiled is `QDP_error_exit`.  Every assignment `dest = …`, `dest += …`, … is this function (include/qdp_qdptype.h:55-127), with the subset `all`
if none is given. -/
def evaluate (_F : List (List V)) (_op : V → V → V) (_rhs : Expr V) (_s : Sub) : Outcome (List (List V)) := abort

/-- `random(OLattice, Subset)` 201-225, `gaussian(OLattice, Subset)` 247-266, `zero_rep(OLattice, Subset)` 291-305, `copymask(OSubLattice, …)` 139-158
and `norm2(multi1d<OLattice>, Subset)` 661-697 of include/qdp_scalarvec_specific.h: `QDP_error_exit` -/
def notImplemented {α : Type} (_s : Sub) : Outcome α := abort

/-- `sum(ILattice)`, include/qdp_inner.h:3360-3370 -/
def isum [Add V] : List V → Outcome V
  | [] => ub
  | x :: xs => ok (xs.foldl (· + ·) x)

/-- `sum(expr, Subset)`, include/qdp_scalarvec_specific.h:400-447; also the sum over all sites, which is the sum over the subset `all` -/
def sumOver [Add V] [Zero V] (k : Nat) (e : Expr V) (s : Sub) : Outcome V :=
  if s.ordRep then
    let istart := s.start / 2 ^ k
    let iend := s.stop / 2 ^ k
    foldO (fun d (j : Nat) => do
      let v ← evalAt k e (istart + j).toNat
      let t ← isum v
      return d + t) 0 (List.range (iend + 1 - istart).toNat)
  else
    foldO (fun d (i : Int) => do
      let v ← evalAt k e (outer k i.toNat)
      let t ← rd v (inner k i.toNat)
      return d + t) 0 s.table

/-- `sumMulti(expr, Set)`, include/qdp_scalarvec_specific.h:512-533 -/
def sumMulti [Add V] [Zero V] (k : Nat) (e : Expr V) (ss : SetObj) : Outcome (List V) := mapO (sumOver k e) ss.subs

/-- `sumMulti(multi1d<OLattice>, Set)`, include/qdp_scalarvec_specific.h:579-600: the rows of `dest` -/
def sumMultiArr [Add V] [Zero V] (k : Nat) (es : List (List (List V))) (ss : SetObj) : Outcome (List (List V)) :=
  mapO (fun F => mapO (sumOver k (.leaf F)) ss.subs) es

/-- `write(BinaryWriter, OLattice)`, include/qdp_scalarvec_specific.h:1328-1346; the value of a site is its bytes in the memory of the host -/
def write (be : Bool) (k : Nat) (g : Geom) (size nmemb : Nat) (F : List (List (List Byte))) (d : Dev) : Outcome Dev :=
  foldO (fun d site => do
    let i ← indexOf g site
    let b ← getAt k F i
    let r ← writeArray be b size nmemb d
    return r.2) d (List.range (nsites g.L))

/-- `write(BinaryWriter, OLattice, coord)`, include/qdp_scalarvec_specific.h:1350-1363 -/
def writeSite (be : Bool) (k : Nat) (g : Geom) (size nmemb : Nat) (F : List (List (List Byte))) (c : List Nat) (d : Dev) : Outcome Dev := do
  let i ← g.linearSiteIndex c
  let b ← getAt k F i
  let r ← writeArray be b size nmemb d
  return r.2

/-- `read(BinaryReader, OLattice)`, include/qdp_scalarvec_specific.h:1377-1395 -/
def read (be : Bool) (k : Nat) (g : Geom) (size nmemb : Nat) (F : List (List (List Byte))) (d : Dev) : Outcome (List (List (List Byte)) × Dev) :=
  foldO (fun st site => do
    let i ← indexOf g site
    let r ← readArray be size nmemb st.2
    let F' ← setAt k st.1 i r.1
    return (F', r.2)) (F, d) (List.range (nsites g.L))

/-- `read(BinaryReader, OLattice, coord)`, include/qdp_scalarvec_specific.h:1399-1413 -/
def readSite (be : Bool) (k : Nat) (g : Geom) (size nmemb : Nat) (F : List (List (List Byte))) (c : List Nat) (d : Dev) :
    Outcome (List (List (List Byte)) × Dev) := do
  let i ← g.linearSiteIndex c
  let r ← readArray be size nmemb d
  let F' ← setAt k F i r.1
  return (F', r.2)

/-- the volume, lib/qdp_scalarvec_layout.cc:151-153: the product in `int`; negative extents are not modelled -/
def volume : List Nat → Nat → Outcome Nat
  | [], v => ok v
  | l :: ls, v => do let w ← ckInt (v * l); volume ls w

/-- the sanity check, lib/qdp_scalarvec_layout.cc:174-179 -/
def sanity (g : Geom) (vol : Nat) : Outcome Unit :=
  foldO (fun _ i => do
    let c ← g.siteCoords 0 i
    let ii ← g.linearSiteIndex c
    if i ≠ ii then abort else ok ()) () (List.range vol)

/-- `initRNG`, lib/qdp_random.cc:60-: what comes before line 84 is arithmetic of scalars; line 84 is the assignment `lexoc = latticeCoordinate(Nd-1)`.
`F` is the fresh field of `latticeCoordinate`, `lexoc` the declared field, `all` the subset; nothing after the assignment is reached. -/
def initRNG (k : Nat) (g : Geom) (F lexoc : List (List Nat)) (all : Sub) : Outcome (List (List Nat)) := do
  let x ← latticeCoordinate k g (g.L.length - 1) F
  evaluate lexoc (fun _ r => r) (.leaf x) all

/-- `Layout::create`, lib/qdp_scalarvec_layout.cc:143-187, with `initDefaults`, 131-144: the default sets (`funcs`: their colour functions and the numbers
of colours, lib/qdp_subset.cc:103-125; the last is that of `all`), the map `shift` (lib/qdp_map.cc:42-48) and the random number generator -/
def create (k : Nat) (g : Geom) (funcs : List ((List Nat → Int) × Nat)) (F lexoc : List (List Nat)) : Outcome Unit := do
  let vol ← volume g.L 1
  if vol % (1 <<< k) ≠ 0 then abort
  else do
    let _ ← sanity g vol
    let _ ← mapO (fun fn => setMake g 0 fn.1 fn.2) funcs
    let all ← setMake g 0 allFunc 1
    let a ← rd all.subs 0
    let _ ← arrayBiMake g (nnFunc g.L) g.L.length
    let _ ← initRNG k g F lexoc a
    return ()

end model

/-! ## Specification -/

section spec
variable {V : Type}

/-- `n` outer elements of `2^k` values each -/
def Shape (k n : Nat) (F : List (List V)) : Prop := F.length = n ∧ ∀ v ∈ F, v.length = 2 ^ k

/-- the value at the linear site `i` is `x`: the sites lie one after the other, `2^k` in every outer element -/
def Site (k : Nat) (F : List (List V)) (i : Nat) (x : V) : Prop := ∃ v, F[i / 2 ^ k]? = some v ∧ v[i % 2 ^ k]? = some x

/-- the array of outer elements holds the field `f`, a function of the coordinates -/
def Holds (k : Nat) (g : Geom) (F : List (List V)) (f : List Nat → V) : Prop :=
  Shape k (g.sites / 2 ^ k) F ∧ ∀ i c, i < g.sites → g.siteCoords 0 i = ok c → Site k F i (f c)

/-- one node, a layout that is a bijection, a volume that is a multiple of the inner length -/
structure Lattice (k : Nat) (g : Geom) : Prop where
  good : g.Good
  one : g.nodes = 1
  mult : 2 ^ k ∣ g.sites

/-- the value at a linear site, as a number -/
def val [Zero V] (k : Nat) (F : List (List V)) (i : Nat) : V := (F.getD (i / 2 ^ k) []).getD (i % 2 ^ k) 0

end spec
end Verif.Vec
