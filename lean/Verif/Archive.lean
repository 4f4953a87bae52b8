import Verif.LatticeIO
import Verif.Sums
import Mathlib.Data.BitVec
/-
Gauge-field archives (NERSC format), the binary part: `computeChecksum`, `readArchiv`, `writeArchiv` in lib/qdp_scalar_specific.cc:65-303
(single node) and lib/qdp_parscalar_specific.cc:913-1236 (many nodes).  `Nc = 3`; the number of directions `Nd` is arbitrary.

A number of the library (`REAL`) is an element of an arbitrary type `K` with `+`, `-`, `*` (no laws in the model); `toFloat` gives the 32
bits of a `float`, and the casts of a `float` or a `double` to `REAL` are arbitrary functions.  The machine is run as one program, as in
`Verif.LatticeIO`.
-/
namespace Verif.Archive
open Verif Outcome ByteOrder Verif.Layout Verif.ParLayout Verif.Subset Verif.BinIO Verif.LatticeIO

variable {K : Type}

/-! ## Model -/

/-- the conversions between `REAL` and the IEEE types -/
structure Num (K : Type) where
  /-- the bits of `toFloat(x)` -/
  toW : K → BitVec 32
  /-- `(REAL)x` for a `REAL32` -/
  of32 : BitVec 32 → K
  /-- `(REAL)x` for a `REAL64` -/
  of64 : BitVec 64 → K

/-- a `ColorMatrix`: row, column, (re, im) -/
abbrev Link (K : Type) := Fin 3 → Fin 3 → K × K
/-- a gauge field on one node: direction, linear site index -/
abbrev Field (K : Type) := Nat → Nat → Link K
/-- assignment to one link of one direction -/
def Field.put (F : Field K) (dd i : Nat) (m : Link K) : Field K := fun dd' i' => if dd' = dd ∧ i' = i then m else F dd' i'

/-- place of `su3[ii][kk][c]` in the array, counted in numbers -/
def pos (ii kk c : Nat) : Nat := (ii * 3 + kk) * 2 + c
/-- assignment to one number of an array -/
def setAt {α : Type} (b : Nat → α) (i : Nat) (x : α) : Nat → α := fun j => if j = i then x else b j

/-- the loops over `kk` and `ii` that fill `su3` with the first `rows` rows of a link: lib/qdp_scalar_specific.cc:96-102, 112-118, 277-283,
287-293; lib/qdp_parscalar_specific.cc:944-950, 960-966, 1182-1188, 1196-1202.  `b` is what the array held before. -/
def fillRows (N : Num K) (rows : Nat) (m : Link K) (b : Nat → BitVec 32) : Nat → BitVec 32 :=
  (List.range 3).foldl (fun b kk => (List.range rows).foldl (fun b ii =>
    setAt (setAt b (pos ii kk 0) (N.toW (m (Fin.ofNat 3 ii) (Fin.ofNat 3 kk)).1)) (pos ii kk 1) (N.toW (m (Fin.ofNat 3 ii) (Fin.ofNat 3 kk)).2)) b) b

/-- the bytes of the first `mat` numbers of `su3` after the loops, as `writeArchiv` fills it (lib/qdp_scalar_specific.cc:275-294,
lib/qdp_parscalar_specific.cc:1178-1207); beyond 18 numbers the array ends -/
def linkBytes (be : Bool) (N : Num K) (mat : Nat) (junk : Nat → BitVec 32) (m : Link K) : Outcome (List Byte) :=
  if 18 < mat then ub
  else ok (((List.range mat).map (fillRows N (if mat = 12 then 2 else 3) m junk)).flatMap (store32 be))

/-- read of `u[dd].elem(i)` on a node with `n` sites -/
def getLink (n : Nat) (F : Field K) (dd i : Nat) : Outcome (Link K) := if i < n then ok (F dd i) else ub

/-- the 32-bit words of a buffer, as the host sees them -/
def wordsOf (be : Bool) : List Byte → List (BitVec 32)
  | b0 :: b1 :: b2 :: b3 :: t => load32 be b0 b1 b2 b3 :: wordsOf be t
  | _ => []
/-- a `REAL64` loaded from memory -/
def load64 (be : Bool) (b0 b1 b2 b3 b4 b5 b6 b7 : Byte) : BitVec 64 :=
  if be then b0 ++ b1 ++ b2 ++ b3 ++ b4 ++ b5 ++ b6 ++ b7 else b7 ++ b6 ++ b5 ++ b4 ++ b3 ++ b2 ++ b1 ++ b0
def dwordsOf (be : Bool) : List Byte → List (BitVec 64)
  | b0 :: b1 :: b2 :: b3 :: b4 :: b5 :: b6 :: b7 :: t => load64 be b0 b1 b2 b3 b4 b5 b6 b7 :: dwordsOf be t
  | _ => []

/-- `for(i …) checksum += chk_ptr[i]`, lib/qdp_scalar_specific.cc:130-132, 185-187; lib/qdp_parscalar_specific.cc:978-980, 1037-1039 -/
def addWords (be : Bool) (chk : BitVec 32) (b : List Byte) : BitVec 32 := (wordsOf be b).foldl (· + ·) chk

/-- one step of `computeChecksum`: lib/qdp_scalar_specific.cc:90-132, lib/qdp_parscalar_specific.cc:938-980.  (`QDP_extract` copies the
field; the copy is not modelled.) -/
def chkLink (be : Bool) (N : Num K) (n mat : Nat) (junk : Nat → BitVec 32) (F : Field K) (i : Nat) (chk : BitVec 32) (dd : Nat) :
    Outcome (BitVec 32) := do
  let m ← getLink n F dd i
  if mat = 12 ∨ mat = 18 then do
    let b ← linkBytes be N mat junk m
    ok (addWords be chk b)
  else abort

/-- the loops of `computeChecksum` on one node -/
def chkNode (be : Bool) (N : Num K) (n Nd mat : Nat) (junk : Nat → BitVec 32) (F : Field K) : Outcome (BitVec 32) :=
  foldO (fun chk i => foldO (chkLink be N n mat junk F i) chk (List.range Nd)) 0 (List.range n)

/-- `computeChecksum` on a single node, lib/qdp_scalar_specific.cc:65-142 (the global sum is empty there) -/
def computeChecksumS (be : Bool) (N : Num K) (g : Geom) (Nd mat : Nat) (junk : Nat → BitVec 32) (F : Field K) : Outcome (BitVec 32) :=
  chkNode be N g.sites Nd mat junk F

/-- `computeChecksum` on many nodes, lib/qdp_parscalar_specific.cc:913-990; the global sum (`QMP_binary_reduction` with
`sumAnUnsigned`, include/qdp_parscalar_specific.h:58-69) adds the values of the nodes modulo 2^32 -/
def computeChecksumP (be : Bool) (N : Num K) (g : Geom) (Nd mat : Nat) (junk : Nat → BitVec 32) (F : Nat → Field K) : Outcome (BitVec 32) := do
  let cs ← mapO (fun n => chkNode be N g.sites Nd mat junk (F n)) (List.range g.nodes)
  return cs.foldl (· + ·) 0

/-- one link written by a single node, lib/qdp_scalar_specific.cc:273-297 -/
def writeLinkS (be : Bool) (N : Num K) (g : Geom) (mat : Nat) (junk : Nat → BitVec 32) (F : Field K) (site : Nat) (d : Dev) (dd : Nat) :
    Outcome Dev := do
  let i ← indexOf g site
  let m ← getLink g.sites F dd i
  let b ← linkBytes be N mat junk m
  let r ← writeArray be b 4 mat d
  ok r.2

/-- `writeArchiv` on a single node, lib/qdp_scalar_specific.cc:260-303 -/
def writeArchivS (be : Bool) (N : Num K) (g : Geom) (Nd mat : Nat) (junk : Nat → BitVec 32) (F : Field K) (d : Dev) : Outcome Dev :=
  foldO (fun d site => foldO (writeLinkS be N g mat junk F site) d (List.range Nd)) d (List.range (nsites g.L))

/-- one site written by many nodes, lib/qdp_parscalar_specific.cc:1166-1226: the owner fills the buffer, the buffer goes to node 0 -/
def writeSiteP (be : Bool) (N : Num K) (g : Geom) (Nd mat : Nat) (junk : Nat → BitVec 32) (F : Nat → Field K) (d : Dev) (site : Nat) :
    Outcome Dev := do
  let c ← crtesn site g.L
  let n ← g.nodeNumber c
  let i ← g.linearSiteIndex c
  let bs ← mapO (fun dd => do let m ← getLink g.sites (F n) dd i; linkBytes be N mat junk m) (List.range Nd)
  route n (4 * mat * Nd)
  let r ← writeArray be bs.flatten 4 (mat * Nd) d
  ok r.2

/-- `writeArchiv` on many nodes, lib/qdp_parscalar_specific.cc:1142-1236 -/
def writeArchivP (be : Bool) (N : Num K) (g : Geom) (Nd mat : Nat) (junk : Nat → BitVec 32) (F : Nat → Field K) (d : Dev) : Outcome Dev :=
  foldO (writeSiteP be N g Nd mat junk F) d (List.range (nsites g.L))

section arith
variable [Add K] [Sub K] [Mul K]

/-- reconstruction of the third row, lib/qdp_scalar_specific.cc:213-229, lib/qdp_parscalar_specific.cc:1097-1113 -/
def third (s0 : Nat → K) : Nat → K :=
  let s1 := setAt s0 (pos 2 0 0) (s0 (pos 0 1 0) * s0 (pos 1 2 0) - s0 (pos 0 1 1) * s0 (pos 1 2 1)
    - s0 (pos 0 2 0) * s0 (pos 1 1 0) + s0 (pos 0 2 1) * s0 (pos 1 1 1))
  let s2 := setAt s1 (pos 2 0 1) (s1 (pos 0 2 0) * s1 (pos 1 1 1) + s1 (pos 0 2 1) * s1 (pos 1 1 0)
    - s1 (pos 0 1 0) * s1 (pos 1 2 1) - s1 (pos 0 1 1) * s1 (pos 1 2 0))
  let s3 := setAt s2 (pos 2 1 0) (s2 (pos 0 2 0) * s2 (pos 1 0 0) - s2 (pos 0 2 1) * s2 (pos 1 0 1)
    - s2 (pos 0 0 0) * s2 (pos 1 2 0) + s2 (pos 0 0 1) * s2 (pos 1 2 1))
  let s4 := setAt s3 (pos 2 1 1) (s3 (pos 0 0 0) * s3 (pos 1 2 1) + s3 (pos 0 0 1) * s3 (pos 1 2 0)
    - s3 (pos 0 2 0) * s3 (pos 1 0 1) - s3 (pos 0 2 1) * s3 (pos 1 0 0))
  let s5 := setAt s4 (pos 2 2 0) (s4 (pos 0 0 0) * s4 (pos 1 1 0) - s4 (pos 0 0 1) * s4 (pos 1 1 1)
    - s4 (pos 0 1 0) * s4 (pos 1 0 0) + s4 (pos 0 1 1) * s4 (pos 1 0 1))
  setAt s5 (pos 2 2 1) (s5 (pos 0 1 0) * s5 (pos 1 0 1) + s5 (pos 0 1 1) * s5 (pos 1 0 0)
    - s5 (pos 0 0 0) * s5 (pos 1 1 1) - s5 (pos 0 0 1) * s5 (pos 1 1 0))

/-- the copy of `su3` into the link, lib/qdp_scalar_specific.cc:232-241, lib/qdp_parscalar_specific.cc:1116-1123 -/
def linkOf (s : Nat → K) : Link K := fun ii kk => (s (pos ii kk 0), s (pos ii kk 1))

/-- the numbers of the buffer, lib/qdp_scalar_specific.cc:192-210, lib/qdp_parscalar_specific.cc:1074-1094; `other` is what happens to
another `float_size` (single node: the array stays uninitialised; many nodes: abort) -/
def loads (be : Bool) (N : Num K) (other : Outcome (List K)) (fs : Nat) (b : List Byte) : Outcome (List K) :=
  if fs = 4 then ok ((wordsOf be b).map N.of32)
  else if fs = 8 then ok ((dwordsOf be b).map N.of64)
  else other

/-- a link from its bytes: conversion, third row, copy.  With other sizes than 12 and 18 the array is read uninitialised (smaller) or
overrun (larger).  `sj` is what the array held before. -/
def unpack (be : Bool) (N : Num K) (other : Outcome (List K)) (mat fs : Nat) (sj : Nat → K) (b : List Byte) : Outcome (Link K) := do
  let l ← loads be N other fs b
  let s : Nat → K := fun j => (l[j]?).getD (sj j)
  if mat = 12 then ok (linkOf (third s)) else if mat = 18 then ok (linkOf s) else ub

/-- one link read by a single node, lib/qdp_scalar_specific.cc:176-243; the state is (field, checksum, stream) -/
def readLinkS (be : Bool) (N : Num K) (g : Geom) (mat fs : Nat) (sj : Nat → K) (site : Nat) (st : (Field K × BitVec 32) × Dev) (dd : Nat) :
    Outcome ((Field K × BitVec 32) × Dev) := do
  let r ← readArray be fs mat st.2
  let m ← unpack be N ub mat fs sj r.1
  let i ← indexOf g site
  if i < g.sites then ok ((st.1.1.put dd i m, addWords be st.1.2 r.1), r.2) else ub

/-- `readArchiv` on a single node, lib/qdp_scalar_specific.cc:155-247 -/
def readArchivS (be : Bool) (N : Num K) (g : Geom) (Nd mat fs : Nat) (sj : Nat → K) (F : Field K) (d : Dev) :
    Outcome ((Field K × BitVec 32) × Dev) :=
  foldO (fun st site => foldO (readLinkS be N g mat fs sj site) st (List.range Nd)) ((F, 0), d) (List.range (nsites g.L))

/-- the copies of the data kept by the nodes: node, linear site index; `none` = not yet written -/
abbrev Input := Nat → Nat → Option (List Byte)
def Input.put (I : Input) (n i : Nat) (b : List Byte) : Input := fun n' i' => if n' = n ∧ i' = i then some b else I n' i'

/-- one site read by the primary node and sent to its owner, lib/qdp_parscalar_specific.cc:1026-1058; the state is (copies, checksum,
stream) -/
def readSiteP (be : Bool) (g : Geom) (Nd mat fs : Nat) (st : (Input × BitVec 32) × Dev) (site : Nat) :
    Outcome ((Input × BitVec 32) × Dev) := do
  let c ← crtesn site g.L
  let n ← g.nodeNumber c
  let i ← g.linearSiteIndex c
  let r ← readArray be fs (mat * Nd) st.2
  route n (fs * mat * Nd)
  if i < g.sites then ok ((st.1.1.put n i r.1, addWords be st.1.2 r.1), r.2) else ub

/-- one link made from the copy on node `n`, lib/qdp_parscalar_specific.cc:1073-1125 -/
def buildLink (be : Bool) (N : Num K) (I : Nat → Option (List Byte)) (mat fs : Nat) (sj : Nat → K) (i : Nat) (F : Field K) (dd : Nat) :
    Outcome (Field K) :=
  match I i with
  | none => ub
  | some b => do
    let p ← sliceO b (fs * mat * dd) (fs * mat)
    let m ← unpack be N abort mat fs sj p
    ok (F.put dd i m)

/-- the second half of `readArchiv` on one node, lib/qdp_parscalar_specific.cc:1069-1127 -/
def buildNode (be : Bool) (N : Num K) (I : Nat → Option (List Byte)) (n Nd mat fs : Nat) (sj : Nat → K) (F : Field K) : Outcome (Field K) :=
  foldO (fun F i => foldO (buildLink be N I mat fs sj i) F (List.range Nd)) F (List.range n)

/-- `readArchiv` on many nodes, lib/qdp_parscalar_specific.cc:1003-1130: what node `n` gets for its field and for the (broadcast)
checksum -/
def readArchivP (be : Bool) (N : Num K) (g : Geom) (Nd mat fs : Nat) (sj : Nat → K) (F : Nat → Field K) (d : Dev) (n : Nat) :
    Outcome ((Field K × BitVec 32) × Dev) := do
  let st ← foldO (readSiteP be g Nd mat fs) ((fun _ _ => none, 0), d) (List.range (nsites g.L))
  let F' ← buildNode be N (st.1.1 n) g.sites Nd mat fs sj (F n)
  return ((F', st.1.2), st.2)

end arith

/-! ## Specification -/

/-- the 32-bit words of row `r` -/
def rowWords (N : Num K) (m : Link K) (r : Fin 3) : List (BitVec 32) := (List.finRange 3).flatMap fun k => [N.toW (m r k).1, N.toW (m r k).2]
/-- the words stored for a link: two rows or three -/
def linkWords (N : Num K) (mat : Nat) (m : Link K) : List (BitVec 32) :=
  if mat = 12 then rowWords N m 0 ++ rowWords N m 1 else rowWords N m 0 ++ rowWords N m 1 ++ rowWords N m 2

/-- the nodes hold the gauge field `f` -/
def HoldsG (g : Geom) (Nd : Nat) (F : Nat → Field K) (f : Nat → List Nat → Link K) : Prop :=
  ∀ n i c dd, n < g.nodes → i < g.sites → g.siteCoords n i = ok c → dd < Nd → F n dd i = f dd c

/-- the file: sites in lexicographic order, directions, words, most significant byte first -/
def archBytes (N : Num K) (L : List Nat) (Nd mat : Nat) (f : Nat → List Nat → Link K) : List Byte :=
  (List.range (nsites L)).flatMap fun r => (List.range Nd).flatMap fun dd => (linkWords N mat (f dd (digits r L))).flatMap (store32 true)

/-- sum of all stored words modulo 2^32 -/
def fieldSum (N : Num K) (L : List Nat) (Nd mat : Nat) (f : Nat → List Nat → Link K) : BitVec 32 :=
  ∑ r ∈ Finset.range (nsites L), ∑ dd ∈ Finset.range Nd, (linkWords N mat (f dd (digits r L))).sum

/-! ## Lemmas -/

theorem fill12 (N : Num K) (m : Link K) (b : Nat → BitVec 32) : (List.range 12).map (fillRows N 2 m b) = linkWords N 12 m := rfl
theorem fill18 (N : Num K) (m : Link K) (b : Nat → BitVec 32) : (List.range 18).map (fillRows N 3 m b) = linkWords N 18 m := rfl

end Verif.Archive
