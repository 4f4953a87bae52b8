import Verif.BinIO
import Verif.SubsetProps
/-
Binary I/O of lattice fields: lib/qdp_parscalar_specific.cc:297-899 (multi-node), include/qdp_scalar_specific.h:2091-2247 (single node),
include/qdp_disk_map_slice.h (time slices).

A field is, on each node, an array of bytes: `sites` elements of `sizemem = size * nmemb` bytes.  The machine is run as one program: what
the nodes do between two messages is done in the order of the source text, and a message is a copy (QMP delivers what was sent).
`recv_buf` is filled from left to right, so it is modelled by the bytes put into it so far.
-/
namespace Verif.LatticeIO
open Verif Outcome ByteOrder Verif.Layout Verif.ParLayout Verif.Subset Verif.BinIO

/-! ## Model -/

/-- run `f` over a list, threading the state -/
def foldO {σ α : Type} (f : σ → α → Outcome σ) : σ → List α → Outcome σ
  | s, [] => ok s
  | s, a :: as => do let s ← f s a; foldO f s as

/-- `memcpy(dst, m+off, n)`: read -/
def sliceO (m : List Byte) (off n : Nat) : Outcome (List Byte) := if off + n ≤ m.length then ok ((m.drop off).take n) else ub
/-- `memcpy(m+off, bs, n)`: write -/
def blitO (m : List Byte) (off : Nat) (bs : List Byte) : Outcome (List Byte) :=
  if off + bs.length ≤ m.length then ok (m.take off ++ bs ++ m.drop (off + bs.length)) else ub

/-- the memories of the nodes -/
abbrev Mem := Nat → List Byte
/-- node `n` now has memory `m` -/
def Mem.put (M : Mem) (n : Nat) (m : List Byte) : Mem := fun x => if x = n then m else M x

/-- for(site=start; site < stop; site += xinc), the values taken by `site`; a zero increment never ends -/
def strides (start stop xinc : Nat) : Outcome (List Nat) :=
  if xinc = 0 then ub else ok ((List.range ((stop - start + (xinc - 1)) / xinc)).map (fun k => start + k * xinc))

/-- `Layout::linearSiteIndex(crtesn(site, Layout::lattSize()))` -/
def indexOf (g : Geom) (site : Nat) : Outcome Nat := do
  let c ← crtesn site g.L
  g.linearSiteIndex c

/-- `QDPInternal::clearToSend`, lib/qdp_parscalar_specific.cc:297-307, with `count = sizeof(int)` and a buffer of `len` bytes: on a
machine that is not a grid, 4 bytes of the buffer of node 0 are sent into the buffer of `node`.  Both nodes go beyond the end of a
shorter buffer. -/
def clearToSend (grid : Bool) (len node : Nat) : Outcome Unit := if !grid ∧ node ≠ 0 ∧ len < 4 then ub else ok ()

/-- the primary node tells a node that it may send, unless it was the last one to send, lib/qdp_parscalar_specific.cc:400-405 -/
def handshake (grid : Bool) (len old node : Nat) : Outcome Unit := if node ≠ old then clearToSend grid len node else ok ()

/-- `QDPInternal::route`, lib/qdp_parscalar_specific.cc:310-323: the byte count is an `int` -/
def route (node count : Nat) : Outcome Unit := if node ≠ 0 ∧ 2 ^ 31 ≤ count then ub else ok ()

/-- the node copies `xinc` elements into the buffer, lib/qdp_parscalar_specific.cc:409-415, 875-880 -/
def gather (g : Geom) (m : List Byte) (sizemem site xinc : Nat) : Outcome (List Byte) := do
  let ps ← mapO (fun i => do let l ← indexOf g (site + i); sliceO m (l * sizemem) sizemem) (List.range xinc)
  return ps.flatten

/-- body of the loop of `writeOLattice`, lib/qdp_parscalar_specific.cc:393-433, and of `writeOLatticeSlice`, 862-897; the state is
(`old_node`, stream of the primary node) -/
def writeBlock (be : Bool) (g : Geom) (xinc : Nat) (grid : Bool) (M : Mem) (size nmemb : Nat) (st : Nat × Dev) (site : Nat) :
    Outcome (Nat × Dev) := do
  let c ← crtesn site g.L
  let node ← g.nodeNumber c
  let _ ← handshake grid (size * nmemb * xinc) st.1 node
  let buf ← gather g (M node) (size * nmemb) site xinc
  let _ ← route node (size * nmemb * xinc)
  let r ← writeArray be buf size (nmemb * xinc) st.2
  return (node, r.2)

/-- `writeOLattice(bin, output, size, nmemb)`, lib/qdp_parscalar_specific.cc:378-436; `xinc = subgridLattSize()[0]` -/
def writeOLattice (be : Bool) (g : Geom) (xinc : Nat) (grid : Bool) (M : Mem) (size nmemb : Nat) (d : Dev) : Outcome Dev := do
  let ss ← strides 0 (nsites g.L) xinc
  let r ← foldO (writeBlock be g xinc grid M size nmemb) (0, d) ss
  return r.2

/-- `writeOLattice(bin, output, size, nmemb, coord)`, lib/qdp_parscalar_specific.cc:440-481 -/
def writeSite (be : Bool) (g : Geom) (grid : Bool) (M : Mem) (size nmemb : Nat) (c : List Nat) (d : Dev) : Outcome Dev := do
  let node ← g.nodeNumber c
  let l ← g.linearSiteIndex c
  let _ ← clearToSend grid (size * nmemb) node
  let buf ← sliceO (M node) (l * (size * nmemb)) (size * nmemb)
  let _ ← route node (size * nmemb)
  let r ← writeArray be buf size nmemb d
  return r.2

/-- the node copies the elements of one colour, lib/qdp_parscalar_specific.cc:533-545; the state is (`recv_buf`, `site_cnt`) -/
def gatherSub (g : Geom) (m : List Byte) (col : List Nat) (color sizemem site : Nat) (st : List Byte × Nat) (i : Nat) :
    Outcome (List Byte × Nat) := do
  let l ← indexOf g (site + i)
  let k ← rd col l
  if k = color then do
    let b ← sliceO m (l * sizemem) sizemem
    return (st.1 ++ b, st.2 + 1)
  else return st

/-- body of the loop of `writeOLattice(.., sub)`, lib/qdp_parscalar_specific.cc:512-573; `col` is `lat_color` of each node -/
def writeSubBlock (be : Bool) (g : Geom) (xinc : Nat) (grid : Bool) (M : Mem) (col : Nat → List Nat) (color size nmemb : Nat)
    (st : Nat × Dev) (site : Nat) : Outcome (Nat × Dev) := do
  let c ← crtesn site g.L
  let node ← g.nodeNumber c
  let _ ← handshake grid (size * nmemb * xinc) st.1 node
  let b ← foldO (gatherSub g (M node) (col node) color (size * nmemb) site) ([], 0) (List.range xinc)
  let _ ← route node (size * nmemb * b.2)
  let r ← writeArray be b.1 size (nmemb * b.2) st.2
  return (node, r.2)

/-- `writeOLattice(bin, output, size, nmemb, sub)`, lib/qdp_parscalar_specific.cc:486-577 -/
def writeSub (be : Bool) (g : Geom) (xinc : Nat) (grid : Bool) (M : Mem) (col : Nat → List Nat) (color size nmemb : Nat) (d : Dev) :
    Outcome Dev := do
  let ss ← strides 0 (nsites g.L) xinc
  let r ← foldO (writeSubBlock be g xinc grid M col color size nmemb) (0, d) ss
  return r.2

/-- the node copies the buffer into its elements, lib/qdp_parscalar_specific.cc:619-627, 826-833 -/
def scatter (g : Geom) (sizemem site : Nat) (buf : List Byte) (m : List Byte) (i : Nat) : Outcome (List Byte) := do
  let l ← indexOf g (site + i)
  let b ← sliceO buf (i * sizemem) sizemem
  blitO m (l * sizemem) b

/-- body of the loop of `readOLattice`, lib/qdp_parscalar_specific.cc:596-628, and of `readOLatticeSlice`, 803-834 -/
def readBlock (be : Bool) (g : Geom) (xinc : Nat) (size nmemb : Nat) (st : Mem × Dev) (site : Nat) : Outcome (Mem × Dev) := do
  let c ← crtesn site g.L
  let node ← g.nodeNumber c
  let r ← readArray be size (nmemb * xinc) st.2
  let _ ← route node (size * nmemb * xinc)
  let m ← foldO (scatter g (size * nmemb) site r.1) (st.1 node) (List.range xinc)
  return (st.1.put node m, r.2)

/-- `readOLattice(bin, input, size, nmemb)`, lib/qdp_parscalar_specific.cc:582-631 -/
def readOLattice (be : Bool) (g : Geom) (xinc : Nat) (M : Mem) (size nmemb : Nat) (d : Dev) : Outcome (Mem × Dev) := do
  let ss ← strides 0 (nsites g.L) xinc
  foldO (readBlock be g xinc size nmemb) (M, d) ss

/-- `readOLattice(bin, input, size, nmemb, coord)`, lib/qdp_parscalar_specific.cc:635-672 -/
def readSite (be : Bool) (g : Geom) (M : Mem) (size nmemb : Nat) (c : List Nat) (d : Dev) : Outcome (Mem × Dev) := do
  let node ← g.nodeNumber c
  let l ← g.linearSiteIndex c
  let r ← readArray be size nmemb d
  let _ ← route node (size * nmemb)
  let m ← blitO (M node) (l * (size * nmemb)) r.1
  return (M.put node m, r.2)

/-- the node counts its sites of one colour, lib/qdp_parscalar_specific.cc:713-724 -/
def countSub (g : Geom) (col : List Nat) (color site : Nat) (cnt : Nat) (i : Nat) : Outcome Nat := do
  let l ← indexOf g (site + i)
  let k ← rd col l
  if k = color then return cnt + 1 else return cnt

/-- the node copies the buffer into its elements of one colour, lib/qdp_parscalar_specific.cc:764-774; the state is (elements, `j`) -/
def scatterSub (g : Geom) (col : List Nat) (color sizemem site : Nat) (buf : List Byte) (st : List Byte × Nat) (i : Nat) :
    Outcome (List Byte × Nat) := do
  let l ← indexOf g (site + i)
  let k ← rd col l
  if k = color then do
    let b ← sliceO buf (st.2 * sizemem) sizemem
    let m ← blitO st.1 (l * sizemem) b
    return (m, st.2 + 1)
  else return st

/-- body of the loop of `readOLattice(.., sub)`, lib/qdp_parscalar_specific.cc:700-775 -/
def readSubBlock (be : Bool) (g : Geom) (xinc : Nat) (col : Nat → List Nat) (color size nmemb : Nat) (st : Mem × Dev) (site : Nat) :
    Outcome (Mem × Dev) := do
  let c ← crtesn site g.L
  let node ← g.nodeNumber c
  let cnt ← foldO (countSub g (col node) color site) 0 (List.range xinc)
  let r ← readArray be size (nmemb * cnt) st.2
  let _ ← route node (size * nmemb * cnt)
  let m ← foldO (scatterSub g (col node) color (size * nmemb) site r.1) (st.1 node, 0) (List.range xinc)
  return (st.1.put node m.1, r.2)

/-- `readOLattice(bin, input, size, nmemb, sub)`, lib/qdp_parscalar_specific.cc:676-779 -/
def readSub (be : Bool) (g : Geom) (xinc : Nat) (M : Mem) (col : Nat → List Nat) (color size nmemb : Nat) (d : Dev) :
    Outcome (Mem × Dev) := do
  let ss ← strides 0 (nsites g.L) xinc
  foldO (readSubBlock be g xinc col color size nmemb) (M, d) ss

/-- `writeOLatticeSlice`, lib/qdp_parscalar_specific.cc:841-899 -/
def writeSlice (be : Bool) (g : Geom) (xinc : Nat) (grid : Bool) (M : Mem) (size nmemb start stop : Nat) (d : Dev) : Outcome Dev := do
  let r ← cmod stop xinc
  if r ≠ 0 then abort else do
    let ss ← strides start stop xinc
    let r ← foldO (writeBlock be g xinc grid M size nmemb) (0, d) ss
    return r.2

/-- `readOLatticeSlice`, lib/qdp_parscalar_specific.cc:785-837 -/
def readSlice (be : Bool) (g : Geom) (xinc : Nat) (M : Mem) (size nmemb start stop : Nat) (d : Dev) : Outcome (Mem × Dev) := do
  let r ← cmod stop xinc
  if r ≠ 0 then abort else do
    let ss ← strides start stop xinc
    foldO (readBlock be g xinc size nmemb) (M, d) ss

/-- `TimeSliceIO::setTimeSlice`, include/qdp_disk_map_slice.h:50-72; returns (`start_lexico`, `stop_lexico`).  The exception thrown for
a bad time is a deliberate stop. -/
def setTimeSlice (L : List Nat) (t : Int) : Outcome (Nat × Nat) := do
  let lt ← rd L (L.length - 1)
  if t < 0 ∨ t ≥ (lt : Int) then abort
  else do
    let zeros := List.replicate L.length 0
    let start ← localSite (zeros.set (L.length - 1) t.toNat) L
    if t = (lt : Int) - 1 then do
      let v ← volume L
      return (start, v)
    else do
      let stop ← localSite (zeros.set (L.length - 1) (t.toNat + 1)) L
      return (start, stop)

/-! ### single node -/

/-- body of the loop of `write(bin, OLattice)`, include/qdp_scalar_specific.h:2105-2111, and of `writeSlice`, 2238-2244; the element is
byte-swapped in place while it is written -/
def writeElem (be : Bool) (g : Geom) (size nmemb : Nat) (st : List Byte × Dev) (site : Nat) : Outcome (List Byte × Dev) := do
  let l ← indexOf g site
  let b ← sliceO st.1 (l * (size * nmemb)) (size * nmemb)
  let r ← writeArray be b size nmemb st.2
  let m ← blitO st.1 (l * (size * nmemb)) r.1
  return (m, r.2)

/-- `write(bin, OLattice)`, include/qdp_scalar_specific.h:2102-2112; returns the memory of the field, too -/
def writeOLatticeS (be : Bool) (g : Geom) (m : List Byte) (size nmemb : Nat) (d : Dev) : Outcome (List Byte × Dev) :=
  foldO (writeElem be g size nmemb) (m, d) (List.range (nsites g.L))

/-- `write(bin, OSubLattice)`, include/qdp_scalar_specific.h:2117-2140 -/
def writeSubS (be : Bool) (g : Geom) (m : List Byte) (col : List Nat) (color size nmemb : Nat) (d : Dev) : Outcome (List Byte × Dev) :=
  foldO (fun st site => do
    let l ← indexOf g site
    let k ← rd col l
    if k = color then writeElem be g size nmemb st site else ok st) (m, d) (List.range (nsites g.L))

/-- `write(bin, OLattice, coord)`, include/qdp_scalar_specific.h:2145-2151 -/
def writeSiteS (be : Bool) (g : Geom) (m : List Byte) (size nmemb : Nat) (c : List Nat) (d : Dev) : Outcome (List Byte × Dev) := do
  let l ← g.linearSiteIndex c
  let b ← sliceO m (l * (size * nmemb)) (size * nmemb)
  let r ← writeArray be b size nmemb d
  let m ← blitO m (l * (size * nmemb)) r.1
  return (m, r.2)

/-- body of the loop of `read(bin, OLattice)`, include/qdp_scalar_specific.h:2169-2175, and of `readSlice`, 2225-2231 -/
def readElem (be : Bool) (g : Geom) (size nmemb : Nat) (st : List Byte × Dev) (site : Nat) : Outcome (List Byte × Dev) := do
  let l ← indexOf g site
  let r ← readArray be size nmemb st.2
  let m ← blitO st.1 (l * (size * nmemb)) r.1
  return (m, r.2)

/-- `read(bin, OLattice)`, include/qdp_scalar_specific.h:2166-2176 -/
def readOLatticeS (be : Bool) (g : Geom) (m : List Byte) (size nmemb : Nat) (d : Dev) : Outcome (List Byte × Dev) :=
  foldO (readElem be g size nmemb) (m, d) (List.range (nsites g.L))

/-- `read(bin, OLattice, coord)`, include/qdp_scalar_specific.h:2181-2187 -/
def readSiteS (be : Bool) (g : Geom) (m : List Byte) (size nmemb : Nat) (c : List Nat) (d : Dev) : Outcome (List Byte × Dev) := do
  let l ← g.linearSiteIndex c
  let r ← readArray be size nmemb d
  let m ← blitO m (l * (size * nmemb)) r.1
  return (m, r.2)

/-- `read(bin, OSubLattice)`, include/qdp_scalar_specific.h:2192-2215 -/
def readSubS (be : Bool) (g : Geom) (m : List Byte) (col : List Nat) (color size nmemb : Nat) (d : Dev) : Outcome (List Byte × Dev) :=
  foldO (fun st site => do
    let l ← indexOf g site
    let k ← rd col l
    if k = color then readElem be g size nmemb st site else ok st) (m, d) (List.range (nsites g.L))

/-- `LatticeTimeSliceIO::writeSlice`, include/qdp_scalar_specific.h:2234-2245 -/
def writeSliceS (be : Bool) (g : Geom) (m : List Byte) (size nmemb start stop : Nat) (d : Dev) : Outcome (List Byte × Dev) :=
  foldO (writeElem be g size nmemb) (m, d) ((List.range (stop - start)).map (start + ·))

/-- `LatticeTimeSliceIO::readSlice`, include/qdp_scalar_specific.h:2221-2232 -/
def readSliceS (be : Bool) (g : Geom) (m : List Byte) (size nmemb start stop : Nat) (d : Dev) : Outcome (List Byte × Dev) :=
  foldO (readElem be g size nmemb) (m, d) ((List.range (stop - start)).map (start + ·))

/-! ## Specification -/

/-- a field: at every site `nmemb` words of `size` bytes, most significant byte first -/
def IsField (L : List Nat) (size nmemb : Nat) (f : List Nat → List (List Byte)) : Prop :=
  ∀ c, InRange c L → (f c).length = nmemb ∧ ∀ w ∈ f c, w.length = size

/-- the memories of the nodes hold `φ c` at site `c`, for elements of `k` bytes -/
def Cells (g : Geom) (k : Nat) (M : Mem) (φ : List Nat → List Byte) : Prop :=
  (∀ n, n < g.nodes → (M n).length = g.sites * k) ∧
  ∀ n i c, n < g.nodes → i < g.sites → g.siteCoords n i = ok c → ((M n).drop (i * k)).take k = φ c

/-- the nodes (of kind `be`) hold the field `f` -/
def Holds (be : Bool) (g : Geom) (size nmemb : Nat) (M : Mem) (f : List Nat → List (List Byte)) : Prop :=
  Cells g (size * nmemb) M (fun c => mem be (f c))

/-- the records of the sites of rank `a`, `a+1`, …, `a+n-1` that satisfy `Q`, one after the other -/
def records (L : List Nat) (f : List Nat → List (List Byte)) (Q : List Nat → Bool) (a n : Nat) : List Byte :=
  ((List.range n).filter (fun i => Q (digits (a + i) L))).flatMap (fun i => (f (digits (a + i) L)).flatten)

/-- `xinc` sites starting at a multiple of `xinc` live on one node -/
def RowLocal (g : Geom) (xinc : Nat) : Prop :=
  ∀ q i, i < xinc → q * xinc + i < nsites g.L → g.nodeNumber (digits (q * xinc + i) g.L) = g.nodeNumber (digits (q * xinc) g.L)

/-- what `Layout::create` establishes for lattice I/O -/
structure Ready (g : Geom) (xinc : Nat) : Prop where
  good : g.Good
  vol : nsites g.L < 2 ^ 31
  pos : 0 < nsites g.L
  row : RowLocal g xinc
  xpos : 0 < xinc
  head : ∃ l0 ls, g.L = l0 :: ls ∧ xinc ∣ l0

end Verif.LatticeIO
