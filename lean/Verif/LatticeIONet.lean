import Verif.LatticeIOThm
import Verif.PeekPoke
/-
Binary I/O of lattice fields as it runs on the nodes: lib/qdp_parscalar_specific.cc:297-899, every node a process of its own that exchanges messages with the others.

`LatticeIO` runs the machine as one program, in the order of the source text.  Here each node runs the text by itself: it has its piece of the field, its own
`recv_buf` (uninitialised when the call begins, and reused from strip to strip), its own `recv_buf_size`, and messages are sent, waited for and received.

Simplifications: `DML_route_bytes` is a message from the source to the destination (it belongs to QIO); a receive of another length than that of the message is
the end of the defined behaviour; an `int` in a message is four bytes, least significant first (all nodes of a machine agree); allocation succeeds.
-/
namespace Verif.LatticeIONet
open Verif Outcome ByteOrder Verif.Layout Verif.ParLayout Verif.Subset Verif.BinIO Verif.LatticeIO Verif.Network Verif.PeekPoke

/-! ## Model -/

/-- a process of a node: messages are bytes -/
abbrev NodeProc (R : Type) := Proc (List Byte) R

/-- `count` bytes of the buffer of `src` go to the buffer of `dst`: `sendToWait` on the one, `recvFromWait` on the other,
lib/qdp_parscalar_specific.cc:326-372.  The byte count is an `int`. -/
def transfer {R : Type} (me src dst count : Nat) (buf : List Byte) (k : List Byte → NodeProc R) : NodeProc R :=
  if me = src then
    if 2 ^ 31 ≤ count then .stop
    else after (sliceO buf 0 count) fun b => .send dst b (.wait dst (k buf))
  else if me = dst then
    if 2 ^ 31 ≤ count then .stop
    else .recv src fun b => if b.length ≠ count then .stop else after (blitO buf 0 b) k
  else k buf

/-- `QDPInternal::clearToSend`, lib/qdp_parscalar_specific.cc:297-307, on node `me` -/
def clearToSendN {R : Type} (grid : Bool) (me count node : Nat) (buf : List Byte) (k : List Byte → NodeProc R) : NodeProc R :=
  if !grid ∧ node ≠ 0 then transfer me 0 node count buf k else k buf

/-- `QDPInternal::route`, lib/qdp_parscalar_specific.cc:310-323, called only if `node` is not the primary node; `src` or `dst` is the primary node -/
def routeN {R : Type} (me node src dst count : Nat) (buf : List Byte) (k : List Byte → NodeProc R) : NodeProc R :=
  if node ≠ 0 then transfer me src dst count buf k else k buf

/-- the variables of a node: `old_node`, `recv_buf`, `recv_buf_size`, the field, the stream (that of the primary node is used) -/
structure Vars where
  old : Nat
  buf : List Byte
  sz : List Byte
  m : List Byte
  d : Dev

/-- the loop over the strips -/
def strips {R : Type} (step : Vars → Nat → (Vars → NodeProc R) → NodeProc R) : List Nat → Vars → (Vars → NodeProc R) → NodeProc R
  | [], v, k => k v
  | s :: ss, v, k => step v s fun v => strips step ss v k

/-- `if (node != old_node) { clearToSend(recv_buf, sizeof(int), node); old_node = node; }`, lib/qdp_parscalar_specific.cc:400-405 -/
def getReady {R : Type} (grid : Bool) (me node : Nat) (v : Vars) (k : Vars → NodeProc R) : NodeProc R :=
  if node ≠ v.old then clearToSendN grid me 4 node v.buf fun b => k { v with buf := b, old := node } else k v

/-- one pass of the loop that fills the buffer, lib/qdp_parscalar_specific.cc:411-415 -/
def fillOne (g : Geom) (m : List Byte) (sizemem site : Nat) (buf : List Byte) (i : Nat) : Outcome (List Byte) := do
  let l ← indexOf g (site + i)
  let b ← sliceO m (l * sizemem) sizemem
  blitO buf (i * sizemem) b

/-- `bin.writeArrayPrimaryNode(recv_buf, size, count)` on node `me` -/
def writePrimary (be : Bool) (me size count : Nat) (v : Vars) : Outcome Vars :=
  if me = 0 then do
    let r ← writeArray be v.buf size count v.d
    return { v with buf := r.1, d := r.2 }
  else ok v

/-- `bin.readArrayPrimaryNode(recv_buf, size, count)` on node `me` -/
def readPrimary (be : Bool) (me size count : Nat) (v : Vars) : Outcome Vars :=
  if me = 0 then do
    let r ← readArray be size count v.d
    let b ← blitO v.buf 0 r.1
    return { v with buf := b, d := r.2 }
  else ok v

/-- body of the loop of `writeOLattice`, lib/qdp_parscalar_specific.cc:393-433, and of `writeOLatticeSlice`, 862-897, on node `me` -/
def writeStep {R : Type} (be : Bool) (g : Geom) (xinc : Nat) (grid : Bool) (size nmemb me : Nat) (v : Vars) (site : Nat)
    (k : Vars → NodeProc R) : NodeProc R :=
  after (crtesn site g.L) fun c => after (g.nodeNumber c) fun node =>
  getReady grid me node v fun v =>
  after (if me = node then foldO (fillOne g v.m (size * nmemb) site) v.buf (List.range xinc) else ok v.buf) fun b =>
  routeN me node node 0 (size * nmemb * xinc) b fun b =>
  after (writePrimary be me size (nmemb * xinc) { v with buf := b }) k

/-- one pass of the loop that fills the buffer with the elements of one colour, lib/qdp_parscalar_specific.cc:534-542 -/
def fillSub (g : Geom) (m : List Byte) (col : List Nat) (color sizemem site : Nat) (st : List Byte × Nat) (i : Nat) :
    Outcome (List Byte × Nat) := do
  let l ← indexOf g (site + i)
  let k ← rd col l
  if k = color then do
    let b ← sliceO m (l * sizemem) sizemem
    let buf ← blitO st.1 (st.2 * sizemem) b
    return (buf, st.2 + 1)
  else return st

/-- the bytes of an `int` that is not negative -/
def intBytes (n : Nat) : List Byte := [BitVec.ofNat 8 n, BitVec.ofNat 8 (n / 256), BitVec.ofNat 8 (n / 65536), BitVec.ofNat 8 (n / 16777216)]
/-- the `int` in four bytes -/
def intOf (bs : List Byte) : Outcome Nat := match bs with
  | [a, b, c, d] => ok (a.toNat + 256 * b.toNat + 65536 * c.toNat + 16777216 * d.toNat)
  | _ => ub

/-- body of the loop of `writeOLattice(.., sub)`, lib/qdp_parscalar_specific.cc:512-573, on node `me` -/
def writeSubStep {R : Type} (be : Bool) (g : Geom) (xinc : Nat) (grid : Bool) (col : List Nat) (color size nmemb me : Nat) (v : Vars)
    (site : Nat) (k : Vars → NodeProc R) : NodeProc R :=
  after (crtesn site g.L) fun c => after (g.nodeNumber c) fun node =>
  getReady grid me node v fun v =>
  after (if me = node then foldO (fillSub g v.m col color (size * nmemb) site) (v.buf, 0) (List.range xinc) else ok (v.buf, 0)) fun b =>
  routeN me node node 0 4 (if me = node then intBytes b.2 else v.sz) fun sz =>
  after (if me = 0 ∧ node ≠ 0 then intOf sz else ok b.2) fun cnt =>
  routeN me node node 0 (cnt * (size * nmemb)) b.1 fun b =>
  after (writePrimary be me size (nmemb * cnt) { v with buf := b, sz := sz }) k

/-- body of the loop of `readOLattice`, lib/qdp_parscalar_specific.cc:596-628, and of `readOLatticeSlice`, 803-834, on node `me` -/
def readStep {R : Type} (be : Bool) (g : Geom) (xinc : Nat) (size nmemb me : Nat) (v : Vars) (site : Nat) (k : Vars → NodeProc R) :
    NodeProc R :=
  after (crtesn site g.L) fun c => after (g.nodeNumber c) fun node =>
  after (readPrimary be me size (nmemb * xinc) v) fun v =>
  routeN me node 0 node (size * nmemb * xinc) v.buf fun b =>
  after (if me = node then foldO (scatter g (size * nmemb) site b) v.m (List.range xinc) else ok v.m) fun m =>
  k { v with buf := b, m := m }

/-- body of the loop of `readOLattice(.., sub)`, lib/qdp_parscalar_specific.cc:700-775, on node `me` -/
def readSubStep {R : Type} (be : Bool) (g : Geom) (xinc : Nat) (col : List Nat) (color size nmemb me : Nat) (v : Vars) (site : Nat)
    (k : Vars → NodeProc R) : NodeProc R :=
  after (crtesn site g.L) fun c => after (g.nodeNumber c) fun node =>
  after (if me = node then foldO (countSub g col color site) 0 (List.range xinc) else ok 0) fun cnt =>
  routeN me node node 0 4 (if me = node then intBytes cnt else v.sz) fun sz =>
  after (if me = 0 ∧ node ≠ 0 then intOf sz else ok cnt) fun cnt =>
  after (readPrimary be me size (nmemb * cnt) v) fun v =>
  routeN me node 0 node (cnt * (size * nmemb)) v.buf fun b =>
  after (if me = node then foldO (scatterSub g col color (size * nmemb) site b) (v.m, 0) (List.range xinc) else ok (v.m, 0)) fun m =>
  k { v with buf := b, sz := sz, m := m.1 }

/-- the calls of lattice I/O on one stream; the colouring of the nodes is `lat_color` -/
inductive Call
  | write
  | writeSub (col : Nat → List Nat) (color : Nat)
  | writeSite (c : List Nat)
  | writeSlice (start stop : Nat)
  | read
  | readSub (col : Nat → List Nat) (color : Nat)
  | readSite (c : List Nat)
  | readSlice (start stop : Nat)

/-- a machine and a field: byte order, layout, `subgridLattSize()[0]`, kind of network, words of a site -/
structure Setting where
  be : Bool
  g : Geom
  xinc : Nat
  grid : Bool
  size : Nat
  nmemb : Nat

/-- bytes of a strip, the size of `recv_buf` -/
def Setting.tot (S : Setting) : Nat := S.size * S.nmemb * S.xinc

/-- the calls on node `me`; `junk` and `jsz` are the contents of the fresh buffers.  lib/qdp_parscalar_specific.cc:378-899 -/
def call {R : Type} (S : Setting) (me : Nat) (junk jsz : List Byte) (a : Call) (m : List Byte) (d : Dev) (k : List Byte → Dev → NodeProc R) :
    NodeProc R :=
  let fresh (n : Nat) : Vars := { old := 0, buf := junk.take n, sz := jsz.take 4, m := m, d := d }
  let fin := fun v : Vars => k v.m v.d
  match a with
  | .write => after (strides 0 (nsites S.g.L) S.xinc) fun ss =>
      strips (writeStep S.be S.g S.xinc S.grid S.size S.nmemb me) ss (fresh S.tot) fin
  | .writeSub col color => after (strides 0 (nsites S.g.L) S.xinc) fun ss =>
      strips (writeSubStep S.be S.g S.xinc S.grid (col me) color S.size S.nmemb me) ss (fresh S.tot) fin
  | .writeSite c => after (S.g.nodeNumber c) fun node => after (S.g.linearSiteIndex c) fun l =>
      clearToSendN S.grid me 4 node (fresh (S.size * S.nmemb)).buf fun b =>
      after (if me = node then do let x ← sliceO m (l * (S.size * S.nmemb)) (S.size * S.nmemb); blitO b 0 x else ok b) fun b =>
      routeN me node node 0 (S.size * S.nmemb) b fun b =>
      after (writePrimary S.be me S.size S.nmemb { fresh 0 with buf := b }) fin
  | .writeSlice start stop => after (cmod stop S.xinc) fun r => if r ≠ 0 then .stop else
      after (strides start stop S.xinc) fun ss => strips (writeStep S.be S.g S.xinc S.grid S.size S.nmemb me) ss (fresh S.tot) fin
  | .read => after (strides 0 (nsites S.g.L) S.xinc) fun ss =>
      strips (readStep S.be S.g S.xinc S.size S.nmemb me) ss (fresh S.tot) fin
  | .readSub col color => after (strides 0 (nsites S.g.L) S.xinc) fun ss =>
      strips (readSubStep S.be S.g S.xinc (col me) color S.size S.nmemb me) ss (fresh S.tot) fin
  | .readSite c => after (S.g.nodeNumber c) fun node => after (S.g.linearSiteIndex c) fun l =>
      after (readPrimary S.be me S.size S.nmemb (fresh (S.size * S.nmemb))) fun v =>
      routeN me node 0 node (S.size * S.nmemb) v.buf fun b =>
      after (if me = node then do let x ← sliceO b 0 (S.size * S.nmemb); blitO m (l * (S.size * S.nmemb)) x else ok m) fun m' => k m' v.d
  | .readSlice start stop => after (cmod stop S.xinc) fun r => if r ≠ 0 then .stop else
      after (strides start stop S.xinc) fun ss => strips (readStep S.be S.g S.xinc S.size S.nmemb me) ss (fresh S.tot) fin

/-- several calls one after the other; every call has fresh buffers -/
def calls {R : Type} (S : Setting) (me : Nat) (k : List Byte → Dev → NodeProc R) : List (Call × List Byte × List Byte) → List Byte → Dev → NodeProc R
  | [], m, d => k m d
  | (a, junk, jsz) :: as, m, d => call S me junk jsz a m d fun m d => calls S me k as m d

/-! ## Specification: the machine run as one program, `LatticeIO` -/

/-- one call -/
def call1 (S : Setting) (M : Mem) (d : Dev) : Call → Outcome (Mem × Dev)
  | .write => do let d ← writeOLattice S.be S.g S.xinc S.grid M S.size S.nmemb d; return (M, d)
  | .writeSub col color => do let d ← writeSub S.be S.g S.xinc S.grid M col color S.size S.nmemb d; return (M, d)
  | .writeSite c => do let d ← writeSite S.be S.g S.grid M S.size S.nmemb c d; return (M, d)
  | .writeSlice a b => do let d ← writeSlice S.be S.g S.xinc S.grid M S.size S.nmemb a b d; return (M, d)
  | .read => readOLattice S.be S.g S.xinc M S.size S.nmemb d
  | .readSub col color => readSub S.be S.g S.xinc M col color S.size S.nmemb d
  | .readSite c => readSite S.be S.g M S.size S.nmemb c d
  | .readSlice a b => readSlice S.be S.g S.xinc M S.size S.nmemb a b d

/-- several calls -/
def calls1 (S : Setting) : List Call → Mem → Dev → Outcome (Mem × Dev)
  | [], M, d => ok (M, d)
  | a :: as, M, d => do let r ← call1 S M d a; calls1 S as r.1 r.2

end Verif.LatticeIONet
