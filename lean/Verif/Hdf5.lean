import Verif.QioField
/-
Fields in HDF5 files: include/qdp_hdf5.h:90-126, 653-879, 1359-1471 and lib/qdp_hdf5.cc:279-298, 770-1329, 2155-2237, 2239-2632.

HDF5 itself is not part of the repository.  What is taken of it: a data set is an array of elements, an element is a fixed number of floating-point
numbers of 4 or 8 bytes; a new data set is filled with zeros; `H5Dwrite` and `H5Dread` move the elements of a block of the array from and to
memory in row-major order and change between the order of bytes of the file and that of the machine; a block that is not inside the array makes the
call fail.  The nodes write disjoint blocks (this is proved below), so they are taken one after the other.  `size_t` and `hsize_t` are natural
numbers.  Words, site types, conversions between words and the meaning of `HoldsT` are those of QioField.
-/
namespace Verif.Hdf5
open Verif Outcome ByteOrder Verif.Layout Verif.ParLayout Verif.Subset Verif.BinIO Verif.LatticeIO Verif.QioField

/-! ## HDF5 -/

/-- types of elements: a number, or what is made by `createColorMatrixType` and `createPropagatorType`, lib/qdp_hdf5.cc:306-318, 352-360, 387-395 -/
inductive Kind | real | colmat (r : Nat) | prop (s r : Nat)
  deriving DecidableEq

/-- numbers in an element -/
def Kind.n : Kind → Nat
  | .real => 1
  | .colmat r => 2 * (r * r)
  | .prop s r => s * s * (2 * (r * r))

/-- a data set: numbers of `w` bytes, most significant byte first; `float`: floating-point numbers -/
structure Dset where
  kind : Kind
  float : Bool
  w : Nat
  dims : List Nat
  data : List Nat → List (List Byte)

/-- `H5Tget_size` -/
def Dset.elem (D : Dset) : Nat := D.w * D.kind.n

/-- the block of `cnt` elements from `off` is inside the array -/
def fits : List Nat → List Nat → List Nat → Bool
  | [], [], [] => true
  | o :: os, c :: cs, d :: ds => decide (o + c ≤ d) && fits os cs ds
  | _, _, _ => false

/-- `ix` is in the block -/
def inBlock : List Nat → List Nat → List Nat → Bool
  | [], [], [] => true
  | i :: is, o :: os, c :: cs => decide (o ≤ i) && decide (i < o + c) && inBlock is os cs
  | _, _, _ => false

/-- place of an element in row-major order -/
def pos : List Nat → List Nat → Nat
  | i :: is, _ :: ds => i * nsites ds + pos is ds
  | _, _ => 0

/-- the element at a place -/
def unpos : Nat → List Nat → List Nat
  | _, [] => []
  | k, _ :: ds => k / nsites ds :: unpos (k % nsites ds) ds

/-- `ix - off` -/
def rel (ix off : List Nat) : List Nat := List.zipWith (· - ·) ix off

/-- `H5Dwrite` to a block -/
def h5write (be : Bool) (D : Dset) (off cnt : List Nat) (buf : List Byte) : Outcome Dset :=
  if off.length ≠ D.dims.length ∨ cnt.length ≠ D.dims.length then ub
  else if !fits off cnt D.dims then ok D
  else if buf.length < nsites cnt * D.elem then ub
  else
    let data := fun ix => if inBlock ix off cnt then (split D.w D.kind.n (buf.drop (pos (rel ix off) cnt * D.elem))).map (host be) else D.data ix
    ok { D with data := data }

/-- `H5Dread` of a block; if it fails the memory is left uninitialised -/
def h5read (be : Bool) (D : Dset) (off cnt : List Nat) : Outcome (List Byte) :=
  if off.length ≠ D.dims.length ∨ cnt.length ≠ D.dims.length then ub
  else if !fits off cnt D.dims then ub
  else ok ((List.range (nsites cnt)).flatMap fun k => mem be (D.data (addL off (unpos k cnt))))

/-! ## model -/

/-- what `Layout` tells: the sites, the machine and the extents of the part of a node -/
structure Lay where
  g : Geom
  m : Machine
  S : List Nat

/-- `prefetchLatticeCoordinates`, lib/qdp_hdf5.cc:279-298 -/
def reorder (g : Geom) (n : Nat) : Outcome (List Nat) :=
  foldO (fun acc site => do
    let c ← crtesn site g.L
    let k ← g.nodeNumber c
    if k = n then do
      let i ← g.linearSiteIndex c
      if acc.length < g.sites then ok (acc ++ [i]) else ub
    else ok acc) [] (List.range (nsites g.L))

/-- one site of `CvtToHost`: `elem` bytes of each field, elements of `size` bytes, include/qdp_hdf5.h:113-114, 121-123 -/
def siteToHost (size elem i : Nat) : List (List Byte) → Outcome (List Byte)
  | [] => ok []
  | m :: ms => do
    let b ← sliceO m (i * size) elem
    let r ← siteToHost size elem i ms
    ok (b ++ r)

/-- `CvtToHost`, include/qdp_hdf5.h:110-126; one field is an array of one -/
def toHost (map : List Nat) (size elem nodeSites : Nat) (ms : List (List Byte)) : Outcome (List Byte) :=
  foldO (fun buf run => do
    let i ← rd map run
    let b ← siteToHost size elem i ms
    ok (buf ++ b)) [] (List.range nodeSites)

/-- one site of `CvtToLayout`, include/qdp_hdf5.h:94, 103-105; `buf` begins at the site -/
def siteToLayout (size i : Nat) : List (List Byte) → List Byte → Outcome (List (List Byte))
  | [], _ => ok []
  | m :: ms, buf => do
    let b ← sliceO buf 0 size
    let m' ← blitO m (i * size) b
    let r ← siteToLayout size i ms (buf.drop size)
    ok (m' :: r)

/-- `CvtToLayout`, include/qdp_hdf5.h:90-107 -/
def toLayout (map : List Nat) (size nodeSites : Nat) (buf : List Byte) (ms : List (List Byte)) : Outcome (List (List Byte)) :=
  foldO (fun ms run => do
    let i ← rd map run
    siteToLayout size i ms (buf.drop (run * (ms.length * size)))) ms (List.range nodeSites)

/-- `two_gb` -/
def twoGB : Nat := 2 ^ 31

/-- the loops that halve the first extent, lib/qdp_hdf5.cc:864-868, 2208-2212: total, first extent and number of halvings.  The total is below
`2^64`, so that 64 halvings are enough. -/
def halve (r : Nat) : Nat → Nat → Nat → Nat × Nat × Nat
  | 0, total, dim => (total, dim, 0)
  | k + 1, total, dim =>
    if twoGB < total * r then ((halve r k (total / 2) (dim / 2)).1, (halve r k (total / 2) (dim / 2)).2.1, (halve r k (total / 2) (dim / 2)).2.2 + 1)
    else (total, dim, 0)

/-- the additional extent, present if there is more than one element at a site, lib/qdp_hdf5.cc:817-818, 839-842, 2160-2161, 2170, 2184-2187 -/
def more (obj x : Nat) : List Nat := if obj > 1 then [x] else []

/-- the new data set, lib/qdp_hdf5.cc:2163-2171, 2193-2194 -/
def create (K : Kind) (w : Nat) (L : List Nat) (obj : Nat) : Dset :=
  ⟨K, true, w, L.reverse ++ more obj obj, fun _ => List.replicate K.n (List.replicate w 0)⟩

/-- `writeLattice` on node `n`, lib/qdp_hdf5.cc:2174-2225; `real` is `sizeof(REAL)` -/
def writeNode (real : Nat) (be : Bool) (l : Lay) (D : Dset) (obj : Nat) (buf : List Byte) (n : Nat) : Outcome Dset :=
  match (mulL (l.m.coordFrom n) l.S).reverse ++ more obj 0, l.S.reverse ++ more obj obj with
  | o :: os, d :: ds =>
    let q := halve real 64 (D.elem * obj * l.g.sites) d
    foldO (fun D i => h5write be D ((o + i * q.2.1) :: os) (q.2.1 :: ds) (buf.drop (i * q.1))) D (List.range (2 ^ q.2.2))
  | _, _ => ub

/-- `write` of fields: each node in turn; `elem` bytes are taken of each field at each site -/
def writeFields (real : Nat) (be : Bool) (l : Lay) (D : Dset) (size elem obj : Nat) (Ms : List Mem) : Outcome Dset :=
  foldO (fun D n => do
    let map ← reorder l.g n
    let buf ← toHost map size elem l.g.sites (Ms.map fun M => M n)
    writeNode real be l D obj buf n) D (List.range l.g.nodes)

/-- `write(name, OLattice<T>)` and `write(name, multi1d<OLattice<T>>)`, include/qdp_hdf5.h:1359-1471: the words are taken for words of type `REAL` -/
def write (real : Nat) (be : Bool) (l : Lay) (T : Ty) (Ms : List Mem) : Outcome Dset :=
  if real ≠ 4 ∧ real ≠ 8 then abort
  else writeFields real be l (create .real real l.g.L (T.size / real * Ms.length)) T.size (real * (T.size / real)) (T.size / real * Ms.length) Ms

/-- the writers of colour matrices, propagators and arrays of colour matrices, lib/qdp_hdf5.cc:2239-2632; `w` is the word of the matrices -/
def writeTyped (real : Nat) (be : Bool) (l : Lay) (K : Kind) (w : Word) (Ms : List Mem) : Outcome Dset :=
  writeFields real be l (create K w.size l.g.L Ms.length) (w.size * K.n) (w.size * K.n) Ms.length Ms

/-- uninitialised memory -/
def fresh (J : Nat → Byte) (k : Nat) : List Byte := (List.range k).map J

/-- the local transposition, lib/qdp_hdf5.cc:893-916, for sites of `b` bytes; the places written are all different, they are taken in their order.
The loops are for four dimensions. -/
def transpose (S : List Nat) (b : Nat) (buf : List Byte) : Outcome (List Byte) :=
  match S with
  | [s0, s1, s2, s3] => do
    let bs ← mapO (fun k => sliceO buf
      (b * (k / s0 / s1 / s2 + s3 * (k / s0 / s1 % s2 + s2 * (k / s0 % s1 + s1 * (k % s0))))) b) (List.range (s0 * (s1 * (s2 * s3))))
    ok bs.flatten
  | _ => ub

/-- `readLattice` on node `n`, lib/qdp_hdf5.cc:808-926; `base` and `float`: size of the base type and whether it is a floating-point type -/
def readLattice (be : Bool) (l : Lay) (D : Dset) (base : Nat) (float : Bool) (obj tot : Nat) (invert : Bool) (J : Nat → Byte) (n : Nat) :
    Outcome (List Byte) :=
  if base ≠ 4 ∧ base ≠ 8 then abort
  else if !float then abort
  else
    match (if invert then (mulL (l.m.coordFrom n) l.S).reverse else mulL (l.m.coordFrom n) l.S) ++ more obj 0,
      (if invert then l.S.reverse else l.S) ++ more obj obj with
    | o :: os, d :: ds => do
      let q := halve base 64 tot d
      let r ← foldO (fun (st : List Byte × List Byte) i => do
        let x ← h5read be D ((o + i * q.2.1) :: os) (q.2.1 :: ds)
        if q.1 * base < x.length then ub
        else do
          let small := x ++ st.1.drop x.length
          let buf ← blitO st.2 (i * (q.1 * base)) small
          ok (small, buf)) (fresh J (q.1 * base), fresh J (tot * base)) (List.range (2 ^ q.2.2))
      if invert then ok r.2
      else do
        let s ← cdiv tot l.g.sites
        transpose l.S (s * base) r.2
    | _, _ => ub

/-- the words of a floating-point data set -/
def fword (w : Nat) : Word := if w = 4 then .f32 else .f64

/-- conversion of precision and `CvtToLayout`, include/qdp_hdf5.h:731-752, 848-868, lib/qdp_hdf5.cc:1003-1016, 1102-1115, 1202-1215, 1306-1319 -/
def store (cv : Word → Word → List Byte → List Byte) (be : Bool) (l : Lay) (T : Ty) (base tot : Nat) (buf : List Byte) (n : Nat) (ms : List (List Byte)) :
    Outcome (List (List Byte)) := do
  let map ← reorder l.g n
  toLayout map T.size l.g.sites (if base = T.w.size then buf else castSite cv be (fword base) T.w tot buf) ms

/-- the extents of the data set are not those of the lattice, include/qdp_hdf5.h:687-700 -/
def mismatch (l : Lay) (D : Dset) (invert : Bool) : Bool :=
  decide (D.dims.take l.g.L.length ≠ if invert then l.g.L.reverse else l.g.L)

/-- `read(name, OLattice<T>, mode)` on node `n`, include/qdp_hdf5.h:653-763; `invert` is the mode `transpose_order`, the default -/
def read (cv : Word → Word → List Byte → List Byte) (be : Bool) (l : Lay) (T : Ty) (invert : Bool) (J : Nat → Byte) (D : Dset) (n : Nat) (m : List Byte) :
    Outcome (List (List Byte)) :=
  if D.elem ≠ 4 ∧ D.elem ≠ 8 then abort
  else if D.dims.length ≠ l.g.L.length + 1 then abort
  else if mismatch l D invert then abort
  else do
    let obj ← rd D.dims l.g.L.length
    let buf ← readLattice be l D D.elem (decide (D.kind = .real) && D.float) obj (obj * l.g.sites) invert J n
    store cv be l T D.elem (obj * l.g.sites) buf n [m]

/-- `read(name, multi1d<OLattice<T>>, mode)` on node `n`, include/qdp_hdf5.h:767-879 -/
def readArr (cv : Word → Word → List Byte → List Byte) (be : Bool) (l : Lay) (T : Ty) (invert : Bool) (J : Nat → Byte) (D : Dset) (n : Nat) :
    Outcome (List (List Byte)) :=
  if D.elem ≠ 4 ∧ D.elem ≠ 8 then abort
  else if D.dims.length ≠ l.g.L.length + 1 then abort
  else if mismatch l D invert then abort
  else do
    let size ← rd D.dims l.g.L.length
    let arr ← cdiv (size * T.w.size) T.size
    let obj ← cdiv size arr
    let buf ← readLattice be l D D.elem (decide (D.kind = .real) && D.float) (obj * arr) (obj * arr * l.g.sites) invert J n
    store cv be l T D.elem (obj * arr * l.g.sites) buf n (List.replicate arr (fresh J (l.g.sites * T.size)))

/-- the readers of colour matrices and propagators, lib/qdp_hdf5.cc:930-1227; `w` is the word of the field -/
def readTyped (cv : Word → Word → List Byte → List Byte) (be : Bool) (l : Lay) (K : Kind) (w : Word) (invert : Bool) (J : Nat → Byte) (D : Dset) (n : Nat)
    (m : List Byte) : Outcome (List (List Byte)) :=
  if D.kind ≠ K then abort
  else if D.dims.length ≠ l.g.L.length then abort
  else if mismatch l D invert then abort
  else do
    let buf ← readLattice be l D D.w D.float 1 (l.g.sites * K.n) invert J n
    store cv be l ⟨w, K.n⟩ D.w (l.g.sites * K.n) buf n [m]

/-- the reader of arrays of colour matrices, lib/qdp_hdf5.cc:1230-1329 -/
def readTypedArr (cv : Word → Word → List Byte → List Byte) (be : Bool) (l : Lay) (K : Kind) (w : Word) (invert : Bool) (J : Nat → Byte) (D : Dset) (n : Nat) :
    Outcome (List (List Byte)) := do
  let arr ← rd D.dims l.g.L.length
  if D.kind ≠ K then abort
  else if D.dims.length ≠ l.g.L.length + 1 then abort
  else if mismatch l D invert then abort
  else do
    let buf ← readLattice be l D D.w D.float arr (l.g.sites * arr * K.n) invert J n
    store cv be l ⟨w, K.n⟩ D.w (l.g.sites * arr * K.n) buf n (List.replicate arr (fresh J (l.g.sites * (w.size * K.n))))

end Verif.Hdf5
