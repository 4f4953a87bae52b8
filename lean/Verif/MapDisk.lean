import Verif.MapObj
/-
Map objects kept in a file: include/qdp_map_obj_disk.h, lib/qdp_map_obj_disk.cc, and the stream below them,
BinaryReaderWriter/BinaryFileReaderWriter, lib/qdp_io.cc:1453-1643.

The view of the primary node; the debugging level is 0 (no diagnostics, no sanity checks), so the timers are left out.  The stream is
`BinIO.Dev`: one position for reading and writing, as `std::fstream` has.  Writing to a stream opened for reading only is `ub` here
(the C++ stream goes into a failed state).  File names and the file system are a function from names to contents; other failures of
the operating system are left out.
-/
namespace Verif.MapDisk
open Verif Outcome ByteOrder Verif.BinIO Verif.MapObj

/-- what the behaviour depends on besides the object: byte order, the width of `std::streamoff`, what an integer division by zero does
(undefined in C++; `div0 = true` is a machine on which it gives quotient 0 and the dividend as remainder), and the order in which
`std::unordered_map` is traversed -/
structure Plat where
  be : Bool
  bits : Nat
  div0 : Bool
  iter : List (List Byte × (Nat × Nat)) → List (List Byte × (Nat × Nat))

/-! ## file positions -/

/-- conversion of a `uint64_t` to `std::streamoff` -/
def offOf (w : Nat) (n : Nat) : Int := Int.bmod n (2 ^ w)
/-- a result of signed arithmetic in `std::streamoff` -/
def ckOff (w : Nat) (x : Int) : Outcome Int := if -2 ^ (w - 1) ≤ x ∧ x < 2 ^ (w - 1) then ok x else ub
/-- conversion to `uint64_t` -/
def u64 (x : Int) : Nat := (x % 2 ^ 64).toNat

/-- `max_uint64`, include/qdp_map_obj_disk.h:213, 225 -/
def maxU (P : Plat) : Outcome Int := ckOff P.bits (offOf P.bits (2 ^ 64 - 1) + 1)

/-- remainder and quotient, include/qdp_map_obj_disk.h:214-215 -/
def divmod (P : Plat) (x m : Int) : Outcome (Nat × Nat) :=
  if m = 0 then if P.div0 then ok (u64 x, 0) else ub
  else ok (u64 (x.tmod m), u64 (x.tdiv m))

/-- `convertToPrivate`, include/qdp_map_obj_disk.h:208-218 -/
def toPrivate (P : Plat) (pos : Nat) : Outcome (Nat × Nat) := do
  let m ← maxU P
  let r ← divmod P pos m
  ok (if P.be then (r.2, r.1) else (r.1, r.2))

/-- `convertFromPrivate`, include/qdp_map_obj_disk.h:221-231 -/
def fromPrivate (P : Plat) (p : Nat × Nat) : Outcome Int := do
  let m ← maxU P
  let lo := if P.be then p.2 else p.1
  let hi := if P.be then p.1 else p.2
  let t ← ckOff P.bits (offOf P.bits hi * m)
  ckOff P.bits (offOf P.bits lo + t)

/-! ## small records -/

/-- a 64-bit number, most significant byte first -/
def be64 (n : Nat) : List Byte :=
  [BitVec.ofNat 8 (n / 2 ^ 56), BitVec.ofNat 8 (n / 2 ^ 48), BitVec.ofNat 8 (n / 2 ^ 40), BitVec.ofNat 8 (n / 2 ^ 32),
   BitVec.ofNat 8 (n / 2 ^ 24), BitVec.ofNat 8 (n / 2 ^ 16), BitVec.ofNat 8 (n / 2 ^ 8), BitVec.ofNat 8 n]

/-- image of a `uint64_t` in memory, and back -/
def store64 (be : Bool) (n : Nat) : List Byte := host be (be64 n)
def load64 (be : Bool) (m : List Byte) : Nat := (host be m).foldl (fun a b => a * 256 + b.toNat) 0

/-- `write(streamer, unsigned int)`/`read`, lib/qdp_io.cc:1116-1119, 663-666 -/
def u32C : Codec (BitVec 32) where
  write be w d := do
    let (_, d) ← writeArray be (store32 be w) 4 1 d
    ok d
  read be d := do
    let (m, d) ← readArray be 4 1 d
    match m with
    | [b0, b1, b2, b3] => ok (load32 be b0 b1 b2 b3, d)
    | _ => ub

/-- `streamer.writeArray((char *)&pos, sizeof(priv_pos_type_t), 1)` and `readArray`, include/qdp_map_obj_disk.h:322, 818, 859, 897, 963 -/
def posC : Codec (Nat × Nat) where
  write be p d := do
    let (_, d) ← writeArray be (store64 be p.1 ++ store64 be p.2) 16 1 d
    ok d
  read be d := do
    let (m, d) ← readArray be 16 1 d
    ok ((load64 be (m.take 8), load64 be (m.drop 8)), d)

/-- `file_magic`, lib/qdp_map_obj_disk.cc:16: XXXXQDPLazyDiskMapObjFileXXXX -/
def magic : List Byte :=
  [0x58, 0x58, 0x58, 0x58, 0x51, 0x44, 0x50, 0x4c, 0x61, 0x7a, 0x79, 0x44, 0x69, 0x73, 0x6b, 0x4d, 0x61, 0x70, 0x4f, 0x62, 0x6a, 0x46,
   0x69, 0x6c, 0x65, 0x58, 0x58, 0x58, 0x58]

/-! ## the object -/

/-- include/qdp_map_obj_disk.h:139 -/
inductive St | init | unchanged | modified
deriving DecidableEq

/-- the members of `MapObjectDisk`, include/qdp_map_obj_disk.h:141-160; `dev` and `rw` are the stream, when open.  `log` is not in the
program: it records position and bytes of each write issued to the file, for reasoning about crashes. -/
structure Obj where
  st : St
  map : List (List Byte × (Nat × Nat))
  user : List Byte
  name : String
  dev : Option Dev
  rw : Bool
  log : List (Nat × List Byte)

/-- the constructor, include/qdp_map_obj_disk.h:40 -/
def Obj.fresh : Obj := ⟨.init, [], [], "", none, false, []⟩

/-- a write to the stream -/
def emit (f : Dev → Outcome Dev) (o : Obj) : Outcome Obj :=
  match o.dev with
  | none => ub
  | some d => if o.rw = false then ub else do
      let d' ← f d
      ok { o with dev := some d', log := o.log ++ [(d.pos, (d'.data.drop d.pos).take (d'.pos - d.pos))] }

/-- a read from the stream -/
def fetch {α : Type} (f : Dev → Outcome (α × Dev)) (o : Obj) : Outcome (α × Obj) :=
  match o.dev with
  | none => ub
  | some d => do
      let (x, d) ← f d
      ok (x, { o with dev := some d })

/-- `seek`, lib/qdp_io.cc:1493-1499; a negative position puts the stream into a failed state -/
def seek (p : Int) (o : Obj) : Outcome Obj :=
  match o.dev with
  | none => ub
  | some d => if p < 0 then ub else ok { o with dev := some { d with pos := p.toNat, crc := 0 } }

/-- `seekEnd(0)`, lib/qdp_io.cc:1520-1526 -/
def seekEnd (o : Obj) : Outcome Obj :=
  match o.dev with
  | none => ub
  | some d => ok { o with dev := some { d with pos := d.data.length, crc := 0 } }

/-- `rewind`, lib/qdp_io.cc:1529-1535 -/
def rewind (o : Obj) : Outcome Obj := seek 0 o

/-- `resetChecksum`, lib/qdp_io.cc:1476-1479 -/
def resetChecksum (o : Obj) : Outcome Obj :=
  match o.dev with
  | none => ub
  | some d => ok { o with dev := some { d with crc := 0 } }

/-- `currentPosition`, lib/qdp_io.cc:1482-1490 -/
def currentPosition (o : Obj) : Outcome Nat :=
  match o.dev with
  | none => ub
  | some d => ok d.pos

/-- `getChecksum`, lib/qdp_io.cc:1465-1473 -/
def getChecksum (o : Obj) : Outcome (BitVec 32) :=
  match o.dev with
  | none => ub
  | some d => ok d.crc

/-- `openWrite`, include/qdp_map_obj_disk.h:252-357, after the stream was opened on an empty file -/
def openWrite (P : Plat) (name : String) (o : Obj) : Outcome Obj :=
  match o.st with
  | .init => do
      let o : Obj := ⟨o.st, o.map, o.user, name, some ⟨[], 0, 0⟩, true, []⟩
      let o ← emit (descC.write P.be magic) o
      let o ← emit (u32C.write P.be 1) o
      let o ← emit (descC.write P.be o.user) o
      let p ← currentPosition o
      let q ← toPrivate P p
      let o ← emit (posC.write P.be q) o
      ok { o with st := .modified }
  | _ => abort

/-- `readCheckHeader`, include/qdp_map_obj_disk.h:774-835; the version read is not used -/
def readCheckHeader (P : Plat) (o : Obj) : Outcome ((Nat × Nat) × Obj) := do
  let o ← rewind o
  let (m, o) ← fetch (descC.read P.be) o
  if m ≠ magic then abort else do
    let (_, o) ← fetch (u32C.read P.be) o
    let (u, o) ← fetch (descC.read P.be) o
    let o := { o with user := u }
    fetch (posC.read P.be) o

/-- the loop of `readMapBinary`, include/qdp_map_obj_disk.h:891-904 -/
def readEntries (P : Plat) : Nat → Obj → Outcome Obj
  | 0, o => ok o
  | n + 1, o => do
      let (kb, o) ← fetch (descC.read P.be) o
      let (q, o) ← fetch (posC.read P.be) o
      readEntries P n { o with map := insertNew o.map kb q }

/-- `readMapBinary`, include/qdp_map_obj_disk.h:873-920 -/
def readMapBinary (P : Plat) (md : Nat × Nat) (o : Obj) : Outcome Obj := do
  let p ← fromPrivate P md
  let o ← seek p o
  let o ← resetChecksum o
  let (n, o) ← fetch (u32C.read P.be) o
  let o ← readEntries P n.toNat o
  let sum ← getChecksum o
  let (rdc, o) ← fetch (u32C.read P.be) o
  if rdc ≠ sum then abort else ok o

/-- `openRead`, include/qdp_map_obj_disk.h:363-397, after the stream was opened on a file with contents `data` -/
def openRead (P : Plat) (name : String) (rw : Bool) (data : List Byte) (o : Obj) : Outcome Obj :=
  match o.st with
  | .init => do
      let o : Obj := ⟨o.st, o.map, o.user, name, some ⟨data, 0, 0⟩, rw, []⟩
      let (md, o) ← readCheckHeader P o
      let o ← readMapBinary P md o
      ok { o with st := .unchanged }
  | _ => abort

/-- `in`, `in|out` and `in|out|trunc` -/
inductive Mode | rd | rw | new
deriving DecidableEq

/-- contents of the files -/
abbrev Fs := String → Option (List Byte)

/-- `open`, include/qdp_map_obj_disk.h:235-248, with `checkForNewFile`, lib/qdp_map_obj_disk.cc:49-67, and
`BinaryFileReaderWriter::open`, lib/qdp_io.cc:1597-1605.  A file that does not exist is not created without `trunc`: the program stops. -/
def «open» (P : Plat) (fs : Fs) (name : String) (mode : Mode) (o : Obj) : Outcome Obj :=
  match mode with
  | .new => openWrite P name o
  | .rd => match fs name with
      | none => abort
      | some data => openRead P name false data o
  | .rw => match fs name with
      | none => abort
      | some data => openRead P name true data o

/-- `insertUserdata`, include/qdp_map_obj_disk.h:482-503; the number is the return code -/
def insertUserdata (u : List Byte) (o : Obj) : Nat × Obj :=
  match o.st with
  | .init => (0, { o with user := u })
  | _ => (1, o)

/-- `getUserdata`, include/qdp_map_obj_disk.h:512-536 -/
def getUserdata (o : Obj) : Option (List Byte) :=
  match o.st with
  | .init => none
  | _ => some o.user

/-- the loop of `writeMapBinary`, include/qdp_map_obj_disk.h:852-864 -/
def writeEntries (be : Bool) : List (List Byte × (Nat × Nat)) → Dev → Outcome Dev
  | [], d => ok d
  | e :: t, d => do
      let d ← descC.write be e.1 d
      let d ← posC.write be e.2 d
      writeEntries be t d

/-- `writeMapBinary`, include/qdp_map_obj_disk.h:840-868 -/
def writeMapBinary (P : Plat) (o : Obj) : Outcome Obj := do
  let o ← resetChecksum o
  let o ← emit (u32C.write P.be (BitVec.ofNat 32 o.map.length)) o
  let o ← emit (writeEntries P.be (P.iter o.map)) o
  let c ← getChecksum o
  emit (u32C.write P.be c) o

/-- `writeSkipHeader`, include/qdp_map_obj_disk.h:746-771 -/
def writeSkipHeader (o : Obj) : Outcome Obj :=
  match o.st with
  | .modified => seek (magic.length + 4 + o.user.length + 4 + 4) o
  | _ => abort

/-- `closeWrite`, include/qdp_map_obj_disk.h:929-980 -/
def closeWrite (P : Plat) (o : Obj) : Outcome Obj :=
  match o.st with
  | .modified => do
      let o ← seekEnd o
      let p ← currentPosition o
      let q ← toPrivate P p
      let o ← writeMapBinary P o
      let o ← rewind o
      let o ← writeSkipHeader o
      let o ← emit (posC.write P.be q) o
      seekEnd o
  | _ => abort

/-- `flush`, include/qdp_map_obj_disk.h:438-454 -/
def flush (P : Plat) (o : Obj) : Outcome Obj :=
  match o.st with
  | .modified => do
      let o ← closeWrite P o
      ok { o with st := .unchanged }
  | _ => ok o

/-- the file system after the writes issued so far reached it -/
def sync (fs : Fs) (o : Obj) : Fs :=
  match o.dev with
  | none => fs
  | some d => fun n => if n = o.name then some d.data else fs n

/-- `close`, include/qdp_map_obj_disk.h:402-426: `src_map` and `user_data` keep their values -/
def close (P : Plat) (fs : Fs) (o : Obj) : Outcome (Fs × Obj) :=
  match o.st with
  | .unchanged => ok (sync fs o, { o with st := .init, dev := none })
  | .modified => do
      let o ← closeWrite P o
      ok (sync fs o, { o with st := .init, dev := none })
  | .init => ok (fs, o)

section
variable {K V : Type} (kc : Codec K) (vc : Codec V)

/-- value and checksum written by `insert`, include/qdp_map_obj_disk.h:567-573, 592-615 -/
def writeRecord (P : Plat) (v : V) (o : Obj) : Outcome Obj := do
  let o ← resetChecksum o
  let o ← emit (vc.write P.be v) o
  let c ← getChecksum o
  emit (u32C.write P.be c) o

/-- `insert`, include/qdp_map_obj_disk.h:541-633; the number is the return code -/
def insert (P : Plat) (k : K) (v : V) (o : Obj) : Outcome (Nat × Obj) :=
  match o.st with
  | .init => ok (1, o)
  | _ => do
      let kb ← bufBytes kc P.be k
      match find o.map kb with
      | some q => do
          let p ← fromPrivate P q
          let o ← seek p o
          let o ← writeRecord vc P v o
          ok (0, { o with st := .modified })
      | none => do
          let p ← currentPosition o
          let q ← toPrivate P p
          let o := { o with map := insertNew o.map kb q }
          let o ← writeRecord vc P v o
          ok (0, { o with st := .modified })

/-- `get`, include/qdp_map_obj_disk.h:640-723; `none` is the return value 1, and the caller's variable keeps its value -/
def get (P : Plat) (k : K) (o : Obj) : Outcome (Option V × Obj) :=
  match o.st with
  | .init => ok (none, o)
  | _ => do
      let kb ← bufBytes kc P.be k
      match find o.map kb with
      | some q => do
          let p ← fromPrivate P q
          let o ← seek p o
          let o ← resetChecksum o
          let (v, o) ← fetch (vc.read P.be) o
          let sum ← getChecksum o
          let (rdc, o) ← fetch (u32C.read P.be) o
          if rdc ≠ sum then abort else ok (some v, o)
      | none => ok (none, o)

/-- `exist`, include/qdp_map_obj_disk.h:731-738 -/
def exist (P : Plat) (k : K) (o : Obj) : Outcome Bool := do
  let kb ← bufBytes kc P.be k
  ok (find o.map kb).isSome

/-- `size`, include/qdp_map_obj_disk.h:96 -/
def size (o : Obj) : Nat := o.map.length % 2 ^ 32

/-- the loop of `keys`, include/qdp_map_obj_disk.h:464-473.  `BinaryBufferReader(const std::string&)` leaves its checksum
uninitialised (lib/qdp_io.cc:920); the value read does not depend on it, and it is 0 here. -/
def readKeys (be : Bool) : List (List Byte × (Nat × Nat)) → Outcome (List K)
  | [] => ok []
  | e :: t => do
      let (k, _) ← kc.read be ⟨e.1, 0, 0⟩
      let r ← readKeys be t
      ok (k :: r)

/-- `keys`, include/qdp_map_obj_disk.h:458-475: appends to the caller's vector -/
def keys (P : Plat) (acc : List K) (o : Obj) : Outcome (List K) :=
  match o.dev with
  | none => ok acc
  | some _ => do
      let r ← readKeys kc P.be (P.iter o.map)
      ok (acc ++ r)
end

end Verif.MapDisk
