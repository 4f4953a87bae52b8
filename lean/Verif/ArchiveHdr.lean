import Verif.BinText
import Verif.Subset
import Mathlib.Data.Nat.Digits.Defs
/-
The header of gauge-field archives: `readArchivHeader`, `writeArchivHeader` and the XML form of the checksum in lib/qdp_iogauge.cc.

Text is a list of bytes.  `Nc = 3` and `Nd = 4` (the code aborts otherwise).  Printing and scanning of floating-point numbers are arbitrary
functions; integers are printed and scanned as the C library does, except that scanning a number too large for its type is not modelled.
-/
namespace Verif.ArchiveHdr
open Verif Outcome ByteOrder Verif.BinIO

/-! ## Text -/

/-- "BEGIN_HEADER" -/
def tBegin : List Byte := [66, 69, 71, 73, 78, 95, 72, 69, 65, 68, 69, 82]
/-- "END_HEADER" -/
def tEnd : List Byte := [69, 78, 68, 95, 72, 69, 65, 68, 69, 82]
/-- "CHECKSUM" -/
def tChecksum : List Byte := [67, 72, 69, 67, 75, 83, 85, 77]
/-- "LINK_TRACE" -/
def tLink : List Byte := [76, 73, 78, 75, 95, 84, 82, 65, 67, 69]
/-- "PLAQUETTE" -/
def tPlaq : List Byte := [80, 76, 65, 81, 85, 69, 84, 84, 69]
/-- "DATATYPE" -/
def tDatatype : List Byte := [68, 65, 84, 65, 84, 89, 80, 69]
/-- "4D_SU3_GAUGE" -/
def tSu3 : List Byte := [52, 68, 95, 83, 85, 51, 95, 71, 65, 85, 71, 69]
/-- "4D_SU3_GAUGE_3x3" -/
def tSu3x3 : List Byte := [52, 68, 95, 83, 85, 51, 95, 71, 65, 85, 71, 69, 95, 51, 120, 51]
/-- "4D_SU4_GAUGE" -/
def tSu4 : List Byte := [52, 68, 95, 83, 85, 52, 95, 71, 65, 85, 71, 69]
/-- "HDR_VERSION" -/
def tVersion : List Byte := [72, 68, 82, 95, 86, 69, 82, 83, 73, 79, 78]
/-- "STORAGE_FORMAT" -/
def tStorage : List Byte := [83, 84, 79, 82, 65, 71, 69, 95, 70, 79, 82, 77, 65, 84]
/-- "1.0" -/
def tOne : List Byte := [49, 46, 48]
/-- "DIMENSION_" -/
def tDim : List Byte := [68, 73, 77, 69, 78, 83, 73, 79, 78, 95]
/-- "BOUNDARY_" -/
def tBound : List Byte := [66, 79, 85, 78, 68, 65, 82, 89, 95]
/-- "PERIODIC" -/
def tPer : List Byte := [80, 69, 82, 73, 79, 68, 73, 67]
/-- "ANTIPERIODIC" -/
def tAnti : List Byte := [65, 78, 84, 73, 80, 69, 82, 73, 79, 68, 73, 67]
/-- "ENSEMBLE_ID" -/
def tId : List Byte := [69, 78, 83, 69, 77, 66, 76, 69, 95, 73, 68]
/-- "ENSEMBLE_LABEL" -/
def tLabel : List Byte := [69, 78, 83, 69, 77, 66, 76, 69, 95, 76, 65, 66, 69, 76]
/-- "SEQUENCE_NUMBER" -/
def tSeq : List Byte := [83, 69, 81, 85, 69, 78, 67, 69, 95, 78, 85, 77, 66, 69, 82]
/-- "CREATOR" -/
def tCreator : List Byte := [67, 82, 69, 65, 84, 79, 82]
/-- "CREATOR_MACHINE" -/
def tMachine : List Byte := [67, 82, 69, 65, 84, 79, 82, 95, 77, 65, 67, 72, 73, 78, 69]
/-- "CREATOR_HARDWARE" -/
def tHardware : List Byte := [67, 82, 69, 65, 84, 79, 82, 95, 72, 65, 82, 68, 87, 65, 82, 69]
/-- "CREATION_DATE" -/
def tCreation : List Byte := [67, 82, 69, 65, 84, 73, 79, 78, 95, 68, 65, 84, 69]
/-- "ARCHIVE_DATE" -/
def tArchive : List Byte := [65, 82, 67, 72, 73, 86, 69, 95, 68, 65, 84, 69]
/-- "FLOATING_POINT" -/
def tFloat : List Byte := [70, 76, 79, 65, 84, 73, 78, 71, 95, 80, 79, 73, 78, 84]
/-- "IEEE32BIG" -/
def t32big : List Byte := [73, 69, 69, 69, 51, 50, 66, 73, 71]
/-- "IEEE32" -/
def t32 : List Byte := [73, 69, 69, 69, 51, 50]
/-- "IEEE64BIG" -/
def t64big : List Byte := [73, 69, 69, 69, 54, 52, 66, 73, 71]
/-- " = " -/
def tEq : List Byte := [32, 61, 32]

/-- `isspace` -/
def isSpace (b : Byte) : Bool := b = 32 || (9 ≤ b.toNat && b.toNat ≤ 13)

/-- the character of a digit -/
def digitByte (d : Nat) : Byte := if d < 10 then BitVec.ofNat 8 (48 + d) else BitVec.ofNat 8 (87 + d)
/-- the value of a digit character in base 10 or 16 -/
def digitVal (base : Nat) (b : Byte) : Option Nat :=
  if 48 ≤ b.toNat ∧ b.toNat ≤ 57 then some (b.toNat - 48)
  else if base = 16 ∧ 97 ≤ b.toNat ∧ b.toNat ≤ 102 then some (b.toNat - 87)
  else if base = 16 ∧ 65 ≤ b.toNat ∧ b.toNat ≤ 70 then some (b.toNat - 55)
  else none

/-- `ostream << n` for an unsigned number, in base 10 or 16 (lower case, no prefix) -/
def showNat (base n : Nat) : List Byte := if n = 0 then [48] else ((Nat.digits base n).reverse).map digitByte
/-- `ostream << z` for an `int` -/
def showInt (z : Int) : List Byte := if z < 0 then 45 :: showNat 10 z.natAbs else showNat 10 z.natAbs

/-- the digits at the front of a text, and the rest -/
def takeDigits (base : Nat) : List Byte → List Nat × List Byte
  | [] => ([], [])
  | b :: t => match digitVal base b with
    | some d => (d :: (takeDigits base t).1, (takeDigits base t).2)
    | none => ([], b :: t)

/-- a number at the front of a text -/
def scanNat (base : Nat) (l : List Byte) : Option (Nat × List Byte) :=
  if (takeDigits base l).1 = [] then none else some ((takeDigits base l).1.foldl (fun a d => a * base + d) 0, (takeDigits base l).2)

/-- `%d` -/
def scanInt (l : List Byte) : Option (Int × List Byte) :=
  match l.dropWhile isSpace with
  | [] => none
  | b :: t => if b = 45 then (scanNat 10 t).map (fun r => (-(r.1 : Int), r.2))
      else if b = 43 then (scanNat 10 t).map (fun r => ((r.1 : Int), r.2))
      else (scanNat 10 (b :: t)).map (fun r => ((r.1 : Int), r.2))

/-- the `0x` that `%x` accepts before the digits -/
def skip0x : List Byte → List Byte
  | b0 :: b1 :: b2 :: t => if b0 = 48 ∧ (b1 = 120 ∨ b1 = 88) ∧ (digitVal 16 b2).isSome then b2 :: t else b0 :: b1 :: b2 :: t
  | l => l
/-- `%lx` (64-bit `unsigned long`; a sign is not modelled: the conversion fails) -/
def scanHex (l : List Byte) : Option (Nat × List Byte) := scanNat 16 (skip0x (l.dropWhile isSpace))

/-- printing and scanning (`%lf`, after white space) of `double` -/
structure Dbl (D : Type) where
  print : D → List Byte
  scan : List Byte → Option (D × List Byte)

/-- the parts of a `sscanf` format -/
inductive Dir where
  | ch (b : Byte)
  | ws
  | d
  | x
  | f
/-- converted values -/
inductive Val (D : Type) where
  | int (z : Int)
  | hex (n : Nat)
  | dbl (y : D)

/-- `sscanf`: the values converted before the first failure (their number is what the call returns) -/
def sscanf {D : Type} (B : Dbl D) : List Dir → List Byte → List (Val D)
  | [], _ => []
  | .ch b :: fs, l => match l with
    | [] => []
    | c :: t => if c = b then sscanf B fs t else []
  | .ws :: fs, l => sscanf B fs (l.dropWhile isSpace)
  | .d :: fs, l => match scanInt l with
    | some (z, t) => .int z :: sscanf B fs t
    | none => []
  | .x :: fs, l => match scanHex l with
    | some (n, t) => .hex n :: sscanf B fs t
    | none => []
  | .f :: fs, l => match B.scan (l.dropWhile isSpace) with
    | some (y, t) => .dbl y :: sscanf B fs t
    | none => []

/-- a format that starts with the characters of `k` -/
def key (k : List Byte) (fs : List Dir) : List Dir := k.map .ch ++ fs
/-- " = %…" -/
def eqn (dir : Dir) : List Dir := [.ws, .ch 61, .ws, dir]

/-! ## Model -/

/-- `ArchivGauge_t`, include/qdp_iogauge.h -/
structure Hdr (D : Type) where
  mat : Nat
  fsize : Nat
  nrow : List Int
  boundary : List Int
  plaq : D
  link : D
  checksum : BitVec 32
  id : List Byte
  label : List Byte
  creator : List Byte
  hardware : List Byte
  creation : List Byte
  archive : List Byte
  seq : Int

variable {D : Type}

/-- a line `k = v` -/
def eqLine (k v : List Byte) : List Byte := k ++ tEq ++ v

/-- the boundary lines, lib/qdp_iogauge.cc:631-640; `i` counts from 0 -/
def boundLine (h : Hdr D) (i : Nat) : Outcome (List Byte) := do
  let b ← rd h.boundary i
  if b = 1 then ok (eqLine (tBound ++ showNat 10 (i + 1)) tPer)
  else if b = -1 then ok (eqLine (tBound ++ showNat 10 (i + 1)) tAnti)
  else abort

/-- the lattice size lines, lib/qdp_iogauge.cc:628-629 -/
def dimLine (L : List Nat) (i : Nat) : Outcome (List Byte) := do
  let n ← rd L i
  ok (eqLine (tDim ++ showNat 10 (i + 1)) (showNat 10 n))

/-- the lines of `writeArchivHeader`, lib/qdp_iogauge.cc:599-654; `L` is `Layout::lattSize()` -/
def hdrLines (B : Dbl D) (L : List Nat) (h : Hdr D) : Outcome (List (List Byte)) := do
  let dims ← Subset.mapO (dimLine L) (List.range 4)
  let bounds ← Subset.mapO (boundLine h) (List.range 4)
  ok ([tBegin, eqLine tChecksum (showNat 16 h.checksum.toNat), eqLine tLink (B.print h.link), eqLine tPlaq (B.print h.plaq),
      eqLine tDatatype tSu3, eqLine tVersion tOne, eqLine tStorage tOne] ++ dims ++ bounds ++
    [eqLine tId h.id, eqLine tLabel h.label, eqLine tSeq (showInt h.seq), eqLine tCreator h.creator, eqLine tHardware h.hardware,
      eqLine tCreation h.creation, eqLine tArchive h.archive, eqLine tFloat t32big, tEnd])

/-- `writeArchivHeader`: the text is written in one piece -/
def writeHdr (be : Bool) (B : Dbl D) (L : List Nat) (h : Hdr D) (d : Dev) : Outcome Dev :=
  if L.length ≠ 4 then abort else do
    let ls ← hdrLines B L h
    let text := ls.flatMap (· ++ [10])
    let r ← writeArray be text 1 text.length d
    ok r.2

/-- the first token of a line (`%s`), lib/qdp_iogauge.cc:258-264 -/
def token (line : List Byte) : List Byte := (line.dropWhile isSpace).takeWhile (fun b => !isSpace b)
/-- what follows the first `=`, if there is one -/
def afterEq : List Byte → Option (List Byte)
  | [] => none
  | b :: t => if b = 61 then some t else afterEq t
/-- the value of a line: what follows `=` without leading blanks, lib/qdp_iogauge.cc:266-287 -/
def valueOf (t : List Byte) : List Byte := t.dropWhile (· = 32)

/-- lib/qdp_iogauge.cc:290-326 (`Nc = 3`) -/
def onDatatype (tok value : List Byte) (h : Hdr D) : Outcome (Hdr D) :=
  if tok = tDatatype then
    if value = tSu3x3 then ok { h with mat := 18 }
    else if value = tSu3 then ok { h with mat := 12 }
    else abort
  else ok h

/-- lib/qdp_iogauge.cc:329-353: plaquette, link, checksum, sequence number -/
def onNumbers (B : Dbl D) (line : List Byte) (h : Hdr D) : Hdr D :=
  let h := match sscanf B (key tPlaq (eqn .f)) line with | [.dbl y] => { h with plaq := y } | _ => h
  let h := match sscanf B (key tLink (eqn .f)) line with | [.dbl y] => { h with link := y } | _ => h
  let h := match sscanf B (key tChecksum (eqn .x)) line with | [.hex n] => { h with checksum := BitVec.ofNat 32 n } | _ => h
  match sscanf B (key tSeq (eqn .d)) line with | [.int z] => { h with seq := z } | _ => h

/-- lib/qdp_iogauge.cc:355-395: labels -/
def onLabels (tok value : List Byte) (h : Hdr D) : Hdr D :=
  let h := if tok = tLabel then { h with label := value } else h
  let h := if tok = tId then { h with id := value } else h
  let h := if tok = tCreator then { h with creator := value } else h
  let h := if tok = tMachine then { h with hardware := value } else h
  let h := if tok = tHardware then { h with hardware := value } else h
  let h := if tok = tCreation then { h with creation := value } else h
  if tok = tArchive then { h with archive := value } else h

/-- the lattice sizes found so far and their number -/
abbrev Sizes := List (Option Int) × Nat

/-- lib/qdp_iogauge.cc:397-409 -/
def onDim (B : Dbl D) (line : List Byte) (s : Sizes) : Outcome Sizes :=
  match sscanf B (key tDim ([.d] ++ eqn .d)) line with
  | [.int dd, .int z] => if dd < 1 ∨ dd > 4 then abort else ok (s.1.set (dd - 1).toNat (some z), s.2 + 1)
  | _ => ok s

/-- lib/qdp_iogauge.cc:411-422 -/
def onBound (B : Dbl D) (line : List Byte) (h : Hdr D) : Outcome (Hdr D) :=
  match sscanf B (key tBound ([.d] ++ eqn .d)) line with
  | [.int dd, .int z] =>
    if dd < 1 ∨ dd > 4 then abort
    else if h.boundary.length ≤ (dd - 1).toNat then ub
    else ok { h with boundary := h.boundary.set (dd - 1).toNat z }
  | _ => ok h

/-- lib/qdp_iogauge.cc:424-440 -/
def onFloat (tok value : List Byte) (h : Hdr D) : Outcome (Hdr D) :=
  if tok = tFloat then
    if value = t32big ∨ value = t32 then ok { h with fsize := 4 }
    else if value = t64big then ok { h with fsize := 8 }
    else abort
  else ok h

/-- one line of the header, lib/qdp_iogauge.cc:253-440 -/
def hdrLine (B : Dbl D) (line : List Byte) (st : Hdr D × Sizes) : Outcome (Hdr D × Sizes) :=
  if token line = [] then abort else
  match afterEq line with
  | none => abort
  | some t => do
    let h ← onDatatype (token line) (valueOf t) st.1
    let h := onLabels (token line) (valueOf t) (onNumbers B line h)
    let s ← onDim B line st.2
    let h ← onBound B line h
    let h ← onFloat (token line) (valueOf t) h
    ok (h, s)

/-- the loop over the lines, lib/qdp_iogauge.cc:246-441.  After a failed read (`failed`) every further one gives an empty line, which is
rejected.  The fuel is the number of bytes of the file: every accepted line is not empty. -/
def hdrLoop (B : Dbl D) : Nat → Hdr D × Sizes → Bool → Dev → Outcome ((Hdr D × Sizes) × Dev)
  | 0, _, _, _ => ub
  | fuel + 1, st, failed, d =>
    if failed then abort else do
    let r ← readLine 128 d
    if r.1 = tEnd then ok (st, r.2.2) else do
    let st ← hdrLine B r.1 st
    hdrLoop B fuel st r.2.1 r.2.2

/-- the comparison with `Layout::lattSize()`, lib/qdp_iogauge.cc:452-457; an entry never set is read uninitialised -/
def checkSizes : List (Option Int) → List Nat → Outcome (List Int)
  | [], [] => ok []
  | some z :: zs, l :: ls => if z ≠ (l : Int) then abort else do let r ← checkSizes zs ls; ok (z :: r)
  | _, _ => ub

/-- `readArchivHeader`, lib/qdp_iogauge.cc:212-458; `h0` is the header object passed by the caller -/
def readHdr (B : Dbl D) (L : List Nat) (h0 : Hdr D) (d : Dev) : Outcome (Hdr D × Dev) :=
  if L.length ≠ 4 then abort else do
  let r ← readLine 128 d
  if r.1 ≠ tBegin then abort else do
  let q ← hdrLoop B (d.data.length + 1) ({ h0 with mat := 18 }, (List.replicate 4 none, 0)) r.2.1 r.2.2
  if q.1.2.2 ≠ 4 then abort else do
  let nrow ← checkSizes q.1.2.1 L
  ok ({ q.1.1 with nrow := nrow }, q.2)

/-- the checksum in the XML form of the header: written in hexadecimal (lib/qdp_iogauge.cc:183-189) and read with `>>`, i.e. in decimal, 0
on failure (154-160) -/
def xmlChecksum (c : BitVec 32) : BitVec 32 :=
  match scanNat 10 (showNat 16 c.toNat) with
  | some (n, _) => BitVec.ofNat 32 n
  | none => 0

end Verif.ArchiveHdr
