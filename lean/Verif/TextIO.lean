import Verif.FloatTextThm
/-
Text files and text buffers: TextReader, TextWriter and the classes derived from them, include/qdp_io.h:20-400, lib/qdp_io.cc:13-510, and the operators for
numbers, complex numbers, vectors, matrices and seeds.

The streams are those of libstdc++ with the default flags and locale: `<<` prints floating-point numbers with six digits.  `QDPInternal::broadcast` gives
every node what the primary node has (node 0).  `operator<<(TextWriter&, char)` is declared (include/qdp_io.h:254) but not defined; `write(const char&)` is.
-/
namespace Verif.TextIO
open Verif ByteOrder Verif.ArchiveHdr Verif.XmlNum Verif.FloatText

/-! ## model -/

/-- the types of the overloads of `read` and `write`, include/qdp_io.h:57-68, 214-226; the integer types and `bool` are those of Verif.XmlNum -/
inductive Ty where
  | str
  | chr
  | num (T : Num)
  | f32
  | f64

abbrev Ty.V : Ty → Type
  | .str => List Byte
  | .chr => Byte
  | .num _ => Int
  | .f32 => Fl
  | .f64 => Fl

/-- the default precision of a stream -/
def digits : Nat := 6

/-- `getOstream() << output`, lib/qdp_io.cc:420-425: the characters -/
def shown : (t : Ty) → t.V → List Byte
  | .str, s => s
  | .chr, b => [b]
  | .num _, z => showInt z
  | .f32, x => showF digits x
  | .f64, x => showF digits x

/-- an output stream: the characters, the position, failbit -/
structure Out where
  content : List Byte
  pos : Nat
  fail : Bool

/-- characters written at the position -/
def Out.put (o : Out) (t : List Byte) : Out :=
  if o.fail then o else ⟨o.content.take o.pos ++ t ++ o.content.drop (o.pos + t.length), o.pos + t.length, false⟩

/-- `TextBufferWriter::open`, lib/qdp_io.cc:434-438: `f.str(s)` leaves the position at the beginning.  A new buffer is `openBuffer []`. -/
def Out.openBuffer (o : Out) (s : List Byte) : Out := ⟨s, 0, o.fail⟩

/-- a stream that was just constructed -/
def Out.new : Out := ⟨[], 0, false⟩

/-- `TextFileWriter::open`, lib/qdp_io.cc:471-478: the file is cut to length 0; opening a second one while the first is open sets failbit, and `is_open` is still true -/
def Out.openFile (isOpen : Bool) (o : Out) : Out := if isOpen then { o with fail := true } else ⟨[], 0, false⟩

/-- `>>` for a string: the old value stays if there is nothing but white space -/
def extractStr (s : IS) (old : List Byte) : IS × List Byte :=
  if s.eof || s.fail then ({ s with fail := true }, old)
  else
    let t := s.rest.dropWhile isSpace
    if t = [] then (⟨[], true, true⟩, old)
    else
      let rest := t.dropWhile fun b => !isSpace b
      (⟨rest, rest = [], false⟩, t.takeWhile fun b => !isSpace b)

/-- `>>` for a character -/
def extractChr (s : IS) (old : Byte) : IS × Byte :=
  if s.eof || s.fail then ({ s with fail := true }, old)
  else
    match s.rest.dropWhile isSpace with
    | [] => (⟨[], true, true⟩, old)
    | b :: t => (⟨t, false, false⟩, b)

/-- what a C string holds -/
def cString (s : List Byte) : List Byte := s.takeWhile fun b => b ≠ 0

/-- `>>` on the primary node.  A string is copied with its terminating zero and assigned from the copy, lib/qdp_io.cc:30-61. -/
def extractVal : (t : Ty) → IS → t.V → IS × t.V
  | .str, s, old => ((extractStr s old).1, cString (extractStr s old).2)
  | .chr, s, old => extractChr s old
  | .num T, s, old => XmlNum.extract T s old
  | .f32, s, old => FloatText.extract FloatText.f32 s old
  | .f64, s, old => FloatText.extract FloatText.f64 s old

/-- a variable on every node -/
abbrev NodeVal (t : Ty) : Type := Nat → t.V

/-- `QDPInternal::broadcast` -/
def broadcast {α : Type} (v : Nat → α) : Nat → α := fun _ => v 0

/-- `TextReader::read`, lib/qdp_io.cc:29-61 and 109-117 -/
def read (t : Ty) (s : IS) (v : NodeVal t) : IS × NodeVal t :=
  ((extractVal t s (v 0)).1, broadcast fun n => if n = 0 then (extractVal t s (v 0)).2 else v n)

/-- `TextReader::fail`, lib/qdp_io.cc:18-27: the answer on every node, of a variable that is not initialised -/
def failed (s : IS) (junk : Nat → Bool) : Nat → Bool := broadcast fun n => if n = 0 then s.fail else junk n

/-- `TextBufferReader::open`, lib/qdp_io.cc:186-190: `f.str(s)` does not change the state -/
def openBuffer (s : IS) (text : List Byte) : IS := { s with rest := text }

/-- `TextFileReader::open`, lib/qdp_io.cc:226-233: a file opened while one is open sets failbit, `is_open` is true and the old file stays; otherwise the state is cleared -/
def openFile (isOpen : Bool) (s : IS) (text : List Byte) : IS := if isOpen then { s with fail := true } else stream text

/-- a variable with its type -/
abbrev Item : Type := (t : Ty) × t.V
abbrev Var : Type := (t : Ty) × NodeVal t

/-- `txt << x << y << ...` -/
def writeAll (o : Out) (l : List Item) : Out := l.foldl (fun o x => o.put (shown x.1 x.2)) o

/-- `txt >> x >> y >> ...` -/
def readAll : IS → List Var → IS × List Var
  | s, [] => (s, [])
  | s, x :: l => ((readAll (read x.1 s x.2).1 l).1, ⟨x.1, (read x.1 s x.2).2⟩ :: (readAll (read x.1 s x.2).1 l).2)

/-! objects of several numbers -/

/-- real and complex numbers, include/qdp_reality.h:205-218, 411-424; PVector, include/qdp_primvector.h:180-200; PSpinVector, include/qdp_primspinvec.h:148-168;
PMatrix, include/qdp_primmatrix.h:167-189; PScalar and OScalar pass their element on, include/qdp_primscalar.h:201-214, include/qdp_outer.h:166-186 -/
inductive Obj where
  | real
  | complex
  | vec (n : Nat) (o : Obj)
  | mat (n : Nat) (o : Obj)

/-- the numbers in an object: `false` is the real part -/
abbrev Obj.Ix : Obj → Type
  | .real => Unit
  | .complex => Bool
  | .vec n o => Fin n × o.Ix
  | .mat n o => Fin n × Fin n × o.Ix

def Obj.dec : (o : Obj) → DecidableEq o.Ix
  | .real => inferInstanceAs (DecidableEq Unit)
  | .complex => inferInstanceAs (DecidableEq Bool)
  | .vec n o => have := o.dec; inferInstanceAs (DecidableEq (Fin n × o.Ix))
  | .mat n o => have := o.dec; inferInstanceAs (DecidableEq (Fin n × Fin n × o.Ix))

instance (o : Obj) : DecidableEq o.Ix := o.dec

/-- the order in which `<<` writes them; in a matrix the first index runs fastest -/
def Obj.out : (o : Obj) → List o.Ix
  | .real => [()]
  | .complex => [false, true]
  | .vec n o => (List.finRange n).flatMap fun i => o.out.map fun k => (i, k)
  | .mat n o => (List.finRange n).flatMap fun j => (List.finRange n).flatMap fun i => o.out.map fun k => (i, j, k)

/-- the order in which `>>` reads them -/
def Obj.inp : (o : Obj) → List o.Ix
  | .real => [()]
  | .complex => [false, true]
  | .vec n o => (List.finRange n).flatMap fun i => o.inp.map fun k => (i, k)
  | .mat n o => (List.finRange n).flatMap fun j => (List.finRange n).flatMap fun i => o.inp.map fun k => (i, j, k)

/-- `txt << d` -/
def writeObj (o : Obj) (v : o.Ix → Fl) : List Byte := o.out.flatMap fun k => showF digits (v k)

/-- `txt >> d` on the primary node, with numbers of format `F` -/
def readEntries {ι : Type} [DecidableEq ι] (F : Fmt) : List ι → IS → (ι → Fl) → IS × (ι → Fl)
  | [], s, v => (s, v)
  | k :: l, s, v => readEntries F l (FloatText.extract F s (v k)).1 (Function.update v k (FloatText.extract F s (v k)).2)

def readObj (F : Fmt) (o : Obj) (s : IS) (v : o.Ix → Fl) : IS × (o.Ix → Fl) := readEntries F o.inp s v

/-- a seed: each of the four numbers is followed by a newline, include/qdp_primseed.h:158-167 -/
def writeSeed (v : Fin 4 → Int) : List Byte := (List.finRange 4).flatMap fun i => showInt (v i) ++ [10]

/-- include/qdp_primseed.h:147-156 -/
def readSeed (s : IS) (v : Fin 4 → Int) : IS × (Fin 4 → Int) :=
  (List.finRange 4).foldl (fun a i => ((XmlNum.extract i32 a.1 (a.2 i)).1, Function.update a.2 i (XmlNum.extract i32 a.1 (a.2 i)).2)) (s, v)

/-! ## specification -/

/-- values that can be found again in a text with white space between them -/
def Plain : Item → Prop
  | ⟨.str, s⟩ => s ≠ [] ∧ ∀ b ∈ s, isSpace b = false ∧ b ≠ 0
  | ⟨.chr, b⟩ => isSpace b = false
  | ⟨.num T, z⟩ => T ∈ nums ∧ T.lo ≤ z ∧ z ≤ T.hi
  | ⟨.f32, x⟩ => Finite FloatText.f32 x
  | ⟨.f64, x⟩ => Finite FloatText.f64 x

/-- the value read is the one written; floating-point numbers are known to six digits -/
def Same : (t : Ty) → t.V → t.V → Prop
  | .str, s, s' => s = s'
  | .chr, b, b' => b = b'
  | .num _, z, z' => z = z'
  | .f32, x, x' => Reads FloatText.f32 6 x x'
  | .f64, x, x' => Reads FloatText.f64 6 x x'

/-- the numbers are written with white space behind each of them, perhaps not behind the last -/
def Spaced : List (Item × List Byte) → Prop
  | [] => True
  | [x] => Blank x.2
  | x :: y :: l => x.2 ≠ [] ∧ Blank x.2 ∧ Spaced (y :: l)

/-- the writes: each value, then the white space -/
def writes (l : List (Item × List Byte)) : List Item := l.flatMap fun x => [x.1, ⟨.str, x.2⟩]

/-- variables of the types of the values -/
inductive Fitting : List (Item × List Byte) → List Var → Prop
  | nil : Fitting [] []
  | cons {t : Ty} {v : t.V} {w : List Byte} {n : NodeVal t} {l : List (Item × List Byte)} {m : List Var} : Fitting l m → Fitting ((⟨t, v⟩, w) :: l) (⟨t, n⟩ :: m)

/-- every variable has got the value written, on every node -/
inductive Got : List (Item × List Byte) → List Var → Prop
  | nil : Got [] []
  | cons {t : Ty} {v : t.V} {w : List Byte} {n : NodeVal t} {l : List (Item × List Byte)} {m : List Var} : (∀ k, Same t v (n k)) → (∀ k, n k = n 0) → Got l m →
      Got ((⟨t, v⟩, w) :: l) (⟨t, n⟩ :: m)

/-- the sign bit -/
def Negative : Fl → Prop
  | .fin neg _ => neg = true
  | .inf neg => neg = true
  | .nan neg => neg = true

end Verif.TextIO
