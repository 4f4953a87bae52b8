import Verif.XmlNum
import Mathlib.Data.Rat.Floor
import Mathlib.Data.Int.Log
/-
Arrays of floating-point numbers as text in XML: lib/qdp_xmlio.cc.

Numbers are printed by `ostream << x` with the precision set by the writer and no other flags, that is as by `printf("%.*g", precision, x)`, and read by `istream >> x`, that
is by collecting the characters of a number and `strtof` or `strtod`; both conversions are correctly rounded, half to even (glibc).  As in Verif.XmlNum
the text written is taken as the text found.
-/
namespace Verif.FloatText
open Verif Outcome ByteOrder Verif.ArchiveHdr Verif.XmlNum

/-! ## model -/

/-- a binary format: the number of bits, the least and the largest exponent of the unit in the last place -/
structure Fmt where
  p : Nat
  emin : Int
  emax : Int

/-- `float` and `double` -/
def f32 : Fmt := ⟨24, -149, 104⟩
def f64 : Fmt := ⟨53, -1074, 971⟩

/-- a number: sign and absolute value, or infinite, or not a number -/
inductive Fl where
  | fin (neg : Bool) (x : ℚ)
  | inf (neg : Bool)
  | nan (neg : Bool)
deriving DecidableEq

/-- the next integer; of two the even one -/
def halfEven (r : ℚ) : Int :=
  let f := ⌊r⌋
  if r - f < 1 / 2 then f else if 1 / 2 < r - f then f + 1 else if f % 2 = 0 then f else f + 1

/-- `%.*g` of a positive number: the digits, as a number of `P` digits, and the exponent of the first digit -/
def dec (P : Nat) (x : ℚ) : Nat × Int :=
  let X := Int.log 10 x
  let a := (halfEven (x / 10 ^ (X - P + 1))).toNat
  if a = 10 ^ P then (10 ^ (P - 1), X + 1) else (a, X)

/-- `k` digits of a number -/
def digs : Nat → Nat → List Nat
  | 0, _ => []
  | k + 1, a => digs k (a / 10) ++ [a % 10]

/-- `%g` removes zeros behind the decimal point -/
def strip (l : List Nat) : List Nat := (l.reverse.dropWhile (· = 0)).reverse

def text (l : List Nat) : List Byte := l.map digitByte

/-- the fraction, with its point if there is one -/
def fracText (l : List Nat) : List Byte := if strip l = [] then [] else 46 :: text (strip l)

/-- the exponent: sign and at least two digits -/
def expText (X : Int) : List Byte := [101, if X < 0 then 45 else 43] ++ text (if X.natAbs < 10 then [0, X.natAbs] else (Nat.digits 10 X.natAbs).reverse)

/-- the digits `a` with exponent `X`: without exponent if it is at least -4 and less than the precision -/
def decText (P a : Nat) (X : Int) : List Byte :=
  if -4 ≤ X ∧ X < P then
    if 0 ≤ X then text ((digs P a).take (X.toNat + 1)) ++ fracText ((digs P a).drop (X.toNat + 1))
    else text [0] ++ fracText (List.replicate (-X - 1).toNat 0 ++ digs P a)
  else text ((digs P a).take 1) ++ fracText ((digs P a).drop 1) ++ expText X

def minus (neg : Bool) : List Byte := if neg then [45] else []

/-- `output << x` with `output.precision(P)` -/
def showF (P : Nat) : Fl → List Byte
  | .fin neg x => minus neg ++ if x = 0 then text [0] else decText P (dec P x).1 (dec P x).2
  | .inf neg => minus neg ++ [105, 110, 102]
  | .nan neg => minus neg ++ [110, 97, 110]

/-- the writers of `multi1d`, `std::vector` and `std::list` of `float` and `double`, lib/qdp_xmlio.cc:919-956, 1053-1087, 1189-1226, and of `Real32` and `Real64`,
lib/qdp_xmlio.cc:965-1001, 1097-1132, 1240-1277 -/
def writeArray (P : Nat) : List Fl → List Byte
  | [] => []
  | x :: l => showF P x ++ l.flatMap fun y => 32 :: showF P y

/-- `output.precision(7)` for `float`, `output.precision(15)` for `double`, lib/qdp_xmlio.cc:923, 941, 969, 987, 1056, 1074, 1101, 1119, 1192, 1213, 1243, 1264 -/
def prec32 : Nat := 7
def prec64 : Nat := 15

/-- correct rounding of a positive number, without regard of the largest exponent -/
def round (F : Fmt) (v : ℚ) : ℚ :=
  let e := max F.emin (Int.log 2 v - F.p + 1)
  halfEven (v / 2 ^ e) * 2 ^ e

/-- the largest number -/
def Fmt.top (F : Fmt) : ℚ := (2 ^ F.p - 1) * 2 ^ F.emax

/-- `strtof`, `strtod` of `a * 10 ^ q`: the value, and whether it is in range; out of range the stream gives the largest number -/
def conv (F : Fmt) (neg : Bool) (a : Nat) (q : Int) : Fl × Bool :=
  if a = 0 then (.fin neg 0, true)
  else
    let r := round F (a * 10 ^ q)
    if r ≤ F.top then (.fin neg r, true) else (.fin neg F.top, false)

/-- a point and digits, if there is a point -/
def takeFrac : List Byte → List Nat × List Byte
  | [] => ([], [])
  | b :: r => if b = 46 then takeDigits 10 r else ([], b :: r)

/-- `e`, sign and digits, if digits are in front; `some none` is an `e` without digits -/
def takeExp (ds : List Nat) : List Byte → Option (Option Int) × List Byte
  | [] => (none, [])
  | b :: r =>
    if ds ≠ [] ∧ (b = 101 ∨ b = 69) then
      let s := takeSign r
      let x := takeDigits 10 s.2
      let n : Nat := x.1.foldl (fun a d => a * 10 + d) 0
      (some (if x.1 = [] then none else some (if s.1 then -(n : Int) else n)), x.2)
    else (none, b :: r)

/-- the characters of a number: the digits in front of the exponent, how many of them are behind the point, the exponent, the rest -/
def scan (t : List Byte) : List Nat × Nat × Option (Option Int) × List Byte :=
  let i := takeDigits 10 t
  let f := takeFrac i.2
  (i.1 ++ f.1, f.1.length, takeExp (i.1 ++ f.1) f.2)

/-- `stream >> dummy` -/
def extract (F : Fmt) (s : IS) (dummy : Fl) : IS × Fl :=
  if s.eof || s.fail then ({ s with fail := true }, dummy)
  else
    let t := s.rest.dropWhile isSpace
    if t = [] then (⟨[], true, true⟩, dummy)
    else
      let sg := takeSign t
      let r := scan sg.2
      let rest := r.2.2.2
      if r.1 = [] ∨ r.2.2.1 = some none then (⟨rest, rest = [], true⟩, .fin false 0)
      else
        let v := conv F sg.1 (r.1.foldl (fun a d => a * 10 + d) 0) ((r.2.2.1.getD none).getD 0 - r.2.1)
        (⟨rest, rest = [], !v.2⟩, v.1)

/-- `while (stream >> dummy)`; the first argument bounds the number of rounds (`C96_stops`) -/
def loop (F : Fmt) : Nat → IS → Fl → List Fl × IS
  | 0, s, _ => ([], s)
  | k + 1, s, dummy =>
    let r := extract F s dummy
    if r.1.fail then ([], r.1) else (r.2 :: (loop F k r.1 r.2).1, (loop F k r.1 r.2).2)

/-- the second loop of `readArrayPrimitive` -/
def fill (F : Fmt) : Nat → IS → Fl → List Fl
  | 0, _, _ => []
  | k + 1, s, dummy => (extract F s dummy).2 :: fill F k (extract F s dummy).1 (extract F s dummy).2

/-- `readArrayPrimitive` and `readVectorPrimitive`, lib/qdp_xmlio.cc:310-355 and 424-461, for `float` and `double` -/
def readArray (F : Fmt) (t : List Byte) (dummy : Fl) : Outcome (List Fl) :=
  let r := loop F (t.length + 1) (stream t) dummy
  if !r.2.eof && r.2.fail then abort
  else ok (fill F r.1.length (stream t) dummy)

/-- `readListPrimitive`, lib/qdp_xmlio.cc:524-542, for `float` and `double` -/
def readList (F : Fmt) (t : List Byte) (dummy : Fl) : Outcome (List Fl) := ok (loop F (t.length + 1) (stream t) dummy).1

/-! ## specification -/

/-- the absolute values of a format -/
def Rep (F : Fmt) (x : ℚ) : Prop := ∃ (m : Nat) (e : Int), x = m * 2 ^ e ∧ m < 2 ^ F.p ∧ F.emin ≤ e ∧ e ≤ F.emax

/-- the finite numbers of a format -/
def Finite (F : Fmt) : Fl → Prop
  | .fin _ x => Rep F x
  | _ => False

/-- a positive number with `P` digits -/
def Dec (P : Nat) (d : ℚ) : Prop := ∃ (a : Nat) (s : Int), d = a * 10 ^ s ∧ 0 < a ∧ a < 10 ^ P

/-- `z` is the number of the format next to `d` -/
def Nearest (F : Fmt) (d z : ℚ) : Prop := Rep F z ∧ ∀ y, Rep F y → |z - d| ≤ |y - d|

/-- `d` is the `P`-digit number next to `x` -/
def NearestDec (P : Nat) (x d : ℚ) : Prop := Dec P d ∧ ∀ y, Dec P y → |d - x| ≤ |y - x|

/-- what a reader may make of a number that was written with `P` digits -/
def Reads (F : Fmt) (P : Nat) (x z : Fl) : Prop :=
  ∃ neg a b, x = .fin neg a ∧ z = .fin neg b ∧ (a = 0 ∧ b = 0 ∨ 0 < a ∧ ∃ d, NearestDec P a d ∧ Nearest F d b)

end Verif.FloatText
