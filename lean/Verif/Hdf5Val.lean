import Verif.Hdf5PathProps
import Verif.Hdf5Props
/-
Property C80: numbers, strings, arrays, scalars of QDP and attributes in HDF5 files, include/qdp_hdf5.h:156-463, 564-644, 1001-1232, 1326-1351; lib/qdp_hdf5.cc:430-763,
1738-2124; model.

Taken of HDF5 in addition to C79: a data set or an attribute has a type, extents (none for a single datum) and its elements in row-major order; the native type of a
type has the same words in the order of the host; `H5Dcreate` needs a group to put the data set in and a free name; deleting a data set deletes its attributes; reading with
`H5S_ALL` stores all elements.  Left out: types committed in the root for complex numbers and matrices, strings of variable length, allocation failures, nodes with
different data (the value of node 0 is written).
-/
namespace Verif.Hdf5Val
open Verif Outcome ByteOrder Verif.BinIO Verif.QioField Verif.Hdf5 Verif.Hdf5Path Verif.Subset

/-! ## HDF5 -/

/-- types: integers, floating point numbers, strings of `n` bytes, complex numbers of two words, arrays of `n` words -/
inductive HTy | int (signed : Bool) (w : Nat) | float (w : Nat) | str (n : Nat) | cplx (w : Nat) | arr (w n : Nat)
  deriving DecidableEq

/-- `H5Tget_class` -/
inductive Cls | int | float | str | compound | array
  deriving DecidableEq

def HTy.cls : HTy → Cls
  | .int _ _ => .int | .float _ => .float | .str _ => .str | .cplx _ => .compound | .arr _ _ => .array

/-- bytes of a word -/
def HTy.wsize : HTy → Nat
  | .int _ w => w | .float w => w | .str _ => 1 | .cplx w => w | .arr w _ => w

/-- words of an element -/
def HTy.n : HTy → Nat
  | .int _ _ => 1 | .float _ => 1 | .str n => n | .cplx _ => 2 | .arr _ n => n

/-- `H5Tget_size` -/
def HTy.size (T : HTy) : Nat := T.wsize * T.n

/-- `H5Tget_sign(..) == H5T_SGN_2` -/
def HTy.signed : HTy → Bool
  | .int s _ => s | _ => true

/-- a data set or an attribute: the words of its elements with the first byte the most significant -/
structure Val where
  ty : HTy
  dims : List Nat
  data : List (List Byte)

/-- `H5Sget_simple_extent_npoints` -/
def Val.points (v : Val) : Nat := v.dims.foldr (· * ·) 1

/-- a file with its current group, and the attributes of its objects -/
structure File where
  st : St Val
  att : List Str → Str → Option Val

/-- where a name leads -/
def File.path (f : File) (name : Str) : List Str := resolve f.st.cur.path name

/-- `H5Ldelete` -/
def remove (f : File) (name : Str) : File :=
  ⟨{ f.st with fs := fun p => if p = f.path name then none else f.st.fs p }, fun p a => if p = f.path name then none else f.att p a⟩

/-- `H5Dcreate` -/
def create (f : File) (name : Str) (v : Val) : Option File :=
  if f.path name = [] then none
  else match f.st.fs (f.path name).dropLast, f.st.fs (f.path name) with
    | some .group, none => some ⟨{ f.st with fs := fun p => if p = f.path name then some (.data v) else f.st.fs p }, f.att⟩
    | _, _ => none

/-- the words of an element in memory -/
def toFile (be : Bool) (T : HTy) (x : List Byte) : List (List Byte) := (split T.wsize T.n x).map (host be)

/-! ## writing -/

/-- whether an object is in the way, include/qdp_hdf5.h:1085-1096, 1118-1129, 1173-1184; lib/qdp_hdf5.cc:1880-1893: `none` if it may not be replaced -/
def clear (f : File) (name : Str) (trunc : Bool) : Outcome (Option File) := do
  let e ← objectExists f.st name
  if e then
    if !trunc then ok none
    else match f.st.fs (f.path name) with
      | some (.data _) => ok (some (remove f name))
      | _ => ok none
  else ok (some f)

/-- a single datum, include/qdp_hdf5.h:1080-1110: the result of `H5Dcreate` is not looked at -/
def wt (be : Bool) (T : HTy) (f : File) (name : Str) (x : List Byte) (trunc : Bool) : Outcome File := do
  match ← clear f name trunc with
  | none => abort
  | some f' => ok ((create f' name ⟨T, [], toFile be T x⟩).getD f')

/-- the end of writing an array, include/qdp_hdf5.h:1138-1164, 1199-1228: an error of node 0 stops -/
def finish (o : Option File) : Outcome File :=
  match o with
  | none => abort
  | some f => ok f

/-- an array, include/qdp_hdf5.h:1112-1165 -/
def wt1 (be : Bool) (T : HTy) (f : File) (name : Str) (xs : List (List Byte)) (trunc : Bool) : Outcome File := do
  match ← clear f name trunc with
  | none => abort
  | some f' => finish (create f' name ⟨T, [xs.length], xs.flatMap (toFile be T)⟩)

/-- `multi2d`, include/qdp_multi.h:638-720: `n2` rows of `n1` elements -/
structure M2 where
  n2 : Nat
  n1 : Nat
  F : List (List Byte)

/-- `operator()(j,i)`, include/qdp_multi.h:709-712 -/
def M2.at (m : M2) (j i : Nat) : Outcome (List Byte) := rd m.F (i + m.n1 * j)

/-- rows of elements one after the other -/
def rows (n2 n1 : Nat) (g : Nat → Nat → Outcome (List Byte)) : Outcome (List (List Byte)) := do
  let r ← mapO (fun i => mapO (fun j => g i j) (List.range n1)) (List.range n2)
  ok r.flatten

/-- a matrix, include/qdp_hdf5.h:1167-1228 -/
def wt2 (be : Bool) (T : HTy) (f : File) (name : Str) (m : M2) (trunc : Bool) : Outcome File := do
  match ← clear f name trunc with
  | none => abort
  | some f' =>
    let xs ← rows m.n2 m.n1 m.at
    finish (create f' name ⟨T, [m.n2, m.n1], xs.flatMap (toFile be T)⟩)

/-- a string, lib/qdp_hdf5.cc:1873-1909: with an object in the way, a message and nothing else -/
def wtStr (f : File) (name : Str) (s : List Byte) (trunc : Bool) : Outcome File := do
  match ← clear f name trunc with
  | none => ok f
  | some f' => ok ((create f' name ⟨.str (s.length + 1), [], (s ++ [0]).map fun b => [b]⟩).getD f')

/-! ## reading -/

/-- the data set, include/qdp_hdf5.h:276-289, 329-342, 397-410; lib/qdp_hdf5.cc:555-569, 653-672 -/
def find (f : File) (name : Str) : Outcome Val := do
  let e ← objectExists f.st name
  if e then
    match f.st.fs (f.path name) with
    | some (.data v) => ok v
    | _ => abort
  else abort

/-- the comparisons of types, include/qdp_hdf5.h:290-311, 343-364, 411-432 -/
def typed (T : HTy) (v : Val) : Bool :=
  v.ty.cls = T.cls && v.ty.size = T.size && (!(T.cls = .int) || v.ty.signed = T.signed)

/-- the comparisons for complex numbers, lib/qdp_hdf5.cc:321-349, 683-690: `checkComplexType` and the size of its words -/
def typedC (w : Nat) (v : Val) : Bool := v.ty = .cplx w

/-- all elements in memory -/
def all (be : Bool) (v : Val) : List Byte := mem be v.data

/-- reading into a datum in memory, include/qdp_hdf5.h:313-317 -/
def into (be : Bool) (v : Val) (m : List Byte) : Outcome (List Byte) :=
  if m.length < (all be v).length then ub else ok (all be v ++ m.drop (all be v).length)

/-- a single datum, include/qdp_hdf5.h:271-322 -/
def rd0 (be : Bool) (T : HTy) (f : File) (name : Str) (m : List Byte) : Outcome (List Byte) := do
  let v ← find f name
  if !typed T v then abort else into be v m

/-- a complex number, lib/qdp_hdf5.cc:676-696, 698-718 -/
def rd0C (be : Bool) (w : Nat) (f : File) (name : Str) (m : List Byte) : Outcome (List Byte) := do
  let v ← find f name
  if !typedC w v then abort else into be v m

/-- the elements of an array, include/qdp_hdf5.h:376-389 -/
def elems (be : Bool) (T : HTy) (v : Val) : List (List Byte) := split T.size v.points (all be v)

/-- an array, include/qdp_hdf5.h:324-390 -/
def rd1 (be : Bool) (T : HTy) (f : File) (name : Str) : Outcome (List (List Byte)) := do
  let v ← find f name
  if !typed T v then abort
  else if v.dims.length ≠ 1 then abort
  else ok (elems be T v)

/-- an array of complex numbers, lib/qdp_hdf5.cc:721-763 -/
def rd1C (be : Bool) (w : Nat) (f : File) (name : Str) : Outcome (List (List Byte)) := do
  let v ← find f name
  if !typedC w v then abort
  else if v.dims.length ≠ 1 then abort
  else ok (elems be (.cplx w) v)

/-- a matrix, include/qdp_hdf5.h:392-463 -/
def rd2 (be : Bool) (T : HTy) (f : File) (name : Str) : Outcome M2 := do
  let v ← find f name
  if !typed T v then abort
  else if v.dims.length ≠ 2 then abort
  else
    let d0 ← rd v.dims 0
    let d1 ← rd v.dims 1
    let xs ← rows d0 d1 fun i j => rd (elems be T v) (j + d1 * i)
    ok ⟨d0, d1, xs⟩

/-- the string of a buffer: up to the first zero byte, which must be in the buffer -/
def cstr (bs : List Byte) : Outcome (List Byte) := if 0 ∈ bs then ok (bs.takeWhile (· ≠ 0)) else ub

/-- a string, lib/qdp_hdf5.cc:554-587: a buffer of the size of the type for all elements -/
def strOf (v : Val) : Outcome (List Byte) :=
  if v.ty.cls ≠ .str then abort
  else if v.ty.size < (all true v).length then ub
  else cstr (all true v)

def rdStr (f : File) (name : Str) : Outcome (List Byte) := do
  let v ← find f name
  strOf v

/-! ## scalars of QDP -/

/-- `memcpy` of a scalar into words of type `REAL`, include/qdp_hdf5.h:1331-1334, 1343-1349 -/
def realWords (real : Nat) (x : List Byte) : Outcome (List (List Byte)) :=
  if x.length / real * real < x.length then ub else ok (split real (x.length / real) x)

/-- a scalar, include/qdp_hdf5.h:1327-1336 -/
def wtO (real : Nat) (be : Bool) (f : File) (name : Str) (x : List Byte) (trunc : Bool) : Outcome File := do
  let ws ← realWords real x
  wt1 be (.float real) f name ws trunc

/-- an array of scalars, include/qdp_hdf5.h:1338-1351, with at least one word for each -/
def wtOs (real : Nat) (be : Bool) (f : File) (name : Str) (xs : List (List Byte)) (trunc : Bool) : Outcome File := do
  let ws ← mapO (realWords real) xs
  wt1 be (.float real) f name ws.flatten trunc

/-- `readPrepareLattice` and the comparisons, include/qdp_hdf5.h:567-582, 606-621 -/
def prepO (f : File) (name : Str) : Outcome (Nat × Nat) := do
  let v ← find f name
  if v.ty.size ≠ 4 ∧ v.ty.size ≠ 8 then abort
  else if v.dims.length ≠ 1 then abort
  else do
    let d ← rd v.dims 0
    ok (v.ty.size, d)

/-- the words converted to `REAL`, include/qdp_hdf5.h:587-598, 628-639 -/
def bufO (cv : Word → Word → List Byte → List Byte) (real fs : Nat) (be : Bool) (f : File) (name : Str) : Outcome (List (List Byte)) := do
  let ws ← rd1 be (.float fs) f name
  ok (ws.map fun w => host be (conv cv fs (fword real) (host be w)))

/-- `memcpy` from the words to a scalar of `size` bytes, include/qdp_hdf5.h:599, 641-643 -/
def fromBuf (ws : List (List Byte)) (from_ size : Nat) : Outcome (List Byte) :=
  if (ws.drop from_).flatten.length < size then ub else ok ((ws.drop from_).flatten.take size)

/-- a scalar of `size` bytes, include/qdp_hdf5.h:564-600 -/
def rdO (cv : Word → Word → List Byte → List Byte) (real : Nat) (be : Bool) (size : Nat) (f : File) (name : Str) : Outcome (List Byte) := do
  let p ← prepO f name
  if p.2 * p.1 ≠ size then abort
  else do
    let ws ← bufO cv real p.1 be f name
    fromBuf ws 0 size

/-- an array of scalars of `size` bytes, include/qdp_hdf5.h:603-644 -/
def rdOs (cv : Word → Word → List Byte → List Byte) (real : Nat) (be : Bool) (size : Nat) (f : File) (name : Str) : Outcome (List (List Byte)) := do
  let p ← prepO f name
  if p.2 * p.1 % size ≠ 0 then abort
  else if p.2 * p.1 / size = 0 then ub
  else do
    let ws ← bufO cv real p.1 be f name
    let o := p.2 / (p.2 * p.1 / size)
    mapO (fun i => fromBuf (ws.take (o * (p.2 * p.1 / size))) (i * o) size) (List.range (p.2 * p.1 / size))

/-! ## attributes -/

/-- the object must be there, include/qdp_hdf5.h:1012-1015 and the same in the others -/
def needs (f : File) (obj : Str) : Outcome Unit := do
  let e ← objectExists f.st obj
  if e then ok () else abort

/-- a new attribute, include/qdp_hdf5.h:1017-1029, 1048-1072; lib/qdp_hdf5.cc:1780-1808: an old one is only replaced in the mode `trunc`; `big`: above 64 kB -/
def putAtt (f : File) (obj a : Str) (v : Val) (big trunc : Bool) : Outcome File := do
  needs f obj
  if (f.att (f.path obj) a).isSome && !trunc then abort
  else if big then abort
  else ok { f with att := fun p b => if p = f.path obj ∧ b = a then some v else f.att p b }

/-- a number, include/qdp_hdf5.h:1001-1030 -/
def wtAtt (be : Bool) (T : HTy) (f : File) (obj a : Str) (x : List Byte) (trunc : Bool) : Outcome File := putAtt f obj a ⟨T, [], toFile be T x⟩ false trunc

/-- an array, include/qdp_hdf5.h:1032-1073 -/
def wtAtt1 (be : Bool) (T : HTy) (f : File) (obj a : Str) (xs : List (List Byte)) (trunc : Bool) : Outcome File :=
  putAtt f obj a ⟨T, [xs.length], xs.flatMap (toFile be T)⟩ (64 * 1024 < xs.length * T.size) trunc

/-- a string, lib/qdp_hdf5.cc:1766-1809 -/
def wtAttStr (f : File) (obj a : Str) (s : List Byte) (trunc : Bool) : Outcome File :=
  putAtt f obj a ⟨.str (s.length + 1), [], (s ++ [0]).map fun b => [b]⟩ (64 * 1024 < s.length + 1) trunc

/-- an attribute that must be there, include/qdp_hdf5.h:161-175, 211-225; lib/qdp_hdf5.cc:459-473 -/
def getAtt (f : File) (obj a : Str) : Outcome Val := do
  needs f obj
  match f.att (f.path obj) a with
  | none => abort
  | some v => ok v

/-- a number, include/qdp_hdf5.h:156-204 -/
def rdAtt (be : Bool) (T : HTy) (f : File) (obj a : Str) (m : List Byte) : Outcome (List Byte) := do
  let v ← getAtt f obj a
  if !typed T v then abort else into be v m

/-- an array, include/qdp_hdf5.h:206-264: the number of extents is not looked at -/
def rdAtt1 (be : Bool) (T : HTy) (f : File) (obj a : Str) : Outcome (List (List Byte)) := do
  let v ← getAtt f obj a
  if !typed T v then abort else ok (elems be T v)

/-- a string, lib/qdp_hdf5.cc:458-488 -/
def rdAttStr (f : File) (obj a : Str) : Outcome (List Byte) := do
  let v ← getAtt f obj a
  strOf v

end Verif.Hdf5Val
