import Verif.SseThm
import Verif.BlasProps
/-
Colour matrices in single precision in builds with SSE: lib/scalarsite_sse/qdp_scalarsite_sse.cc:19-1103.

The products themselves are computed by routines of another library (`intrin_sse_mult_su3_nn`, `_an`, `_na` of libintrin, a submodule that is not part of the
sources).  They are a parameter of the model; what is modelled is how they are called and what is done with their results.  The copies `d = l`, `d += l`,
`d -= l` are written with instructions for four numbers that need addresses divisible by 16, and are modelled with this condition.  None of
these statements is run by threads.  The product with half fermions (1108-1157) is in `SseSite`.
-/
set_option linter.unusedSectionVars false
namespace Verif.SseSingle
open Verif Outcome Verif.Sse Verif.Su3 Verif.Subset Verif.Blas

/-- field, site, word (18 per matrix) -/
abbrev Heap (K : Type) := Nat → Nat → Nat → K

section model
variable {K : Type} [CommRing K]

/-! ## products -/

/-- `d.elem(i).elem().elem(i,j).real() op ± tmp.elem(k,l).real()`, or imaginary parts, lib/scalarsite_sse/qdp_scalarsite_sse.cc:184-204 and others -/
structure Store where
  i : Nat
  j : Nat
  im : Bool
  op : Sse.Asg
  neg : Bool
  i' : Nat
  j' : Nat
  im' : Bool
deriving DecidableEq, Repr

/-- the word of an element: `elem(i,j)` is number `j+3*i`, include/qdp_primmatrix.h:158-159; the real part comes first -/
def wordOf (i j : Nat) (im : Bool) : Nat := 2 * (3 * i + j) + if im then 1 else 0

def Store.dst (s : Store) : Nat := wordOf s.i s.j s.im
def Store.src (s : Store) : Nat := wordOf s.i' s.j' s.im'

/-- one number assigned -/
def app : Sse.Asg → K → K → K
  | .set, _, y => y
  | .add, x, y => x + y
  | .sub, x, y => x - y

def Store.val (s : Store) (D t : Nat → K) : K := app s.op (D s.dst) (if s.neg then -t s.src else t s.src)

/-- the statements behind the call -/
def runStores : List Store → (t D : Nat → K) → Nat → K
  | [], _, D => D
  | s :: ss, t, D => runStores ss t (Function.update D s.dst (s.val D t))

/-- one branch of a specialisation: routine called, whether the operands are exchanged, whether it computes into `tmp` or into the destination, the
statements that follow -/
structure Branch where
  routine : Sse.Kind
  swap : Bool
  tmp : Bool
  stores : List Store

/-- the routines of the other library: the 18 numbers they compute, if the destination is neither operand, and otherwise (the flags tell which
operand it is) -/
structure Lib (K : Type) where
  apart : Sse.Kind → (Nat → K) → (Nat → K) → Nat → K
  inPlace : Sse.Kind → Bool → Bool → (Nat → K) → (Nat → K) → Nat → K

/-- a matrix in memory after its 18 words are stored -/
def stored (w D : Nat → K) (k : Nat) : K := if k < 18 then w k else D k

/-- the numbers computed by the call -/
def Branch.call (b : Branch) (L : Lib K) (d l r : Nat) (x y : Nat → K) : Nat → K :=
  match b.swap, b.tmp with
  | false, true => L.apart b.routine x y
  | true, true => L.apart b.routine y x
  | false, false => if d = l ∨ d = r then L.inPlace b.routine (d == l) (d == r) x y else L.apart b.routine x y
  | true, false => if d = l ∨ d = r then L.inPlace b.routine (d == r) (d == l) y x else L.apart b.routine y x

/-- one site; `N` is the number of sites of a field -/
def Branch.site (b : Branch) (L : Lib K) (N d l r i : Nat) (h : Heap K) : Outcome (Heap K) :=
  if i < N then
    let w := b.call L d l r (h l i) (h r i)
    ok (Function.update h d (Function.update (h d) i (if b.tmp then runStores b.stores w (h d i) else stored w (h d i))))
  else ub

/-- the loop over the sites -/
def Branch.loop (b : Branch) (L : Lib K) (N d l r : Nat) : List Nat → Heap K → Outcome (Heap K)
  | [], h => ok h
  | i :: is, h => do
      let h ← b.site L N d l r i h
      b.loop L N d l r is h

def isOrdered : Form → Bool
  | .ordered _ _ => true
  | .unordered _ => false

/-! ## copies -/

/-- the numbers of a field one after the other -/
def word (h : Heap K) (p k : Nat) : K := h p (k / 18) (k % 18)
def setWord (h : Heap K) (p k : Nat) (x : K) : Heap K :=
  Function.update h p (Function.update (h p) (k / 18) (Function.update (h p (k / 18)) (k % 18) x))

/-- an access to four numbers: the address must be divisible by 16 bytes, the fields begin at such addresses (lib/qdp_default_allocator.cc:47), a number has
4 bytes -/
def vec4 (N k : Nat) : Outcome Unit := if 4 * k % 16 = 0 then (if k + 4 ≤ 18 * N then ok () else ub) else ub

/-- the loop over groups of four, lib/scalarsite_sse/qdp_scalarsite_sse.cc:620-622, 678-681, 735-738: four numbers are loaded before four are stored -/
def vecLoop (op : Sse.Asg) (N d l : Nat) : Nat → Nat → Heap K → Outcome (Heap K)
  | 0, _, h => ok h
  | n + 1, k, h => do
      vec4 N k
      let x := fun j => app op (word h d (k + j)) (word h l (k + j))
      vecLoop op N d l n (k + 4) (setWord (setWord (setWord (setWord h d k (x 0)) d (k + 1) (x 1)) d (k + 2) (x 2)) d (k + 3) (x 3))

/-- the loop over the rest, lines 627-629, 686-688, 743-745 -/
def restLoop (op : Sse.Asg) (N d l : Nat) : Nat → Nat → Heap K → Outcome (Heap K)
  | 0, _, h => ok h
  | n + 1, k, h =>
      if k < 18 * N then restLoop op N d l n (k + 1) (setWord h d k (app op (word h d k) (word h l k))) else ub

/-- the other branch, lines 631-646, 690-704, 747-761: `d.elem(i).elem() op l.elem(i).elem()`, element by element -/
def tabLoop (op : Sse.Asg) (N d l : Nat) : List Nat → Heap K → Outcome (Heap K)
  | [], h => ok h
  | i :: is, h =>
      if i < N then
        tabLoop op N d l is (Function.update h d (Function.update (h d) i fun k => if k < 18 then app op (h d i k) (h l i k) else h d i k))
      else ub

/-- `d op l` on a subset, lib/scalarsite_sse/qdp_scalarsite_sse.cc:591-646 (`=`), 650-704 (`+=`), 708-761 (`-=`) -/
def copy (op : Sse.Asg) (N d l : Nat) (f : Form) (h : Heap K) : Outcome (Heap K) :=
  match f with
  | .ordered start n => do
      let total ← ckInt (n * 18)
      let h ← vecLoop op N d l (total / 4) (18 * start) h
      restLoop op N d l (total % 4) (18 * start + 4 * (total / 4)) h
  | .unordered tab => tabLoop op N d l tab h

end model

end Verif.SseSingle
