import Verif.SseSingleProps
/-
Products and sums of colour matrices, colour vectors and fermions at one site, in single precision, in builds with SSE:
include/scalarsite_sse/qdp_scalarsite_sse_linalg.h:50-645, and the product of links with half fermions, lib/scalarsite_sse/qdp_scalarsite_sse.cc:1108-1157.

The arithmetic is done by routines of another library that is not part of the sources; as in `SseSingle` they are a parameter.  What is modelled
is which routine every specialised operator calls, on which parts of its operands, where the result goes, and what is done with it
afterwards.  An object is its sequence of words, as in `Su3`.  Not modelled: which of the specialisations a C++ compiler selects for an expression;
conditions of the routines on addresses.
-/
set_option linter.unusedVariables false
namespace Verif.SseSite
open Verif Outcome Verif.Site

/-- the routines: `intrin_sse_mult_su3_nn`, `_an`, `_na`, `intrin_sse_mult_su3_mat_vec`, `intrin_sse_mult_adj_su3_mat_vec`,
`intrin_sse_mult_su3_mat_hwvec`, `intrin_sse_mult_adj_su3_mat_hwvec`, `intrin_sse_add_su3_vector` -/
inductive Routine | nn | an | na | mv | av | mh | ah | vv
  deriving DecidableEq, Repr

/-- the number of words a routine stores: `su3_matrixf`, `su3_vectorf`, `half_wilson_vectorf` -/
def Routine.len : Routine → Nat
  | .nn | .an | .na => 18
  | .mv | .av | .vv => 6
  | .mh | .ah => 12

/-- the other library: the words stored by the routines if the result is apart from the operands, and by `intrin_sse_mult_su3_mat_hwvec` if the result is the
second operand -/
structure Lib (K : Type) where
  apart : Routine → (Nat → K) → (Nat → K) → Nat → K
  inPlace : Routine → (Nat → K) → (Nat → K) → Nat → K

/-- a call: the operands are elements of `l` (false) or `r` (true) that begin at the given words, the result begins at word `oc` -/
structure Call where
  routine : Routine
  x : Bool × Nat
  y : Bool × Nat
  oc : Nat

/-- an operator and the types it is specialised for -/
inductive Fn : Ty → Ty → Ty → Type
  | mul {a b c} (p : Mul a b c) : Fn a b c
  | adjMul {a b c} (p : Mul a b c) : Fn a b c
  | mulAdj {a b c} (p : Mul a b c) : Fn a b c
  | adjMulAdj {a b c} (p : Mul a b c) : Fn a b c
  | add (t : Ty) : Fn t t t

/-- a specialisation: the calls compute into the new object `d`, or, if `tmp`, into another new object, from which `d` is then filled -/
structure Spec where
  l : Ty
  r : Ty
  d : Ty
  fn : Fn l r d
  calls : List Call
  tmp : Bool
  stores : List SseSingle.Store

section
variable {K : Type} [CommRing K]

/-- the words of the operand of a call -/
def operand (A B : Nat → K) (p : Bool × Nat) : Nat → K := fun k => (if p.1 then B else A) (p.2 + k)

/-- the words of the result after a call -/
def Call.run (c : Call) (L : Lib K) (A B D : Nat → K) : Nat → K := fun j =>
  if c.oc ≤ j ∧ j < c.oc + c.routine.len then L.apart c.routine (operand A B c.x) (operand A B c.y) (j - c.oc) else D j

def runCalls (L : Lib K) (A B : Nat → K) : List Call → (Nat → K) → Nat → K
  | [], D => D
  | c :: cs, D => runCalls L A B cs (c.run L A B D)

/-- the words of the result; `g` and `t` are what the new objects hold before -/
def Spec.run (s : Spec) (L : Lib K) (l : Den K s.l) (r : Den K s.r) (g t : Nat → K) : Nat → K :=
  let A := Su3.words s.l l
  let B := Su3.words s.r r
  if s.tmp then SseSingle.runStores s.stores (runCalls L A B s.calls t) g else runCalls L A B s.calls g

/-! ## the product of links with half fermions -/

/-- field, site, word -/
abbrev Heap (K : Type) := Nat → Nat → Nat → K

/-- one site of `d = l * r`, lib/scalarsite_sse/qdp_scalarsite_sse.cc:1134-1138 and 1148-1153; `N` is the number of sites of a field -/
def halfSite (q : Routine) (L : Lib K) (N d l r i : Nat) (h : Heap K) : Outcome (Heap K) :=
  if i < N then
    let w := if d = r then L.inPlace q (h l i) (h r i) else L.apart q (h l i) (h r i)
    ok (Function.update h d (Function.update (h d) i fun k => if k < q.len then w k else h d i k))
  else ub

/-- the loop over the sites, 1132-1140 and 1143-1156 -/
def halfLoop (q : Routine) (L : Lib K) (N d l r : Nat) : List Nat → Heap K → Outcome (Heap K)
  | [], h => ok h
  | i :: is, h => do
      let h ← halfSite q L N d l r i h
      halfLoop q L N d l r is h

/-! ## specification -/

/-- the general operators, as in Verif.SiteType -/
def Fn.app : {a b c : Ty} → Fn a b c → Den K a → Den K b → Den K c
  | _, _, _, .mul p => Site.mul p
  | _, _, _, .adjMul p => Site.adjMul p
  | _, _, _, .mulAdj p => Site.mulAdj p
  | _, _, _, .adjMulAdj p => Site.adjMulAdj p
  | _, _, _, .add t => Site.add t

abbrev mat : Ty := .mat .color 2 .rc
abbrev vec : Ty := .vec .color 2 .rc
abbrev half : Ty := .vec .spin 1 vec

/-- what the names of the routines say -/
structure Lib.Correct (L : Lib K) : Prop where
  nn : ∀ A B, Su3.obj mat (L.apart .nn A B) = Site.mul (.mm .color 2 .cc) (Su3.obj mat A) (Su3.obj mat B)
  an : ∀ A B, Su3.obj mat (L.apart .an A B) = Site.adjMul (.mm .color 2 .cc) (Su3.obj mat A) (Su3.obj mat B)
  na : ∀ A B, Su3.obj mat (L.apart .na A B) = Site.mulAdj (.mm .color 2 .cc) (Su3.obj mat A) (Su3.obj mat B)
  mv : ∀ A B, Su3.obj vec (L.apart .mv A B) = Site.mul (.mv .color 2 .cc) (Su3.obj mat A) (Su3.obj vec B)
  av : ∀ A B, Su3.obj vec (L.apart .av A B) = Site.adjMul (.mv .color 2 .cc) (Su3.obj mat A) (Su3.obj vec B)
  mh : ∀ A B, Su3.obj half (L.apart .mh A B) = fun s => Site.mul (.mv .color 2 .cc) (Su3.obj mat A) (Su3.obj half B s)
  ah : ∀ A B, Su3.obj half (L.apart .ah A B) = fun s => Site.adjMul (.mv .color 2 .cc) (Su3.obj mat A) (Su3.obj half B s)
  vv : ∀ A B, Su3.obj vec (L.apart .vv A B) = Site.add vec (Su3.obj vec A) (Su3.obj vec B)

end

end Verif.SseSite
