import Verif.SpmdProps
import Verif.VecThm
/-
The library for many nodes with vector instructions ("parscalarvec"): include/qdp_parscalarvec_specific.h, lib/qdp_parscalarvec_specific.cc,
lib/qdp_parscalarvec_layout.cc.  Every node holds its piece of a field as vectors of `INNER_LEN` sites; `INNER_LOG` is 2, the only value for which
`Map::operator()` compiles (include/qdp_parscalarvec_specific.h:1190-1227).

Programs of lattice operations run on all nodes, in any interleaving.  Where the text of a function is that of another architecture its model is used:
`Map::make` (lib/qdp_parscalarvec_specific.cc:28-253) is that of lib/qdp_parscalar_specific.cc:29-243, `Set::make` (lib/qdp_scalarvecsite_specific.cc:52-) that of
lib/qdp_scalarsite_specific.cc.

Simplifications: those of `Vec` and `Spmd`; the memory of a field that a function creates (`Map::operator()`, `latticeCoordinate`) held before whatever the
field of the same number held; the new field is not copied on the way to the caller (the copy constructor would be a statement).
-/
namespace Verif.VecNodes
open Verif Outcome Verif.Layout Verif.ParLayout Verif.Subset Verif.ParMap Verif.Network Verif.PeekPoke Verif.Shift
open Verif.LatticeIO (foldO)
open Verif.Spmd (SubsetOf one addAll latticeSum source)
open Verif.Vec (getAt setAt Shape Site)

/-! ## Model -/

/-- an expression of numbered fields -/
inductive Ex (V : Type)
  | fld (n : Nat)
  | op1 (op : V → V) (a : Ex V)
  | op2 (op : V → V → V) (a b : Ex V)

/-- the pieces of the fields on one node -/
abbrev Local (V : Type) := Nat → List (List V)

/-- the expression with the pieces of a node at its leaves -/
def Ex.inst {V : Type} (s : Local V) : Ex V → Vec.Expr V
  | .fld n => .leaf (s n)
  | .op1 op a => .op1 op (a.inst s)
  | .op2 op a b => .op2 op (a.inst s) (b.inst s)

/-- a program of lattice operations: statements `dst op= rhs` under a subset, `zero_rep`, `copymask`, `latticeCoordinate`, maps and shifts, `peekSite`, `pokeSite`,
`sum`.  `peekSite(expr, coord)`, `map(expr)` (866-872, 1261-1270) are a statement with a new field followed by the operation on that. -/
inductive Prog (V R : Type)
  | ret (r : R)
  | assign (dst : Nat) (sub : SubsetOf) (op : V → V → V) (rhs : Ex V) (k : Prog V R)
  | zero (dst : Nat) (k : Prog V R)
  | copymask (dst mask src : Nat) (test : V → Bool) (k : Prog V R)
  | coord (dst : Nat) (mu : Nat) (conv : Nat → V) (k : Prog V R)
  | map (dst src : Nat) (func : List Nat → Int → Outcome (List Nat)) (k : Prog V R)
  | peek (src : Nat) (c : List Nat) (k : V → Prog V R)
  | poke (dst : Nat) (c : List Nat) (v : V) (k : Prog V R)
  | sum (sub : SubsetOf) (rhs : Ex V) (k : V → Prog V R)

/-- `QDP_error`, lib/qdp_util.cc:68-87: a line on the error output of the node, and back to the caller -/
def qdpError {α : Type} (a : α) : Outcome α := ok a

/-- `evaluate(OLattice, op, rhs, Subset)`, include/qdp_parscalarvec_specific.h:132-200: `QDP_NOT_IMPLEMENTED` is defined (124), so all that is compiled is
`QDP_error`.  Every statement is this function (include/qdp_qdptype.h:55-127), the copy constructor too (include/qdp_outer.h:281-304). -/
def evaluate {V : Type} (F : List (List V)) (_op : V → V → V) (_rhs : Vec.Expr V) (_s : Sub) : Outcome (List (List V)) := qdpError F

/-- `copymask(OSubLattice, …)` 207-224, `random(OLattice, Subset)` 266-288, `gaussian(OLattice, Subset)` 310-329, `zero_rep(OLattice, Subset)` 356-369 of
include/qdp_parscalarvec_specific.h: `QDP_error`; the destination, and for `random` the global seed, stay -/
def notImplemented {α : Type} (dest : α) (_s : Sub) : Outcome α := qdpError dest

/-- `zero_rep(OLattice)`, include/qdp_parscalarvec_specific.h:385-391 -/
def zeroRep {V : Type} [Zero V] (n : Nat) (F : List (List V)) : Outcome (List (List V)) :=
  foldO (fun F i => wrElem F i (List.replicate 4 0)) F (List.range n)

/-- `copymask(OLattice, mask, OLattice)`, include/qdp_parscalarvec_specific.h:228-235 -/
def copymask {V : Type} (test : V → Bool) (n : Nat) (F M S : List (List V)) : Outcome (List (List V)) :=
  foldO (fun F i => do
    let d ← rd F i
    let m ← rd M i
    let s ← rd S i
    let w ← Vec.inner3 (fun d m s => if test m then s else d) 4 d m s
    wrElem F i w) F (List.range n)

/-- `Layout::latticeCoordinate`, lib/qdp_scalarvecsite_specific.cc:18-37, on node `me` -/
def latticeCoordinate {V : Type} (g : Geom) (me mu : Nat) (conv : Nat → V) (d : List (List V)) : Outcome (List (List V)) :=
  if g.L.length ≤ mu then abort
  else foldO (fun d i => do
    let c ← g.siteCoords me i
    let x ← rd c mu
    setAt 2 d i (conv x)) d (List.range g.sites)

/-- all source sites in packed format, include/qdp_parscalarvec_specific.h:1027-1036 -/
def pack {V : Type} (n : Nat) (F : List (List V)) : Outcome (List V) := mapO (fun i => getAt 2 F i) (List.range n)

/-- the values at `dest[i]` into the new field, include/qdp_parscalarvec_specific.h:1161-1173 -/
def unpack {V : Type} (n : Nat) (xs : List V) (d : List (List V)) : Outcome (List (List V)) :=
  foldO (fun d i => do let x ← rd xs i; setAt 2 d i x) d (List.range n)

/-- `Map::operator()` on node `me`, include/qdp_parscalarvec_specific.h:993-1236; the pointers `dest[i]` (1085-1106) are followed when the messages have come -/
def mapNode {V R : Type} (g : Geom) (me : Nat) (func : List Nat → Int → Outcome (List Nat)) (F d : List (List V)) (k : List (List V) → Proc (List V) R) :
    Proc (List V) R :=
  after (make g me func) fun t =>
    if t.offnodeP then
      after (pack g.sites F) fun ll =>
      after (rd t.destnodesNum 0) fun dstnum => after (rd t.srcenodesNum 0) fun srcnum =>
      after (rd t.srcenodes 0) fun from_ => after (rd t.destnodes 0) fun to_ =>
      after (sendBuf t.soffsets ll) fun mine =>
        if mine.length ≠ dstnum then .stop
        else .send to_ mine (.recv from_ fun m =>
          if m.length ≠ srcnum then .stop
          else .wait to_ (after (gather me m ll (t.srcnode.zip t.goffsets) 0) fun xs => after (unpack g.sites xs d) k))
    else after (Vec.applyMap g.sites t.goffsets F d) k

/-- the local part of `peekSite`, include/qdp_parscalarvec_specific.h:832-847 -/
def peekLocal {V : Type} [Zero V] (g : Geom) (me nodenum : Nat) (F : List (List V)) (c : List Nat) : Outcome V :=
  if me = nodenum then do
    let i ← g.linearSiteIndex c
    getAt 2 F i
  else ok 0

/-- `peekSite` on node `me`, include/qdp_parscalarvec_specific.h:828-856 -/
def peekSite {V R : Type} [Zero V] (g : Geom) (me : Nat) (F : List (List V)) (c : List Nat) (k : V → Proc (List V) R) : Proc (List V) R :=
  after (g.nodeNumber c) fun nodenum =>
    after (peekLocal g me nodenum F c) fun dest =>
      sendToPrimary me nodenum [dest] fun d => Proc.bcast d fun m => after (one m) k

/-- `pokeSite` on node `me`, include/qdp_parscalarvec_specific.h:883-895 -/
def pokeSite {V : Type} (g : Geom) (me : Nat) (F : List (List V)) (v : V) (c : List Nat) : Outcome (List (List V)) := do
  let node ← g.nodeNumber c
  if me = node then do
    let i ← g.linearSiteIndex c
    setAt 2 F i v
  else ok F

/-- the subset on a node -/
def subOf (g : Geom) (me : Nat) (sub : SubsetOf) : Outcome Sub := do
  let S ← setMake g me sub.fn sub.nsub
  rd S.subs sub.cb

/-- the program on node `me`; `sum` is include/qdp_parscalarvec_specific.h:464-514 (its loop is that of `Vec.sumOver`) -/
def node {V R : Type} [Add V] [Zero V] (tot : List V → V) (g : Geom) (me : Nat) : Prog V R → Local V → Proc (List V) (R × Local V)
  | .ret r, s => .done (r, s)
  | .assign dst sub op rhs k, s => after (subOf g me sub) fun t => after (evaluate (s dst) op (rhs.inst s) t) fun F => node tot g me k (Function.update s dst F)
  | .zero dst k, s => after (zeroRep (g.sites / 4) (s dst)) fun F => node tot g me k (Function.update s dst F)
  | .copymask dst mask src test k, s => after (copymask test (g.sites / 4) (s dst) (s mask) (s src)) fun F => node tot g me k (Function.update s dst F)
  | .coord dst mu conv k, s => after (latticeCoordinate g me mu conv (s dst)) fun F => node tot g me k (Function.update s dst F)
  | .map dst src func k, s => mapNode g me func (s src) (s dst) fun F => node tot g me k (Function.update s dst F)
  | .peek src c k, s => peekSite g me (s src) c fun v => node tot g me (k v) s
  | .poke dst c v k, s => after (pokeSite g me (s dst) v c) fun F => node tot g me k (Function.update s dst F)
  | .sum sub rhs k, s => after (subOf g me sub) fun t => after (Vec.sumOver 2 (rhs.inst s) t) fun x =>
      .reduce [x] fun ms => after (addAll tot ms) fun y => node tot g me (k y) s

/-- the machine at the start of the program: no message under way -/
def start {V R : Type} [Add V] [Zero V] (tot : List V → V) (g : Geom) (p : Prog V R) (F : Nat → Local V) : State (List V) (R × Local V) :=
  { proc := fun me => node tot g me p (F me), queue := fun _ => [], log := fun _ => [] }

/-! ## Specification: fields are functions of the coordinates -/

/-- the value of an expression at a site -/
def Ex.at {V : Type} (f : Nat → List Nat → V) : Ex V → List Nat → V
  | .fld n, c => f n c
  | .op1 op a, c => op (a.at f c)
  | .op2 op a b, c => op (a.at f c) (b.at f c)

/-- what the program says: its result and the fields after it, if `S` is what sums give -/
def run {V R : Type} [Zero V] (S : SubsetOf → (List Nat → V) → V) : Prog V R → (Nat → List Nat → V) → R × (Nat → List Nat → V)
  | .ret r, f => (r, f)
  | .assign dst sub op rhs k, f => run S k (Function.update f dst fun c => if sub.fn c = sub.cb then op (f dst c) (rhs.at f c) else f dst c)
  | .zero dst k, f => run S k (Function.update f dst fun _ => 0)
  | .copymask dst mask src test k, f => run S k (Function.update f dst fun c => if test (f mask c) then f src c else f dst c)
  | .coord dst mu conv k, f => run S k (Function.update f dst fun c => conv (c.getD mu 0))
  | .map dst src func k, f => run S k (Function.update f dst fun c => f src (source func c))
  | .peek src c k, f => run S (k (f src c)) f
  | .poke dst c v k, f => run S k (Function.update f dst fun c' => if c' = c then v else f dst c')
  | .sum sub rhs k, f => run S (k (S sub (rhs.at f))) f

/-- the program with its statements left out -/
def strip {V R : Type} : Prog V R → Prog V R
  | .ret r => .ret r
  | .assign _ _ _ _ k => strip k
  | .zero dst k => .zero dst (strip k)
  | .copymask dst mask src test k => .copymask dst mask src test (strip k)
  | .coord dst mu conv k => .coord dst mu conv (strip k)
  | .map dst src func k => .map dst src func (strip k)
  | .peek src c k => .peek src c fun v => strip (k v)
  | .poke dst c v k => .poke dst c v (strip k)
  | .sum sub rhs k => .sum sub rhs fun v => strip (k v)

/-- the program makes sense on a lattice: colours are legal, coordinates and directions exist, maps are permutations that `Map::make` accepts -/
def Legal {V R : Type} (g : Geom) : Prog V R → Prop
  | .ret _ => True
  | .assign _ sub _ _ k => sub.Legal g.L ∧ Legal g k
  | .zero _ k => Legal g k
  | .copymask _ _ _ _ k => Legal g k
  | .coord _ mu _ k => mu < g.L.length ∧ Legal g k
  | .map _ _ func k => (∃ φ ψ, IsPerm g.L func φ ψ) ∧ (∀ n, n < g.nodes → ∃ t, make g n func = ok t) ∧ Legal g k
  | .peek _ c k => InRange c g.L ∧ ∀ v, Legal g (k v)
  | .poke _ c _ k => InRange c g.L ∧ Legal g k
  | .sum sub _ k => sub.Legal g.L ∧ ∀ v, Legal g (k v)

/-- the pieces on the nodes hold the field: node by node, four sites after the other in every vector -/
def Holds {V : Type} (g : Geom) (F : Nat → List (List V)) (f : List Nat → V) : Prop :=
  ∀ n, n < g.nodes → Shape 2 (g.sites / 4) (F n) ∧ ∀ i c, i < g.sites → g.siteCoords n i = ok c → Site 2 (F n) i (f c)

def HoldsAll {V : Type} (g : Geom) (F : Nat → Local V) (f : Nat → List Nat → V) : Prop := ∀ x, Holds g (fun n => F n x) (f x)

/-- the linear sites of a subset on a node -/
def subSites (g : Geom) (n : Nat) (sub : SubsetOf) : List Nat := (List.range g.sites).filter fun i => sub.fn (co g n i) = sub.cb

/-- the sites a sum takes in: if the subset lies in one stretch, whole vectors -/
def covered (g : Geom) (n : Nat) (sub : SubsetOf) : List Nat :=
  if subSites g n sub = List.range' ((subSites g n sub).headD 0) (subSites g n sub).length then
    (List.range g.sites).filter fun i => (subSites g n sub).any fun j => j / 4 == i / 4
  else subSites g n sub

/-- the sum of a function over the sites the sums of the nodes take in -/
def vecSum {V : Type} [AddCommMonoid V] (g : Geom) (sub : SubsetOf) (w : List Nat → V) : V :=
  ∑ n ∈ Finset.range g.nodes, ((covered g n sub).map fun i => w (co g n i)).sum

/-- every execution from `s` ends after the same number of steps, with no node left waiting, all nodes having the result `r` and the pieces of the fields `f` -/
def AlwaysEndsIn {V R : Type} (net : Net) (g : Geom) (s : State (List V) (R × Local V)) (r : R) (f : Nat → List Nat → V) : Prop :=
  ∃ N : Nat, ∀ (m : Nat) (t : State (List V) (R × Local V)), Run net g.nodes m s t →
    m ≤ N ∧ (Final net g.nodes t ↔ m = N) ∧
    (Final net g.nodes t → ∃ F', (∀ n, n < g.nodes → t.proc n = .done (r, F' n)) ∧ HoldsAll g F' f)

end Verif.VecNodes
