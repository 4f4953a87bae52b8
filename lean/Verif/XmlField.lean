import Verif.PeekPoke
import Verif.LatticeIONetProps
import Verif.XmlTree
import Verif.VecThm
import Mathlib.Data.Fin.VecNotation
import Mathlib.Tactic.FinCases
/-
XML output of fields and of single numbers, vectors, matrices; XML input of complex numbers and seeds.

An XML writer is the list of what it was asked to write so far: an opening tag with its attributes, text, a closing tag.  The class `XMLSimpleWriter`
behind it, which turns this into characters, and the XPath reader are not in the repository.  `closeTag` closes the innermost open tag.

The text of a word (`int`, `float`, …) is a parameter: it is the business of C96 and C70.
-/
namespace Verif.XmlField
open Verif Outcome ByteOrder Verif.Layout Verif.ParLayout Verif.Subset Verif.Network Verif.PeekPoke
open Verif.ArchiveHdr (showInt)

/-! ## model -/

/-- attributes of a tag -/
abbrev Attrs := List (String × List Byte)

/-- what a writer is asked to write -/
inductive Ev where
  | op (tag : String) (attrs : Attrs)
  | tx (text : List Byte)
  | cl

/-- `XMLWriter::openTag`, lib/qdp_xmlio.cc:636-660, on node `me`: only the primary node writes -/
def openTag (me : Nat) (tag : String) (a : Attrs) (d : List Ev) : List Ev := if me = 0 then d ++ [.op tag a] else d
/-- `XMLWriter::closeTag`, lib/qdp_xmlio.cc:662-666 -/
def closeTag (me : Nat) (d : List Ev) : List Ev := if me = 0 then d ++ [.cl] else d
/-- `XMLWriter::write`, lib/qdp_xmlio.cc:689-738 -/
def put (me : Nat) (t : List Byte) (d : List Ev) : List Ev := if me = 0 then d ++ [.tx t] else d

/-- the types below the lattice: `OScalar`, `PScalar` and `RScalar` write what they hold (include/qdp_outer.h:208-211, include/qdp_primscalar.h:220-223,
include/qdp_reality.h:224-227) -/
inductive Fib where
  | word
  | cplx (t : Fib)
  | vec (n : Nat) (t : Fib)
  | svec (n : Nat) (t : Fib)
  | mat (n : Nat) (t : Fib)
  | seed (t : Fib)

/-- values, the words being of type `W` -/
def Den (W : Type) : Fib → Type
  | .word => W
  | .cplx t => Den W t × Den W t
  | .vec n t => Fin n → Den W t
  | .svec n t => Fin n → Den W t
  | .mat n t => Fin n → Fin n → Den W t
  | .seed t => Fin 4 → Den W t

/-- the text of an `int` attribute -/
def num (i : Nat) : List Byte := showInt (i : Int)

/-- `operator<<(XMLWriter&, …)` on node `me`: `RComplex` include/qdp_reality.h:430-440, `PVector` include/qdp_primvector.h:205-224, `PSpinVector`
include/qdp_primspinvec.h:173-192, `PMatrix` include/qdp_primmatrix.h:194-216, `PSeed` include/qdp_primseed.h:173-187 -/
def put1 {W : Type} (txt : W → List Byte) (me : Nat) : (t : Fib) → Den W t → List Ev → List Ev
  | .word, w, d => put me (txt w) d
  | .cplx t, z, d => closeTag me (put1 txt me t z.2 (openTag me "im" [] (closeTag me (put1 txt me t z.1 (openTag me "re" [] d)))))
  | .vec n t, v, d => closeTag me ((List.finRange n).foldl (fun d i => closeTag me (put1 txt me t (v i) (openTag me "elem" [("row", num i)] d))) (openTag me "Vector" [] d))
  | .svec n t, v, d => closeTag me ((List.finRange n).foldl (fun d i => closeTag me (put1 txt me t (v i) (openTag me "elem" [("row", num i)] d))) (openTag me "SpinVector" [] d))
  | .mat n t, v, d => closeTag me ((List.finRange n).foldl (fun d i =>
      (List.finRange n).foldl (fun d j => closeTag me (put1 txt me t (v i j) (openTag me "elem" [("row", num i), ("col", num j)] d))) d) (openTag me "Matrix" [] d))
  | .seed t, v, d => closeTag me ((List.finRange 4).foldl (fun d i => closeTag me (put1 txt me t (v i) (openTag me "elem" [] d))) (openTag me "Seed" [] d))

/-- `write(xml, s, x)` of an `OScalar`, include/qdp_xmlio.h:870-877 -/
def write1 {W : Type} (txt : W → List Byte) (me : Nat) (t : Fib) (s : String) (x : Den W t) (d : List Ev) : List Ev :=
  closeTag me (put1 txt me t x (openTag me s [] d))

/-- `os << coord[0]; for(i=1; …) os << " " << coord[i]`, include/qdp_parscalar_specific.h:2533-2536 -/
def coordText (c : List Nat) : List Byte := XmlNum.writeArray (c.map Int.ofNat)

/-- the element of a site, include/qdp_parscalar_specific.h:2538-2545, include/qdp_scalar_specific.h:2070-2077 -/
def putSite {W : Type} (txt : W → List Byte) (me : Nat) (t : Fib) (site : Nat) (c : List Nat) (x : Den W t) (d : List Ev) : List Ev :=
  closeTag me (put1 txt me t x (openTag me "elem" [("site", num site), ("coord", coordText c)] d))

/-- `QDPInternal::route` of a value to the primary node, lib/qdp_parscalar_specific.cc:310-323 (a message, see Verif.LatticeIONet); the call is made only if
the node is not the primary one, include/qdp_parscalar_specific.h:2516-2528.  The buffer of the primary node is the value received. -/
def routeV {V R : Type} (me node : Nat) (buf : V) (k : V → Proc V R) : Proc V R :=
  if node ≠ 0 then
    if me = node then .send 0 buf (.wait 0 (k buf)) else if me = 0 then .recv node k else k buf
  else k buf

/-- one pass of the loop over the sites on node `me`, include/qdp_parscalar_specific.h:2506-2546 -/
def siteStep {W R : Type} (txt : W → List Byte) (g : Geom) (t : Fib) (me : Nat) (F : List (Den W t)) (site : Nat) (buf : Den W t) (d : List Ev)
    (k : Den W t → List Ev → Proc (Den W t) R) : Proc (Den W t) R :=
  after (crtesn site g.L) fun c => after (g.nodeNumber c) fun node => after (g.linearSiteIndex c) fun linear =>
  after (if me = node then rd F linear else ok buf) fun buf =>
  routeV me node buf fun buf => k buf (if me = 0 then putSite txt me t site c buf d else d)

/-- the loop -/
def siteLoop {W R : Type} (txt : W → List Byte) (g : Geom) (t : Fib) (me : Nat) (F : List (Den W t)) : List Nat → Den W t → List Ev →
    (List Ev → Proc (Den W t) R) → Proc (Den W t) R
  | [], _, d, k => k d
  | s :: ss, buf, d, k => siteStep txt g t me F s buf d fun buf d => siteLoop txt g t me F ss buf d k

/-- `operator<<(XMLWriter&, OLattice)` on node `me` of many, include/qdp_parscalar_specific.h:2497-2551; `junk` is what the buffer holds at first -/
def putField {W R : Type} (txt : W → List Byte) (g : Geom) (t : Fib) (me : Nat) (F : List (Den W t)) (junk : Den W t) (d : List Ev)
    (k : List Ev → Proc (Den W t) R) : Proc (Den W t) R :=
  siteLoop txt g t me F (List.range (nsites g.L)) junk (openTag me "OLattice" [] d) fun d => k (closeTag me d)

/-- `write(xml, s, x)` of an `OLattice`, include/qdp_xmlio.h:880-887 -/
def writeField {W R : Type} (txt : W → List Byte) (g : Geom) (t : Fib) (me : Nat) (s : String) (F : List (Den W t)) (junk : Den W t) (d : List Ev)
    (k : List Ev → Proc (Den W t) R) : Proc (Den W t) R :=
  putField txt g t me F junk (openTag me s [] d) fun d => k (closeTag me d)

/-- one node: the loop over the sites with the value of a site found by `at`.  include/qdp_scalar_specific.h:2055-2082; the vector library,
include/qdp_scalarvec_specific.h:1283-1315, finds the value with `getSite` in the outer element -/
def putFieldS {W : Type} (txt : W → List Byte) (L : List Nat) (t : Fib) (get : List Nat → Outcome (Den W t)) (d : List Ev) : Outcome (List Ev) := do
  let d ← LatticeIO.foldO (fun d site => do
    let c ← crtesn site L
    let x ← get c
    return putSite txt 0 t site c x d) (openTag 0 "OLattice" [] d) (List.range (nsites L))
  return closeTag 0 d

/-- the element that the reader sees in a tag: its texts one after the other, the elements inside -/
inductive Tree where
  | text (t : List Byte)
  | node (tag : String) (attrs : Attrs) (kids : List Tree)

mutual
/-- what an XPath reader sees of an element (attributes are not asked for) -/
def toNodes : List Tree → List XmlTree.Node
  | [] => []
  | .text _ :: ts => toNodes ts
  | .node s a k :: ts => .mk s (textOf k) (toNodes k) :: toNodes ts
/-- the text of an element -/
def textOf : List Tree → List Byte
  | [] => []
  | .text t :: ts => t ++ textOf ts
  | .node _ _ _ :: ts => textOf ts
end

/-- `read(xml, path, x)` when `path` finds the element `n`: words by `rdW`; `RComplex` include/qdp_reality.h:445-479; `PSeed` include/qdp_primseed.h:193-206
with the `multi1d` template include/qdp_xmlio.h:202-247.  There is no such function for vectors and matrices. -/
def read1 {W : Type} (rdW : XmlTree.Node → Outcome W) : (t : Fib) → XmlTree.Node → Outcome (Den W t)
  | .word, n => rdW n
  | .cplx t, n => do
    let a ← n.find "re" >>= read1 rdW t
    let b ← n.find "im" >>= read1 rdW t
    return ((a, b) : Den W t × Den W t)
  | .seed t, n => do
    let s ← n.find "Seed"
    let ff ← mapO (read1 rdW t) (s.all "elem")
    let a ← rd ff 0
    let b ← rd ff 1
    let c ← rd ff 2
    let e ← rd ff 3
    return (![a, b, c, e] : Fin 4 → Den W t)
  | .vec _ _, _ => abort
  | .svec _ _, _ => abort
  | .mat _ _, _ => abort

/-- types with an XML reader -/
def Readable : Fib → Prop
  | .word => True
  | .cplx t => Readable t
  | .seed t => Readable t
  | _ => False

/-- `write(xml, s, c)` of a `char`, lib/qdp_xmlio.cc:803-807: a string of one character -/
def writeChar (c : Byte) : List Byte := [c]
/-- `xml << c`, lib/qdp_xmlio.cc:857: there is no `XMLWriter::write(char)`, the character is promoted to `int` (here `char` is signed) -/
def putChar (c : Byte) : List Byte := showInt c.toInt
/-- `read(xml, path, c)`, lib/qdp_xmlio.cc:265-271: the first character of the text; for the empty text `d[0]` is the character 0 -/
def readChar (t : List Byte) : Byte := t.headD 0

/-! ## specification -/

mutual
/-- a tree as opening tags, text and closing tags -/
def events : Tree → List Ev
  | .text t => [.tx t]
  | .node s a k => .op s a :: (eventsL k ++ [.cl])
def eventsL : List Tree → List Ev
  | [] => []
  | t :: ts => events t ++ eventsL ts
end

/-- reading tags with a stack: `none` unless every closing tag closes an open one and none stays open -/
def parse : List Ev → List (String × Attrs × List Tree) → List Tree → Option (List Tree)
  | [], [], acc => some acc
  | [], _ :: _, _ => none
  | .op s a :: es, st, acc => parse es ((s, a, acc) :: st) []
  | .tx t :: es, st, acc => parse es st (acc ++ [.text t])
  | .cl :: _, [], _ => none
  | .cl :: es, (s, a, outer) :: st, acc => parse es st (outer ++ [.node s a acc])

/-- the content of a value -/
def content {W : Type} (txt : W → List Byte) : (t : Fib) → Den W t → List Tree
  | .word, w => [.text (txt w)]
  | .cplx t, z => [.node "re" [] (content txt t z.1), .node "im" [] (content txt t z.2)]
  | .vec n t, v => [.node "Vector" [] ((List.finRange n).map fun i : Fin n => .node "elem" [("row", num i)] (content txt t (v i)))]
  | .svec n t, v => [.node "SpinVector" [] ((List.finRange n).map fun i : Fin n => .node "elem" [("row", num i)] (content txt t (v i)))]
  | .mat n t, v => [.node "Matrix" [] ((List.finRange n).flatMap fun i : Fin n => (List.finRange n).map fun j : Fin n => .node "elem" [("row", num i), ("col", num j)] (content txt t (v i j)))]
  | .seed t, v => [.node "Seed" [] ((List.finRange 4).map fun i => .node "elem" [] (content txt t (v i)))]

/-- the element of the site `c` -/
def siteTree {W : Type} (txt : W → List Byte) (t : Fib) (L : List Nat) (f : List Nat → Den W t) (c : List Nat) : Tree :=
  .node "elem" [("site", num (rank c L)), ("coord", coordText c)] (content txt t (f c))

/-- all coordinates, the first direction running fastest -/
def coords (L : List Nat) : List (List Nat) := (List.range (nsites L)).map fun p => digits p L

/-- the document of a field: one element for every site -/
def fieldTree {W : Type} (txt : W → List Byte) (t : Fib) (L : List Nat) (f : List Nat → Den W t) : Tree :=
  .node "OLattice" [] ((coords L).map (siteTree txt t L f))

/-! ## proofs -/

theorem eventsL_append : ∀ a b : List Tree, eventsL (a ++ b) = eventsL a ++ eventsL b
  | [], b => by simp [eventsL]
  | t :: ts, b => by simp [eventsL, eventsL_append ts b]

theorem eventsL_flatMap {α : Type} (f : α → List Tree) : ∀ l : List α, eventsL (l.flatMap f) = l.flatMap fun x => eventsL (f x)
  | [] => by simp [eventsL]
  | a :: l => by simp [eventsL_append, eventsL_flatMap f l]

theorem eventsL_map {α : Type} (f : α → Tree) : ∀ l : List α, eventsL (l.map f) = l.flatMap fun x => events (f x)
  | [] => by simp [eventsL]
  | a :: l => by simp [eventsL, eventsL_map f l]

theorem foldl_append {α : Type} (f : List Ev → α → List Ev) (h : α → List Ev) (hf : ∀ d x, f d x = d ++ h x) : ∀ (l : List α) (d : List Ev),
    l.foldl f d = d ++ l.flatMap h
  | [], d => by simp
  | a :: l, d => by simp [hf, foldl_append f h hf l]

/-- the primary node appends the content of the value -/
theorem put1_eq {W : Type} (txt : W → List Byte) : ∀ (t : Fib) (x : Den W t) (d : List Ev), put1 txt 0 t x d = d ++ eventsL (content txt t x)
  | .word, w, d => by simp [put1, put, content, eventsL, events]
  | .cplx t, z, d => by simp [put1, openTag, closeTag, put1_eq txt t, content, eventsL, events]
  | .vec n t, v, d => by
    simp only [put1, openTag, closeTag, put1_eq txt t, if_true]
    rw [foldl_append _ (fun i => events (.node "elem" [("row", num i.val)] (content txt t (v i)))) (fun d i => by simp [events])]
    simp [content, eventsL, events, eventsL_map]
  | .svec n t, v, d => by
    simp only [put1, openTag, closeTag, put1_eq txt t, if_true]
    rw [foldl_append _ (fun i => events (.node "elem" [("row", num i.val)] (content txt t (v i)))) (fun d i => by simp [events])]
    simp [content, eventsL, events, eventsL_map]
  | .mat n t, v, d => by
    simp only [put1, openTag, closeTag, put1_eq txt t, if_true]
    rw [foldl_append _ (fun i => (List.finRange n).flatMap fun j => events (.node "elem" [("row", num i.val), ("col", num j.val)] (content txt t (v i j))))
      (fun d i => by rw [foldl_append _ (fun j => events (.node "elem" [("row", num i.val), ("col", num j.val)] (content txt t (v i j)))) (fun d j => by simp [events])])]
    simp [content, eventsL, events, eventsL_map, eventsL_flatMap]
  | .seed t, v, d => by
    simp only [put1, openTag, closeTag, put1_eq txt t, if_true]
    rw [foldl_append _ (fun i => events (.node "elem" [] (content txt t (v i)))) (fun d i => by simp [events])]
    simp [content, eventsL, events, eventsL_map]

/-- the other nodes write nothing -/
theorem put1_other {W : Type} (txt : W → List Byte) {me : Nat} (hm : me ≠ 0) : ∀ (t : Fib) (x : Den W t) (d : List Ev), put1 txt me t x d = d
  | .word, w, d => by simp [put1, put, hm]
  | .cplx t, z, d => by simp [put1, openTag, closeTag, hm, put1_other txt hm t]
  | .vec n t, v, d => by simp [put1, openTag, closeTag, hm, put1_other txt hm t]
  | .svec n t, v, d => by simp [put1, openTag, closeTag, hm, put1_other txt hm t]
  | .mat n t, v, d => by simp [put1, openTag, closeTag, hm, put1_other txt hm t]
  | .seed t, v, d => by simp [put1, openTag, closeTag, hm, put1_other txt hm t]

theorem write1_eq {W : Type} (txt : W → List Byte) (t : Fib) (s : String) (x : Den W t) (d : List Ev) :
    write1 txt 0 t s x d = d ++ events (.node s [] (content txt t x)) := by
  simp [write1, openTag, closeTag, put1_eq, events]

theorem putSite_eq {W : Type} (txt : W → List Byte) (t : Fib) (L : List Nat) (f : List Nat → Den W t) {p : Nat} (hp : p < nsites L) (d : List Ev) :
    putSite txt 0 t p (digits p L) (f (digits p L)) d = d ++ events (siteTree txt t L f (digits p L)) := by
  simp [putSite, openTag, closeTag, put1_eq, siteTree, events, rank_digits hp]

theorem fieldTree_events {W : Type} (txt : W → List Byte) (t : Fib) (L : List Nat) (f : List Nat → Den W t) :
    events (fieldTree txt t L f) = .op "OLattice" [] :: ((List.range (nsites L)).flatMap (fun p => events (siteTree txt t L f (digits p L))) ++ [.cl]) := by
  simp [fieldTree, events, coords, eventsL_map, List.flatMap_map]

theorem routeV_eq {V R : Type} (me node : Nat) (buf : V) (k : V → Proc V R) : routeV me node buf k = sendToPrimary me node buf k := by
  unfold routeV sendToPrimary
  by_cases h : node = 0
  · simp [h]
  · simp only [ne_eq, h, not_false_eq_true, if_true]
    by_cases h0 : me = 0
    · subst h0
      have : (0 : Nat) ≠ node := fun e => h e.symm
      simp [this]
    · simp [h0]

theorem step_all {W R : Type} (txt : W → List Byte) (net : Net) (g : Geom) (hg : g.Good) (h0 : 0 < g.nodes) (t : Fib) (F : Nat → List (Den W t))
    (f : List Nat → Den W t) (hF : Holds g F f) (site : Nat) (c : List Nat) (hc : crtesn site g.L = ok c) (hr : InRange c g.L) (B : Nat → Den W t)
    (D : Nat → List Ev) (k : Nat → Den W t → List Ev → Proc (Den W t) R) (s : State (Den W t) R) (e : Nat)
    (h : At g.nodes s (fun n => siteStep txt g t n (F n) site (B n) (D n) (k n)) e) :
    ∃ (m : Nat) (u : State (Den W t) R) (B' : Nat → Den W t), Run net g.nodes m s u ∧ At g.nodes u (fun n => k n (B' n) (if n = 0 then putSite txt 0 t site c (f c) (D 0) else D n)) e := by
  obtain ⟨node, i, e1, hn, e2, hi, e3⟩ := hg.1 c hr
  have hP : ∀ n, siteStep txt g t n (F n) site (B n) (D n) (k n) =
      sendToPrimary n node (if n = node then f c else B n) (fun b => k n b (if n = 0 then putSite txt n t site c b (D n) else D n)) := by
    intro n
    rw [siteStep, hc]; simp only [after]; rw [e1]; simp only; rw [e2]; simp only
    have hx : (if n = node then rd (F n) i else ok (B n)) = ok (if n = node then f c else B n) := by
      by_cases hnn : n = node
      · subst hnn; rw [if_pos rfl, if_pos rfl, rd_some ((hF n hn).2 i c hi e3)]
      · rw [if_neg hnn, if_neg hnn]
    rw [hx]; simp only; rw [routeV_eq]
  obtain ⟨m, u, D', hrun, hat, hD⟩ := send_all net g.nodes h0 s node hn _ _ e ⟨fun n hn => by rw [h.proc n hn, hP n], h.queue, h.log⟩
  rw [if_pos rfl] at hD
  refine ⟨m, u, D', hrun, ⟨fun n hn => ?_, hat.queue, hat.log⟩⟩
  rw [hat.proc n hn]
  by_cases hz : n = 0
  · subst hz; simp [hD]
  · simp [hz]

theorem loop_all {W R : Type} (txt : W → List Byte) (net : Net) (g : Geom) (hg : g.Good) (h0 : 0 < g.nodes) (hL : ∀ l ∈ g.L, 0 < l) (t : Fib)
    (F : Nat → List (Den W t)) (f : List Nat → Den W t) (hF : Holds g F f) : ∀ (ss : List Nat), (∀ p ∈ ss, p < nsites g.L) → ∀ (B : Nat → Den W t)
    (D : Nat → List Ev) (k : Nat → List Ev → Proc (Den W t) R) (s : State (Den W t) R) (e : Nat),
    At g.nodes s (fun n => siteLoop txt g t n (F n) ss (B n) (D n) (k n)) e →
    ∃ m u, Run net g.nodes m s u ∧ At g.nodes u (fun n => k n (if n = 0 then D 0 ++ ss.flatMap (fun p => events (siteTree txt t g.L f (digits p g.L))) else D n)) e := by
  intro ss
  induction ss with
  | nil =>
    intro _ B D k s e h
    refine ⟨0, s, Run.refl _, ⟨fun n hn => ?_, h.queue, h.log⟩⟩
    rw [h.proc n hn]
    by_cases hz : n = 0
    · subst hz; simp [siteLoop]
    · simp [siteLoop, hz]
  | cons p ss ih =>
    intro hp B D k s e h
    have hpp := hp p (by simp)
    have hcr := crtesn_eq hL p
    obtain ⟨m, u, B', r1, a1⟩ := step_all txt net g hg h0 t F f hF p (digits p g.L) hcr (LatticeIONet.crtesn_inRange hcr) B D
      (fun n b d => siteLoop txt g t n (F n) ss b d (k n)) s e h
    obtain ⟨m2, u2, r2, a2⟩ := ih (fun q hq => hp q (by simp [hq])) B' _ k u e a1
    refine ⟨_, u2, r1.trans r2, ⟨fun n hn => ?_, a2.queue, a2.log⟩⟩
    rw [a2.proc n hn]
    by_cases hz : n = 0
    · subst hz; simp [putSite_eq txt t g.L f hpp]
    · simp [hz]

/-- every execution from `s` ends after the same number of steps, no node left waiting, and the results of the nodes satisfy `P` -/
def AlwaysEnds {V R : Type} (net : Net) (N : Nat) (s : State V R) (P : (Nat → R) → Prop) : Prop :=
  ∃ T : Nat, ∀ (m : Nat) (t : State V R), Run net N m s t →
    m ≤ T ∧ (Final net N t ↔ m = T) ∧ (Final net N t → ∃ r, (∀ n, n < N → t.proc n = .done (r n)) ∧ P r)

theorem alwaysEnds {V R : Type} {net : Net} {N : Nat} {s t : State V R} {P : (Nat → R) → Prop} {m e : Nat} (hr : Run net N m s t) (r : Nat → R)
    (he : At N t (fun n => .done (r n)) e) (hP : P r) : AlwaysEnds net N s P := by
  have hfin : Final net N t := final_of_done net N t r he.proc
  refine ⟨m, fun m' t' ht => ?_⟩
  obtain ⟨hle, hrest⟩ := all_executions hr hfin ht
  refine ⟨hle, ⟨fun hft => (stuck_is_end hr hfin ht hft).2, ?_⟩, ?_⟩
  · rintro rfl
    rw [Nat.sub_self] at hrest
    cases hrest
    exact hfin
  · intro hft
    obtain ⟨rfl, -⟩ := stuck_is_end hr hfin ht hft
    exact ⟨r, he.proc, hP⟩

/-- the machine at the beginning of the output of a field: node `n` has the piece `F n`, a buffer that holds `junk n`, the writer `D n` -/
def start {W : Type} (txt : W → List Byte) (g : Geom) (t : Fib) (s : String) (F : Nat → List (Den W t)) (junk : Nat → Den W t) (D : Nat → List Ev) :
    State (Den W t) (List Ev) :=
  { proc := fun n => writeField txt g t n s (F n) (junk n) (D n) .done, queue := fun _ => [], log := fun _ => [] }

/-- C103: `write(xml, s, field)` on any number of nodes: every execution ends, no node waits forever, and the primary node has added to its document the element
`s` with the document of the field, one element for every site in lexicographic order, whatever the machine.  The other nodes write nothing. -/
theorem C103_document {W : Type} (txt : W → List Byte) (net : Net) (g : Geom) (hg : g.Good) (h0 : 0 < g.nodes) (hL : ∀ l ∈ g.L, 0 < l) (t : Fib) (s : String)
    (F : Nat → List (Den W t)) (f : List Nat → Den W t) (hF : Holds g F f) (junk : Nat → Den W t) (D : Nat → List Ev) :
    AlwaysEnds net g.nodes (start txt g t s F junk D) fun r =>
      r 0 = D 0 ++ events (.node s [] [fieldTree txt t g.L f]) ∧ ∀ n, n ≠ 0 → r n = D n := by
  obtain ⟨m, u, hr, ha⟩ := loop_all txt net g hg h0 hL t F f hF (List.range (nsites g.L)) (by simp) junk
    (fun n => openTag n "OLattice" [] (openTag n s [] (D n))) (fun n d => .done (closeTag n (closeTag n d))) (start txt g t s F junk D) 0
    ⟨fun _ _ => rfl, fun _ => rfl, fun _ _ => rfl⟩
  refine alwaysEnds hr _ ha ⟨?_, fun n hn => by simp [hn, openTag, closeTag]⟩
  simp [openTag, closeTag, events, eventsL, fieldTree_events]

/-- the sequential loops -/
theorem putFieldS_eq {W : Type} (txt : W → List Byte) (L : List Nat) (hL : ∀ l ∈ L, 0 < l) (t : Fib) (get : List Nat → Outcome (Den W t))
    (f : List Nat → Den W t) (hget : ∀ c, InRange c L → get c = ok (f c)) (d : List Ev) :
    putFieldS txt L t get d = ok (d ++ events (fieldTree txt t L f)) := by
  have key : ∀ (ss : List Nat), (∀ p ∈ ss, p < nsites L) → ∀ d : List Ev, LatticeIO.foldO (fun d site => (do
      let c ← crtesn site L
      let x ← get c
      return putSite txt 0 t site c x d)) d ss = ok (d ++ ss.flatMap (fun p => events (siteTree txt t L f (digits p L)))) := by
    intro ss
    induction ss with
    | nil => intro _ d; simp [LatticeIO.foldO]
    | cons p ss ih =>
      intro hp d
      have hcr := crtesn_eq hL p
      rw [LatticeIO.foldO, hcr, ok_bind, hget _ (LatticeIONet.crtesn_inRange hcr), ok_bind, pure_def, ok_bind, putSite_eq txt t L f (hp p (by simp)), ih (fun q hq => hp q (by simp [hq]))]
      simp
  rw [putFieldS, key _ (by simp), ok_bind, pure_def, fieldTree_events]
  simp [openTag, closeTag]

/-- C103: one node writes the same document. -/
theorem C103_one_node {W : Type} (txt : W → List Byte) (g : Geom) (hg : g.Good) (h1 : g.nodes = 1) (hL : ∀ l ∈ g.L, 0 < l) (t : Fib) (F : List (Den W t))
    (f : List Nat → Den W t) (hF : Holds g (fun _ => F) f) (d : List Ev) :
    putFieldS txt g.L t (peekSite1 g.linearSiteIndex F) d = ok (d ++ events (fieldTree txt t g.L f)) := by
  refine putFieldS_eq txt g.L hL t _ f (fun c hc => ?_) d
  obtain ⟨node, i, e1, hn, e2, hi, e3⟩ := hg.1 c hc
  have : node = 0 := by omega
  subst this
  rw [peekSite1, e2, ok_bind, rd_some ((hF 0 (by omega)).2 i c hi e3)]

/-- C103: the vector library writes the same document. -/
theorem C103_vector {W : Type} (txt : W → List Byte) (k : Nat) (g : Geom) (hg : Vec.Lattice k g) (hL : ∀ l ∈ g.L, 0 < l) (t : Fib) (F : List (List (Den W t)))
    (f : List Nat → Den W t) (hF : Vec.Holds k g F f) (d : List Ev) :
    putFieldS txt g.L t (Vec.peekSite k g F) d = ok (d ++ events (fieldTree txt t g.L f)) :=
  putFieldS_eq txt g.L hL t _ f (fun c hc => Vec.C100_peek k g hg F f hF c hc) d

mutual
theorem parse_tree : ∀ (t : Tree) (es : List Ev) (st : List (String × Attrs × List Tree)) (acc : List Tree), parse (events t ++ es) st acc = parse es st (acc ++ [t])
  | .text b, es, st, acc => by simp [events, parse]
  | .node s a k, es, st, acc => by
    rw [events, List.cons_append, parse, List.append_assoc, parse_trees k]
    simp [parse]
theorem parse_trees : ∀ (l : List Tree) (es : List Ev) (st : List (String × Attrs × List Tree)) (acc : List Tree), parse (eventsL l ++ es) st acc = parse es st (acc ++ l)
  | [], es, st, acc => by simp [eventsL]
  | t :: ts, es, st, acc => by rw [eventsL, List.append_assoc, parse_tree t, parse_trees ts]; simp
end

/-- C103: tags read with a stack give the tree back: every tag is closed by its own closing tag. -/
theorem C103_well_formed (t : Tree) : parse (events t) [] [] = some [t] := by
  have := parse_tree t [] [] []
  simpa [parse] using this

theorem events_inj {a b : Tree} (h : events a = events b) : a = b := by
  have h1 := C103_well_formed a
  rw [h, C103_well_formed b] at h1
  simpa using h1.symm

theorem map_inj {α β : Type} {f g : α → β} {l : List α} (h : l.map f = l.map g) {x : α} (hx : x ∈ l) : f x = g x :=
  List.map_inj_left.1 h x hx

theorem flatMap_inj {α β : Type} {f g : α → List β} : ∀ {l : List α}, (∀ x, (f x).length = (g x).length) → l.flatMap f = l.flatMap g → ∀ x ∈ l, f x = g x
  | [], _, _, _, hx => by cases hx
  | a :: l, hl, h, x, hx => by
    rw [List.flatMap_cons, List.flatMap_cons] at h
    obtain ⟨h1, h2⟩ := List.append_inj h (hl a)
    rcases List.mem_cons.1 hx with rfl | hx
    · exact h1
    · exact flatMap_inj hl h2 x hx

/-- the content determines the value, if the text of a word determines the word -/
theorem content_inj {W : Type} {txt : W → List Byte} (ht : Function.Injective txt) : ∀ (t : Fib) {x y : Den W t}, content txt t x = content txt t y → x = y
  | .word, x, y, h => by
    simp only [content, List.cons.injEq, Tree.text.injEq, and_true] at h; exact ht h
  | .cplx t, x, y, h => by
    simp only [content, List.cons.injEq, Tree.node.injEq, true_and, and_true] at h
    exact Prod.ext (content_inj ht t h.1) (content_inj ht t h.2)
  | .vec n t, x, y, h => by
    simp only [content, List.cons.injEq, Tree.node.injEq, true_and, and_true] at h
    funext i
    have := map_inj h (List.mem_finRange i)
    simp only [Tree.node.injEq, true_and] at this
    exact content_inj ht t this
  | .svec n t, x, y, h => by
    simp only [content, List.cons.injEq, Tree.node.injEq, true_and, and_true] at h
    funext i
    have := map_inj h (List.mem_finRange i)
    simp only [Tree.node.injEq, true_and] at this
    exact content_inj ht t this
  | .mat n t, x, y, h => by
    simp only [content, List.cons.injEq, Tree.node.injEq, true_and, and_true] at h
    funext i j
    have h1 := flatMap_inj (by simp) h i (List.mem_finRange i)
    have := map_inj h1 (List.mem_finRange j)
    simp only [Tree.node.injEq, true_and] at this
    exact content_inj ht t this
  | .seed t, x, y, h => by
    simp only [content, List.cons.injEq, Tree.node.injEq, true_and, and_true] at h
    funext i
    have := map_inj h (List.mem_finRange i)
    simp only [Tree.node.injEq, true_and] at this
    exact content_inj ht t this

/-- C103: nothing is lost: fields with the same document have the same value at every site, if words with the same text are equal. -/
theorem C103_faithful {W : Type} {txt : W → List Byte} (ht : Function.Injective txt) (t : Fib) (L : List Nat) (f f' : List Nat → Den W t)
    (h : events (fieldTree txt t L f) = events (fieldTree txt t L f')) (c : List Nat) (hc : InRange c L) : f c = f' c := by
  have := events_inj h
  simp only [fieldTree, Tree.node.injEq, true_and] at this
  have hm : c ∈ coords L := List.mem_map.2 ⟨rank c L, List.mem_range.2 (rank_lt hc), digits_rank hc⟩
  have := map_inj this hm
  simp only [siteTree, Tree.node.injEq, true_and] at this
  exact content_inj ht t this

/-- C103: every site of the lattice has exactly one element, at the position of its lexicographic number. -/
theorem C103_sites (L : List Nat) :
    (coords L).Nodup ∧ (∀ c, c ∈ coords L ↔ InRange c L) ∧ ∀ c, InRange c L → (coords L)[rank c L]? = some c := by
  refine ⟨?_, fun c => ?_, fun c hc => ?_⟩
  · rw [coords]
    refine List.Nodup.map_on (fun p hp q hq e => ?_) List.nodup_range
    rw [← rank_digits (List.mem_range.1 hp), ← rank_digits (List.mem_range.1 hq), e]
  · rw [coords, List.mem_map]
    constructor
    · rintro ⟨p, hp, rfl⟩
      have hL : ∀ l ∈ L, 0 < l := fun l hl => pos_of_nsites_pos (Nat.lt_of_le_of_lt (Nat.zero_le _) (List.mem_range.1 hp)) l hl
      exact LatticeIONet.crtesn_inRange (crtesn_eq hL p)
    · intro hc
      exact ⟨rank c L, List.mem_range.2 (rank_lt hc), digits_rank hc⟩
  · simp [coords, rank_lt hc, digits_rank hc]

/-- the attributes `row`, `col` and `site` read as numbers are the index: counting from zero, in decimal digits, without space -/
theorem C103_index (i : Nat) : ArchiveHdr.scanInt ((num i).dropWhile ArchiveHdr.isSpace) = some ((i : Int), []) ∧ num 0 = [48] ∧ num 10 = [49, 48] := by
  refine ⟨ArchiveHdr.scanInt_show _, by decide, ?_⟩
  simp [num, ArchiveHdr.showInt, ArchiveHdr.showNat, ArchiveHdr.digitByte]

/-- C103: the `coord` attribute, read as an array of integers, is the coordinate. -/
theorem C103_coord (c : List Nat) (hc : ∀ x ∈ c, x < 2 ^ 31) (d : Int) : XmlNum.readArray XmlNum.i32 (coordText c) d = ok (c.map Int.ofNat) := by
  refine (XmlNum.C70_round_trip (T := XmlNum.i32) (by simp [XmlNum.nums]) _ (fun z hz => ?_) d).1
  obtain ⟨x, hx, rfl⟩ := List.mem_map.1 hz
  have := hc x hx
  simp only [XmlNum.i32]
  constructor
  · have : (0 : Int) ≤ Int.ofNat x := Int.natCast_nonneg x
    omega
  · have : (Int.ofNat x) = (x : Int) := rfl
    omega

/-! ### reading -/

/-- every word of the value is one that can be read -/
def Words {W : Type} (P : W → Prop) : (t : Fib) → Den W t → Prop
  | .word, w => P w
  | .cplx t, z => Words P t z.1 ∧ Words P t z.2
  | .vec n t, v => ∀ i : Fin n, Words P t (v i)
  | .svec n t, v => ∀ i : Fin n, Words P t (v i)
  | .mat n t, v => ∀ i j : Fin n, Words P t (v i j)
  | .seed t, v => ∀ i : Fin 4, Words P t (v i)

/-- what a reader sees of an element with this content -/
def seen (s : String) (k : List Tree) : XmlTree.Node := .mk s (textOf k) (toNodes k)

theorem mapO_length {α β : Type} {f : α → Outcome β} : ∀ {l : List α} {r : List β}, mapO f l = ok r → r.length = l.length
  | [], r, h => by cases h; rfl
  | a :: l, r, h => by
    rw [mapO] at h
    obtain ⟨b, -, h⟩ := bind_eq_ok.1 h
    obtain ⟨bs, hb, h⟩ := bind_eq_ok.1 h
    cases h
    simp [mapO_length hb]

theorem fin4 : List.finRange 4 = [0, 1, 2, 3] := by decide

theorem read_back {W : Type} {txt : W → List Byte} {rdW : XmlTree.Node → Outcome W} {P : W → Prop} (hW : ∀ w s, P w → rdW (.mk s (txt w) []) = ok w) :
    ∀ (t : Fib) (s : String) (x : Den W t), Readable t → Words P t x → read1 rdW t (seen s (content txt t x)) = ok x
  | .word, s, w, _, h => by
    have := hW w s h
    simp only [seen, content, textOf, toNodes, read1, List.append_nil]
    exact this
  | .cplx t, s, z, hr, h => by
    have h1 := read_back hW t "re" z.1 hr h.1
    have h2 := read_back hW t "im" z.2 hr h.2
    simp only [seen] at h1 h2
    simp only [seen, content, textOf, toNodes, read1, XmlTree.Node.find, XmlTree.Node.all, XmlTree.Node.kids]
    simp [XmlTree.Node.tag, h1, h2, ok_bind, pure_def]
    rfl
  | .seed t, s, v, hr, h => by
    have hi : ∀ i, read1 rdW t (seen "elem" (content txt t (v i))) = ok (v i) := fun i => read_back hW t "elem" (v i) hr (h i)
    simp only [seen] at hi
    simp only [seen, content, textOf, toNodes, read1, XmlTree.Node.find, XmlTree.Node.all, XmlTree.Node.kids, fin4, List.map]
    simp [XmlTree.Node.tag, hi, ok_bind, pure_def, mapO, rd]
    refine congrArg ok (funext fun i => ?_)
    fin_cases i <;> rfl

/-- C103: a number, a complex number or a seed (with any nesting of these) written under a tag is read back as it was; integer words, where
the text is decimal. -/
theorem C103_round_trip (T : XmlNum.Num) (t : Fib) (ht : Readable t) (s : String) (x : Den Int t) (hx : Words (XmlTree.In T) t x) (d : List Ev) :
    write1 showInt 0 t s x d = d ++ events (.node s [] (content showInt t x)) ∧
    read1 (XmlTree.readNum T) t (seen s (content showInt t x)) = ok x :=
  ⟨write1_eq _ _ _ _ _, read_back (fun w s h => XmlTree.readNum_write T s w h) t s x ht hx⟩

/-- C103: any words whose text is read back. -/
theorem C103_round_trip_words {W : Type} (txt : W → List Byte) (rdW : XmlTree.Node → Outcome W) (P : W → Prop) (hW : ∀ w s, P w → rdW (.mk s (txt w) []) = ok w)
    (t : Fib) (ht : Readable t) (s : String) (x : Den W t) (hx : Words P t x) : read1 rdW t (seen s (content txt t x)) = ok x :=
  read_back hW t s x ht hx

/-- C103: a complex number without one of its parts, or with one of them twice, is an error. -/
theorem C103_complex_parts {W : Type} (rdW : XmlTree.Node → Outcome W) (t : Fib) (n : XmlTree.Node) (x : Den W (.cplx t)) (h : read1 rdW (.cplx t) n = ok x) :
    (n.all "re").length = 1 ∧ (n.all "im").length = 1 := by
  rw [read1] at h
  obtain ⟨a, ha, h⟩ := bind_eq_ok.1 h
  obtain ⟨b, hb, h⟩ := bind_eq_ok.1 h
  obtain ⟨p, hp, -⟩ := bind_eq_ok.1 ha
  obtain ⟨q, hq, -⟩ := bind_eq_ok.1 hb
  have key : ∀ {s : String} {y : XmlTree.Node}, n.find s = ok y → (n.all s).length = 1 := by
    intro s y hy
    rw [XmlTree.Node.find] at hy
    split at hy
    · rename_i z hz; simp [hz]
    · cases hy
  exact ⟨key hp, key hq⟩

/-- C103, false for seeds: the number of elements is not looked at.  With fewer than four the reader reads behind the end of its array; with more it takes the first
four and says nothing. -/
theorem C103_seed_count {W : Type} (rdW : XmlTree.Node → Outcome W) (t : Fib) (n s : XmlTree.Node) (hs : n.find "Seed" = ok s) (ff : List (Den W t))
    (hf : mapO (read1 rdW t) (s.all "elem") = ok ff) :
    ((s.all "elem").length < 4 → read1 rdW (.seed t) n = ub) ∧
    (∀ a b c e rest, ff = a :: b :: c :: e :: rest → read1 rdW (.seed t) n = ok (![a, b, c, e] : Fin 4 → Den W t)) := by
  have hlen : ff.length = (s.all "elem").length := mapO_length hf
  rw [read1, hs, ok_bind, hf, ok_bind]
  refine ⟨fun hl => ?_, fun a b c e rest h => ?_⟩
  · match ff, hlen with
    | [], _ => rfl
    | [_], _ => rfl
    | [_, _], _ => rfl
    | [_, _, _], _ => rfl
    | _ :: _ :: _ :: _ :: _, hlen => simp at hlen; omega
  · subst h; rfl

/-- C103: a character written under a tag is read back. -/
theorem C103_char (c : Byte) : readChar (writeChar c) = c := rfl

/-- C103, false for `xml << c`: the number of the character is written.  Of all characters, one comes back: `'5'` (its number, 53, begins with a 5). -/
theorem C103_char_number (c : Byte) : readChar (putChar c) = c ↔ c = 53 := by
  revert c; decide

/-! ### examples -/

example : write1 showInt 0 (.cplx .word) "z" ((3, -4) : Int × Int) [] =
    [.op "z" [], .op "re" [], .tx [51], .cl, .op "im" [], .tx [45, 52], .cl, .cl] := by
  rfl

example : read1 (XmlTree.readNum XmlNum.i32) (.seed .word) (seen "s" (content showInt (.seed .word) (![1, 2, 3, 4] : Fin 4 → Int))) = ok (![1, 2, 3, 4] : Fin 4 → Int) :=
  (C103_round_trip XmlNum.i32 (.seed .word) trivial "s" _ (fun i => by fin_cases i <;> exact ⟨by simp [XmlNum.nums], by decide, by decide⟩) []).2

/-- the pieces of a field on the nodes -/
def pieces {V : Type} (g : Geom) (f : List Nat → V) (n : Nat) : List V := (List.range g.sites).map fun i => match g.siteCoords n i with | .ok c => f c | _ => f []

theorem pieces_hold {V : Type} (g : Geom) (f : List Nat → V) : Holds g (pieces g f) f := by
  intro n _
  refine ⟨by simp [pieces], fun i c hi hc => ?_⟩
  simp [pieces, hi, hc]

/-- the lattice 4 x 2 on two nodes in two-colour order, a field of complex integers, buffers that hold 99 at first: the document of the field, in every execution -/
example (net : Net) : AlwaysEnds net 2 (start showInt (geomCB2 [4, 2] (lexMachine [2, 1]) [2, 2]) (.cplx .word) "psi"
      (pieces (geomCB2 [4, 2] (lexMachine [2, 1]) [2, 2]) (fun c => ((c.sum, -1) : Int × Int))) (fun _ => ((99, 99) : Int × Int)) (fun _ => [])) fun r =>
    r 0 = events (.node "psi" [] [fieldTree showInt (.cplx .word) [4, 2] (fun c => ((c.sum, -1) : Int × Int))]) ∧ ∀ n, n ≠ 0 → r n = [] := by
  have := C103_document showInt net _ LatticeIO.ready_example.good (by decide) (by decide) (.cplx .word) "psi" _ _
    (pieces_hold (geomCB2 [4, 2] (lexMachine [2, 1]) [2, 2]) (fun c => ((c.sum, -1) : Int × Int))) (fun _ => ((99, 99) : Int × Int)) (fun _ => [])
  simp only [List.nil_append] at this
  exact this

example : coords [2, 2] = [[0, 0], [1, 0], [0, 1], [1, 1]] := by decide

end Verif.XmlField
