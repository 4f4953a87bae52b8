import Verif.PeekPoke
import Verif.ParMapProps
import Verif.Sums
/-
Programs of lattice operations on many nodes: site-wise assignment on subsets, `latticeCoordinate`, maps and shifts, `peekSite`, `pokeSite`, sums over subsets.

Every node runs the same program on its pieces of the fields and exchanges messages with the others; the operations of different nodes interleave in any order.
What the program does next may depend on the values of peeks and sums.  Fields are numbered; the values of all types are drawn from one type `V` (for instance the
product of the types in use).

Simplifications: the loop over the sites of a node is run by one thread (C47, C48 and C50 are about threads); a message is the list of the values in it; the
tables of a map and of a set are made where they are used (making them involves no communication); a receive of another length than expected is the end of the
defined behaviour.
-/
namespace Verif.Spmd
open Verif Outcome Verif.Layout Verif.ParLayout Verif.Subset Verif.ParMap Verif.Network Verif.PeekPoke

/-! ## Model -/

/-- a subset: the colour function, the number of colours, the colour -/
structure SubsetOf where
  fn : List Nat → Int
  nsub : Nat
  cb : Nat

/-- a right hand side: the fields it refers to and what it does with their values at a site -/
structure Rhs (V : Type) where
  srcs : List Nat
  e : List V → V

/-- a program of lattice operations -/
inductive Prog (V R : Type)
  | ret (r : R)
  | assign (dst : Nat) (sub : SubsetOf) (rhs : Rhs V) (k : Prog V R)
  | coord (dst : Nat) (mu : Nat) (conv : Nat → V) (k : Prog V R)
  | map (dst src : Nat) (func : List Nat → Int → Outcome (List Nat)) (k : Prog V R)
  | peek (src : Nat) (c : List Nat) (k : V → Prog V R)
  | poke (dst : Nat) (c : List Nat) (v : V) (k : Prog V R)
  | sum (sub : SubsetOf) (rhs : Rhs V) (k : V → Prog V R)

/-- the pieces of the fields on one node -/
abbrev Local (V : Type) := Nat → List V

/-- the site table of a subset on a node, lib/qdp_scalarsite_specific.cc:56-185 -/
def table (g : Geom) (me : Nat) (sub : SubsetOf) : Outcome (List Int) := do
  let S ← setMake g me sub.fn sub.nsub
  let s ← rd S.subs sub.cb
  return s.table

/-- `forEach(rhs, EvalLeaf1(i), OpCombine())` -/
def evalRhs {V : Type} (rhs : Rhs V) (s : Local V) (i : Nat) : Outcome V := do
  let vs ← mapO (fun f => rd (s f) i) rhs.srcs
  return rhs.e vs

/-- the loop of `evaluate` on a subset, include/qdp_parscalar_specific.h:318-322: `dst.elem(tab[j]) = rhs` -/
def assignLoop {V : Type} (dst : Nat) (rhs : Rhs V) : List Int → Local V → Outcome (Local V)
  | [], s => ok s
  | i :: is, s => do
      let w ← evalRhs rhs s i.toNat
      let F ← wrElem (s dst) i.toNat w
      assignLoop dst rhs is (Function.update s dst F)

/-- `latticeCoordinate`, lib/qdp_scalarsite_specific.cc:19-37 -/
def latticeCoordinate {V : Type} (g : Geom) (me mu : Nat) (conv : Nat → V) : Outcome (List V) :=
  if g.L.length ≤ mu then abort
  else mapO (fun i => do let c ← g.siteCoords me i; let x ← rd c mu; return conv x) (List.range g.sites)

/-- `Map::operator()` on node `me`, include/qdp_parscalar_specific.h:1907-2093: the face is packed, send and receive are started together, and both waited for -/
def mapNode {V R : Type} (g : Geom) (me : Nat) (func : List Nat → Int → Outcome (List Nat)) (F : List V) (k : List V → Proc (List V) R) :
    Proc (List V) R :=
  after (make g me func) fun t =>
    if t.offnodeP then
      after (rd t.destnodesNum 0) fun dstnum => after (rd t.srcenodesNum 0) fun srcnum =>
      after (rd t.srcenodes 0) fun from_ => after (rd t.destnodes 0) fun to_ =>
      after (sendBuf t.soffsets F) fun mine =>
        if mine.length ≠ dstnum then .stop
        else .send to_ mine (.recv from_ fun m =>
          if m.length ≠ srcnum then .stop
          else .wait to_ (after (gather me m F (t.srcnode.zip t.goffsets) 0) k))
    else after (mapO (fun i => do let j ← rd t.goffsets i; rd F j) (List.range t.goffsets.length)) k

/-- the loop of `sum` on a node, include/qdp_parscalar_specific.h:746-750 -/
def sumLoop {V : Type} [Add V] (rhs : Rhs V) (s : Local V) : List Int → V → Outcome V
  | [], acc => ok acc
  | i :: is, acc => do
      let w ← evalRhs rhs s i.toNat
      sumLoop rhs s is (acc + w)

/-- a message of one value -/
def one {V : Type} (m : List V) : Outcome V := match m with | [v] => ok v | _ => ub

/-- what the global sum does with the numbers of the nodes, include/qdp_parscalar_specific.h:67-84: `tot` is the function of QMP's reduction -/
def addAll {V : Type} (tot : List V → V) (ms : List (List V)) : Outcome V := do
  let vs ← mapO one ms
  return tot vs

/-- the program on node `me` -/
def node {V R : Type} [Add V] [Zero V] (tot : List V → V) (g : Geom) (me : Nat) : Prog V R → Local V → Proc (List V) (R × Local V)
  | .ret r, s => .done (r, s)
  | .assign dst sub rhs k, s => after (table g me sub) fun t => after (assignLoop dst rhs t s) fun s' => node tot g me k s'
  | .coord dst mu conv k, s => after (latticeCoordinate g me mu conv) fun F => node tot g me k (Function.update s dst F)
  | .map dst src func k, s => mapNode g me func (s src) fun F => node tot g me k (Function.update s dst F)
  | .peek src c k, s => peekSite g [0] me ((s src).map fun v => [v]) c fun m => after (one m) fun v => node tot g me (k v) s
  | .poke dst c v k, s => after (pokeSite g me (s dst) v c) fun F => node tot g me k (Function.update s dst F)
  | .sum sub rhs k, s => after (table g me sub) fun t => after (sumLoop rhs s t 0) fun x =>
      .reduce [x] fun ms => after (addAll tot ms) fun y => node tot g me (k y) s

/-- the machine at the start of the program: no message under way -/
def start {V R : Type} [Add V] [Zero V] (tot : List V → V) (g : Geom) (p : Prog V R) (F : Nat → Local V) : State (List V) (R × Local V) :=
  { proc := fun me => node tot g me p (F me), queue := fun _ => [], log := fun _ => [] }

/-! ## Specification: fields are functions of the coordinates -/

/-- where a map reads -/
def source (func : List Nat → Int → Outcome (List Nat)) (c : List Nat) : List Nat := match func c 1 with | .ok d => d | _ => c

/-- the right hand side at a site -/
def Rhs.at {V : Type} (rhs : Rhs V) (f : Nat → List Nat → V) (c : List Nat) : V := rhs.e (rhs.srcs.map fun n => f n c)

/-- the exact sum over the sites of a subset of the lattice of extents `L` -/
def latticeSum {V : Type} [AddCommMonoid V] (L : List Nat) (sub : SubsetOf) (w : List Nat → V) : V :=
  ∑ r ∈ Finset.range (nsites L), if sub.fn (digits r L) = sub.cb then w (digits r L) else 0

/-- the result of a program and the fields after it, if `S` is what sums give -/
def run {V R : Type} (S : SubsetOf → (List Nat → V) → V) : Prog V R → (Nat → List Nat → V) → R × (Nat → List Nat → V)
  | .ret r, f => (r, f)
  | .assign dst sub rhs k, f => run S k (Function.update f dst fun c => if sub.fn c = sub.cb then rhs.at f c else f dst c)
  | .coord dst mu conv k, f => run S k (Function.update f dst fun c => conv (c.getD mu 0))
  | .map dst src func k, f => run S k (Function.update f dst fun c => f src (source func c))
  | .peek src c k, f => run S (k (f src c)) f
  | .poke dst c v k, f => run S k (Function.update f dst fun c' => if c' = c then v else f dst c')
  | .sum sub rhs k, f => run S (k (S sub (rhs.at f))) f

/-- the colours of a subset are legal -/
def SubsetOf.Legal (L : List Nat) (sub : SubsetOf) : Prop := sub.cb < sub.nsub ∧ ∀ c, InRange c L → 0 ≤ sub.fn c ∧ sub.fn c < sub.nsub

/-- the program makes sense on a lattice: colours are legal, coordinates and directions exist, maps are permutations -/
def Legal {V R : Type} (S : SubsetOf → (List Nat → V) → V) (L : List Nat) : Prog V R → (Nat → List Nat → V) → Prop
  | .ret _, _ => True
  | .assign dst sub rhs k, f => sub.Legal L ∧ Legal S L k (Function.update f dst fun c => if sub.fn c = sub.cb then rhs.at f c else f dst c)
  | .coord dst mu conv k, f => mu < L.length ∧ Legal S L k (Function.update f dst fun c => conv (c.getD mu 0))
  | .map dst src func k, f => (∃ φ ψ, IsPerm L func φ ψ) ∧ Legal S L k (Function.update f dst fun c => f src (source func c))
  | .peek src c k, f => InRange c L ∧ Legal S L (k (f src c)) f
  | .poke dst c v k, f => InRange c L ∧ Legal S L k (Function.update f dst fun c' => if c' = c then v else f dst c')
  | .sum sub rhs k, f => sub.Legal L ∧ Legal S L (k (S sub (rhs.at f))) f

/-- the maps of the program are accepted by `Map::make` on every node -/
def Accepted {V R : Type} (g : Geom) : Prog V R → Prop
  | .ret _ => True
  | .assign _ _ _ k => Accepted g k
  | .coord _ _ _ k => Accepted g k
  | .map _ _ func k => (∀ n, n < g.nodes → ∃ t, make g n func = ok t) ∧ Accepted g k
  | .peek _ _ k => ∀ v, Accepted g (k v)
  | .poke _ _ _ k => Accepted g k
  | .sum _ _ k => ∀ v, Accepted g (k v)

/-- the pieces on the nodes hold the fields -/
def HoldsAll {V : Type} (g : Geom) (F : Nat → Local V) (f : Nat → List Nat → V) : Prop := ∀ x, Holds g (fun n => F n x) (f x)

/-! ## Local operations -/

section loc
variable {V : Type} {g : Geom} (hg : g.Good)

include hg in
theorem holds_get {F : Nat → List V} {f : List Nat → V} (h : Holds g F f) {n i : Nat} (hn : n < g.nodes) (hi : i < g.sites) :
    (F n)[i]? = some (f (co g n i)) := by
  obtain ⟨c, h1, -⟩ := hg.2 n i hn hi
  have : co g n i = c := by simp [co, h1]
  rw [this]; exact (h n hn).2 i c hi h1

theorem holds_of {F : Nat → List V} {f : List Nat → V} (hl : ∀ n, n < g.nodes → (F n).length = g.sites)
    (h : ∀ n, n < g.nodes → ∀ i, i < g.sites → (F n)[i]? = some (f (co g n i))) : Holds g F f := by
  intro n hn
  refine ⟨hl n hn, fun i c hi e => ?_⟩
  have : co g n i = c := by simp [co, e]
  rw [← this]; exact h n hn i hi

include hg in
/-- the table of a subset -/
theorem table_spec {n : Nat} (hn : n < g.nodes) {sub : SubsetOf} (hs : sub.Legal g.L) :
    ∃ ts : List Nat, table g n sub = ok (ts.map Int.ofNat) ∧ ts.Pairwise (· < ·) ∧ ∀ i, i ∈ ts ↔ i < g.sites ∧ sub.fn (co g n i) = sub.cb := by
  obtain ⟨S, h1, -, h3, -, h5⟩ := C04_make g hg n hn sub.fn sub.nsub hs.2
  have hk : sub.cb < S.subs.length := by rw [h3]; exact hs.1
  obtain ⟨-, hsort, hmem⟩ := h5 sub.cb hk
  have hcol : ∀ i, i < g.sites → (ColourAt g n sub.fn i sub.cb ↔ sub.fn (co g n i) = sub.cb) := by
    intro i hi
    obtain ⟨c1, c2, -⟩ := co_spec hg hn hi
    have := hs.2 _ c2
    unfold ColourAt
    constructor
    · rintro ⟨c, e, h⟩; rw [c1] at e; cases e; exact_mod_cast h
    · intro h; exact ⟨_, c1, by exact_mod_cast h⟩
  have htab : S.subs[sub.cb].table = (S.subs[sub.cb].table.map Int.toNat).map Int.ofNat := by
    rw [List.map_map]
    conv_lhs => rw [← List.map_id S.subs[sub.cb].table]
    apply List.map_congr_left
    intro x hx
    obtain ⟨i, rfl, -⟩ := (hmem x).1 hx
    simp
  refine ⟨S.subs[sub.cb].table.map Int.toNat, ?_, ?_, ?_⟩
  · unfold table
    rw [h1, ok_bind, rd_of_lt hk, ok_bind, ← htab]; rfl
  · rw [List.pairwise_map]
    refine hsort.imp_of_mem ?_
    intro a b ha hb hab
    obtain ⟨i, rfl, -⟩ := (hmem a).1 ha
    obtain ⟨j, rfl, -⟩ := (hmem b).1 hb
    simpa using hab
  · intro i
    rw [List.mem_map]
    constructor
    · rintro ⟨x, hx, rfl⟩
      obtain ⟨j, rfl, hj, hc⟩ := (hmem x).1 hx
      simp only [Int.toNat_natCast]
      exact ⟨hj, (hcol j hj).1 hc⟩
    · rintro ⟨hi, hc⟩
      exact ⟨(i : Int), (hmem _).2 ⟨i, rfl, hi, (hcol i hi).2 hc⟩, by simp⟩

theorem evalRhs_eq (rhs : Rhs V) (s : Local V) (i : Nat) (v : Nat → V) (h : ∀ f, f ∈ rhs.srcs → (s f)[i]? = some (v f)) :
    evalRhs rhs s i = ok (rhs.e (rhs.srcs.map v)) := by
  unfold evalRhs
  rw [mapO_ok (h := v) (fun f hf => rd_some (h f hf)), ok_bind]; rfl

/-- the loop of an assignment: what is at the sites not yet done -/
theorem assignLoop_eq (dst : Nat) (rhs : Rhs V) (N : Nat) (v : Nat → Nat → V) : ∀ (ts : List Nat) (s : Local V), ts.Nodup → (∀ i ∈ ts, i < N) →
    (∀ x, (s x).length = N) → (∀ x, ∀ i ∈ ts, (s x)[i]? = some (v x i)) →
    ∃ s', assignLoop dst rhs (ts.map Int.ofNat) s = ok s' ∧ (∀ x, x ≠ dst → s' x = s x) ∧ (s' dst).length = N ∧
      (∀ i, i ∉ ts → (s' dst)[i]? = (s dst)[i]?) ∧ ∀ i ∈ ts, (s' dst)[i]? = some (rhs.e (rhs.srcs.map fun x => v x i)) := by
  intro ts
  induction ts with
  | nil => intro s _ _ hl _; exact ⟨s, rfl, fun _ _ => rfl, hl dst, fun _ _ => rfl, by simp⟩
  | cons i is ih =>
    intro s hnd hlt hl hv
    have hi := hlt i (by simp)
    have hni : i ∉ is := (List.nodup_cons.1 hnd).1
    have hw := evalRhs_eq rhs s i (fun x => v x i) (fun x _ => hv x i (by simp))
    have hset : ∀ (w : V) (j : Nat), j ≠ i → ((s dst).set i w)[j]? = (s dst)[j]? := fun w j hj => List.getElem?_set_ne (Ne.symm hj)
    obtain ⟨s', h1, h2, h3, h4, h5⟩ := ih (Function.update s dst ((s dst).set i (rhs.e (rhs.srcs.map fun x => v x i))))
      (List.nodup_cons.1 hnd).2 (fun j hj => hlt j (by simp [hj])) (fun x => by
        by_cases hx : x = dst
        · subst hx; simp [hl]
        · simp [Function.update_of_ne hx, hl]) (fun x j hj => by
        by_cases hx : x = dst
        · subst hx
          rw [Function.update_self, hset _ j (by rintro rfl; exact hni hj)]; exact hv x j (by simp [hj])
        · rw [Function.update_of_ne hx]; exact hv x j (by simp [hj]))
    refine ⟨s', ?_, ?_, h3, ?_, ?_⟩
    · simp only [List.map_cons, assignLoop, Int.ofNat_eq_natCast, Int.toNat_natCast]
      rw [hw, ok_bind]
      unfold wrElem
      rw [if_pos (by rw [hl]; exact hi), ok_bind]
      exact h1
    · intro x hx; rw [h2 x hx, Function.update_of_ne hx]
    · intro j hj
      simp only [List.mem_cons, not_or] at hj
      rw [h4 j hj.2, Function.update_self, hset _ j hj.1]
    · intro j hj
      by_cases hji : j = i
      · subst hji
        rw [h4 j hni, Function.update_self]
        simp [List.getElem?_set, hl, hi]
      · exact h5 j (by simpa [hji] using hj)

include hg in
theorem assign_all (dst : Nat) (sub : SubsetOf) (rhs : Rhs V) (hs : sub.Legal g.L) (F : Nat → Local V) (f : Nat → List Nat → V) (hF : HoldsAll g F f) :
    ∃ F' : Nat → Local V, (∀ n, n < g.nodes → ∃ t, table g n sub = ok t ∧ assignLoop dst rhs t (F n) = ok (F' n)) ∧
      HoldsAll g F' (Function.update f dst fun c => if sub.fn c = sub.cb then rhs.at f c else f dst c) := by
  have key : ∀ n, ∃ s' : Local V, n < g.nodes → (∃ t, table g n sub = ok t ∧ assignLoop dst rhs t (F n) = ok s') ∧ (∀ x, x ≠ dst → s' x = F n x) ∧
      (s' dst).length = g.sites ∧ ∀ i, i < g.sites → (s' dst)[i]? = some (if sub.fn (co g n i) = sub.cb then rhs.at f (co g n i) else f dst (co g n i)) := by
    intro n
    by_cases hn : n < g.nodes
    · obtain ⟨ts, h1, h2, h3⟩ := table_spec hg hn hs
      obtain ⟨s', a1, a2, a3, a4, a5⟩ := assignLoop_eq dst rhs g.sites (fun x i => f x (co g n i)) ts (F n) (h2.imp fun h => Nat.ne_of_lt h)
        (fun i hi => ((h3 i).1 hi).1) (fun x => (hF x n hn).1) (fun x i hi => holds_get hg (hF x) hn ((h3 i).1 hi).1)
      refine ⟨s', fun _ => ⟨⟨_, h1, a1⟩, a2, a3, fun i hi => ?_⟩⟩
      by_cases hc : sub.fn (co g n i) = sub.cb
      · rw [if_pos hc, a5 i ((h3 i).2 ⟨hi, hc⟩)]; rfl
      · rw [if_neg hc, a4 i (fun h => hc ((h3 i).1 h).2)]; exact holds_get hg (hF dst) hn hi
    · exact ⟨F n, fun h => (hn h).elim⟩
  choose F' hF' using key
  refine ⟨F', fun n hn => (hF' n hn).1, fun x => ?_⟩
  by_cases hx : x = dst
  · subst hx
    rw [Function.update_self]
    exact holds_of (fun n hn => (hF' n hn).2.2.1) (fun n hn => (hF' n hn).2.2.2)
  · rw [Function.update_of_ne hx]
    exact holds_of (fun n hn => by rw [(hF' n hn).2.1 x hx]; exact (hF x n hn).1)
      (fun n hn i hi => by rw [(hF' n hn).2.1 x hx]; exact holds_get hg (hF x) hn hi)

theorem holds_update {F : Nat → Local V} {f : Nat → List Nat → V} (hF : HoldsAll g F f) {dst : Nat} {G : Nat → List V} {w : List Nat → V}
    (hG : Holds g G w) : HoldsAll g (fun n => Function.update (F n) dst (G n)) (Function.update f dst w) := by
  intro x
  by_cases hx : x = dst
  · subst hx; simpa using hG
  · simpa [Function.update_of_ne hx] using hF x

include hg in
theorem coord_all (mu : Nat) (conv : Nat → V) (hmu : mu < g.L.length) :
    ∃ G : Nat → List V, (∀ n, n < g.nodes → latticeCoordinate g n mu conv = ok (G n)) ∧ Holds g G (fun c => conv (c.getD mu 0)) := by
  refine ⟨fun n => (List.range g.sites).map fun i => conv ((co g n i).getD mu 0), fun n hn => ?_, ?_⟩
  · unfold latticeCoordinate
    rw [if_neg (by omega)]
    apply mapO_ok
    intro i hi
    obtain ⟨h1, h2, -⟩ := co_spec hg hn (List.mem_range.1 hi)
    have hl : mu < (co g n i).length := by rw [h2.length_eq]; exact hmu
    rw [h1, ok_bind, Sums.rd_getD hl 0, ok_bind]; rfl
  · exact holds_of (fun n _ => by simp) (fun n _ i hi => by simp [hi])

/-- the loop of a sum -/
theorem sumLoop_eq [Add V] (rhs : Rhs V) (s : Local V) (w : Nat → V) : ∀ (ts : List Nat) (acc : V), (∀ i ∈ ts, evalRhs rhs s i = ok (w i)) →
    sumLoop rhs s (ts.map Int.ofNat) acc = ok (ts.foldl (fun acc i => acc + w i) acc) := by
  intro ts
  induction ts with
  | nil => intro acc _; simp [sumLoop]
  | cons i is ih =>
    intro acc h
    simp only [List.map_cons, sumLoop, Int.ofNat_eq_natCast, Int.toNat_natCast]
    rw [h i (by simp), ok_bind]
    have := ih (acc + w i) (fun j hj => h j (by simp [hj]))
    rw [this]; rfl

theorem addAll_eq (tot : List V → V) (N : Nat) (d : Nat → V) : addAll tot ((List.range N).map fun n => [d n]) = ok (tot ((List.range N).map d)) := by
  unfold addAll
  have : ∀ l : List Nat, mapO one (l.map fun n => [d n]) = ok (l.map d) := by
    intro l
    induction l with
    | nil => rfl
    | cons a l ih => simp [mapO, one, ih]
  rw [this, ok_bind]; rfl

/-- the sum a node forms of its own sites, in the order of its sites -/
def nodeSum [Add V] [Zero V] (g : Geom) (sub : SubsetOf) (w : List Nat → V) (n : Nat) : V :=
  ((List.range g.sites).filter fun i => sub.fn (co g n i) = sub.cb).foldl (fun acc i => acc + w (co g n i)) 0

/-- the sum a machine forms, in the order of its additions -/
def machineSum [Add V] [Zero V] (tot : List V → V) (g : Geom) (sub : SubsetOf) (w : List Nat → V) : V := tot ((List.range g.nodes).map (nodeSum g sub w))

theorem sorted_ext : ∀ {a b : List Nat}, a.Pairwise (· < ·) → b.Pairwise (· < ·) → (∀ i, i ∈ a ↔ i ∈ b) → a = b := by
  intro a b ha hb h
  exact (List.perm_ext_iff_of_nodup (ha.imp fun h => Nat.ne_of_lt h) (hb.imp fun h => Nat.ne_of_lt h)).2 h |>.eq_of_pairwise
    (fun _ _ _ _ h1 h2 => absurd (Nat.lt_trans h1 h2) (Nat.lt_irrefl _)) ha hb

include hg in
theorem sum_all [Add V] [Zero V] (sub : SubsetOf) (rhs : Rhs V) (hs : sub.Legal g.L) (F : Nat → Local V) (f : Nat → List Nat → V) (hF : HoldsAll g F f) :
    ∀ n, n < g.nodes → ∃ t, table g n sub = ok t ∧ sumLoop rhs (F n) t 0 = ok (nodeSum g sub (rhs.at f) n) := by
  intro n hn
  obtain ⟨ts, h1, h2, h3⟩ := table_spec hg hn hs
  refine ⟨_, h1, ?_⟩
  rw [sumLoop_eq rhs (F n) (fun i => rhs.at f (co g n i)) ts 0 (fun i hi =>
    evalRhs_eq rhs (F n) i (fun x => f x (co g n i)) (fun x _ => holds_get hg (hF x) hn ((h3 i).1 hi).1))]
  unfold nodeSum
  have : ts = (List.range g.sites).filter fun i => sub.fn (co g n i) = sub.cb :=
    sorted_ext h2 (List.pairwise_lt_range.filter _) (fun i => by simp [h3 i])
  rw [this]

include hg in
/-- with exact addition the order does not matter -/
theorem machineSum_eq [AddCommMonoid V] (tot : List V → V) (htot : ∀ l, tot l = l.sum) (sub : SubsetOf) (w : List Nat → V) :
    machineSum tot g sub w = latticeSum g.L sub w := by
  unfold machineSum latticeSum
  rw [htot, GlobalSum.list_sum_range, ← Sums.C50_nodes g hg (fun n i => if sub.fn (co g n i) = sub.cb then w (co g n i) else 0)
    (fun c => if sub.fn c = sub.cb then w c else 0)]
  · apply Finset.sum_congr rfl
    intro n _
    unfold nodeSum
    rw [← Finset.sum_filter]
    have : ∀ (l : List Nat) (acc : V), l.foldl (fun acc i => acc + w (co g n i)) acc = acc + (l.map fun i => w (co g n i)).sum := by
      intro l
      induction l with
      | nil => intro acc; simp
      | cons a l ih => intro acc; simp [ih, add_assoc]
    rw [this, zero_add, ← List.sum_toFinset _ (List.nodup_range.filter _)]
    apply Finset.sum_congr _ (fun _ _ => rfl)
    ext i
    simp
  · intro n i c hn hi e
    have : co g n i = c := by simp [co, e]
    rw [this]

end loc

/-! ## Communication -/

/-- one application of a map by all nodes -/
theorem map_all {V R : Type} (net : Net) (g : Geom) (hg : g.Good) (func : List Nat → Int → Outcome (List Nat)) (φ ψ : List Nat → List Nat)
    (hp : IsPerm g.L func φ ψ) (hacc : ∀ n, n < g.nodes → ∃ t, make g n func = ok t) (F : Nat → List V) (f : List Nat → V) (hF : Holds g F f)
    (s : State (List V) R) (k : Nat → List V → Proc (List V) R) (e : Nat) (h : At g.nodes s (fun n => mapNode g n func (F n) (k n)) e) :
    ∃ m t G, Run net g.nodes m s t ∧ At g.nodes t (fun n => k n (G n)) e ∧ Holds g G (fun c => f (source func c)) := by
  have hex : ∀ n, ∃ t : MapTab, n < g.nodes → make g n func = ok t := by
    intro n
    by_cases hn : n < g.nodes
    · obtain ⟨t, ht⟩ := hacc n hn; exact ⟨t, fun _ => ht⟩
    · exact ⟨⟨[], [], [], false, [], [], [], [], []⟩, fun h => (hn h).elim⟩
  choose T hT using hex
  have hD : ∀ n, n < g.nodes → (F n).length = g.sites := fun n hn => (hF n hn).1
  have hap : ∀ n, ∃ d, n < g.nodes → apply T F n = ok d ∧ d.length = g.sites ∧
      ∀ i, i < g.sites → d[i]? = (F (nd g (φ (co g n i))))[ix g (φ (co g n i))]? := by
    intro n
    by_cases hn : n < g.nodes
    · obtain ⟨d, hd⟩ := apply_spec hg hp hT hD hn; exact ⟨d, fun _ => hd⟩
    · exact ⟨[], fun h => (hn h).elim⟩
  choose G hG using hap
  -- the partners and the messages
  have hfacts : ∀ n, ∃ (tt frm : Nat) (msg : List V), n < g.nodes → (T n).offnodeP = true →
      tt < g.nodes ∧ frm < g.nodes ∧ (T n).destnodes = [tt] ∧ (T n).srcenodes = [frm] ∧ sendBuf (T n).soffsets (F n) = ok msg := by
    intro n
    by_cases hn : n < g.nodes ∧ (T n).offnodeP = true
    · obtain ⟨hn, ho⟩ := hn
      obtain ⟨-, -, -, t4⟩ := make_ok hg hp hn (hT n hn)
      rcases t4 with ⟨h0, -⟩ | ⟨-, a, b, ha, hb, ham, hbm, -, -, e1, e2, -, -, -⟩
      · rw [ho] at h0; cases h0
      have hap := (hG n hn).1
      unfold apply at hap
      simp only [ho, if_true] at hap
      obtain ⟨x1, -, hap⟩ := bind_eq_ok.1 hap
      obtain ⟨x2, -, hap⟩ := bind_eq_ok.1 hap
      obtain ⟨x3, -, hap⟩ := bind_eq_ok.1 hap
      obtain ⟨x4, -, hap⟩ := bind_eq_ok.1 hap
      obtain ⟨mine, hm, -⟩ := bind_eq_ok.1 hap
      exact ⟨b, a, mine, fun _ _ => ⟨dst_lt hg hp hn hbm, src_lt hg hp hn ham, e2, e1, hm⟩⟩
    · exact ⟨0, 0, [], fun h1 h2 => (hn ⟨h1, h2⟩).elim⟩
  choose to_ frm msg hfacts using hfacts
  have hdet : ∀ n, n < g.nodes → (T n).offnodeP = true → ∃ dstnum srcnum, (T n).destnodesNum[0]? = some dstnum ∧ (T n).srcenodesNum[0]? = some srcnum ∧
      (msg n).length = dstnum ∧ (T (to_ n)).offnodeP = true ∧ frm (to_ n) = n ∧ (T (frm n)).offnodeP = true ∧ to_ (frm n) = n ∧
      (msg (frm n)).length = srcnum ∧ gather n (msg (frm n)) (F n) ((T n).srcnode.zip (T n).goffsets) 0 = ok (G n) := by
    intro n hn ho
    obtain ⟨f1, f2, f3, f4, f5⟩ := hfacts n hn ho
    have hap := (hG n hn).1
    unfold apply at hap
    simp only [ho, if_true] at hap
    obtain ⟨dstnum, y1, hap⟩ := bind_eq_ok.1 hap
    obtain ⟨srcnum, y2, hap⟩ := bind_eq_ok.1 hap
    rw [f4, f3] at hap
    rw [show rd [frm n] 0 = ok (frm n) from rfl, ok_bind, show rd [to_ n] 0 = ok (to_ n) from rfl, ok_bind, f5, ok_bind] at hap
    split at hap
    · cases hap
    rename_i c1
    rw [Decidable.not_not] at c1
    split at hap
    · cases hap
    rename_i c2
    rw [Decidable.not_not] at c2
    obtain ⟨o1, o2, -, o4⟩ := c1
    obtain ⟨o5, o6⟩ := c2
    obtain ⟨-, -, -, q4, -⟩ := hfacts (to_ n) f1 o1
    obtain ⟨-, -, r3, -, r5⟩ := hfacts (frm n) f2 o5
    rw [r5, ok_bind] at hap
    split at hap
    · cases hap
    rename_i c3
    rw [q4] at o2
    rw [r3] at o6
    exact ⟨dstnum, srcnum, rd_eq_ok.1 y1, rd_eq_ok.1 y2, o4, o1, by simpa using o2, o5, by simpa using o6, by simpa using c3, hap⟩
  -- the holding of the result
  have hGh : Holds g G (fun c => f (source func c)) := by
    apply holds_of (fun n hn => (hG n hn).2.1)
    intro n hn i hi
    obtain ⟨-, c2, -⟩ := co_spec hg hn hi
    obtain ⟨g1, g2⟩ := hp.fwd _ c2
    obtain ⟨-, -, n1, n2, n3⟩ := nd_spec hg g2
    rw [(hG n hn).2.2 i hi, holds_get hg hF n1 n2, n3]
    simp [source, g1]
  obtain ⟨m, t, hr, ht⟩ := exchange_all net g.nodes (fun n => (T n).offnodeP) to_ frm msg (fun n m =>
      match (T n).srcenodesNum[0]? with
      | some srcnum => if m.length ≠ srcnum then .stop else .wait (to_ n) (after (gather n m (F n) ((T n).srcnode.zip (T n).goffsets) 0) (k n))
      | none => .stop) (fun n => k n (G n))
    (fun n hn ho => by obtain ⟨_, _, -, -, -, a1, a2, -⟩ := hdet n hn ho; exact ⟨(hfacts n hn ho).1, a1, a2⟩)
    (fun n hn ho => by obtain ⟨_, _, -, -, -, -, -, a1, a2, -⟩ := hdet n hn ho; exact ⟨(hfacts n hn ho).2.1, a1, a2⟩)
    (fun n hn ho => by
      obtain ⟨_, srcnum, -, a1, -, -, -, -, -, a2, a3⟩ := hdet n hn ho
      simp only [a1, a2, ne_eq, not_true_eq_false, if_false, a3, after]) s e
    ⟨fun n hn => by
      rw [h.proc n hn]
      unfold mapNode
      rw [hT n hn]
      simp only [after]
      by_cases ho : (T n).offnodeP = true
      · obtain ⟨dstnum, srcnum, a0, a1, a2, -⟩ := hdet n hn ho
        obtain ⟨-, -, f3, f4, f5⟩ := hfacts n hn ho
        rw [if_pos ho, if_pos ho, rd_eq_ok.2 a0, rd_eq_ok.2 a1, f3, f4, f5]
        simp only [rd, List.getElem?_cons_zero, a2, ne_eq, not_true_eq_false, if_false, a1]
      · rw [if_neg ho, if_neg ho]
        have hap := (hG n hn).1
        unfold apply at hap
        simp only [ho, Bool.false_eq_true, if_false] at hap
        rw [hap], h.queue, h.log⟩
  exact ⟨m, t, G, hr, ht, hGh⟩

/-- one execution of the program that ends well -/
theorem one_run {V R : Type} [Add V] [Zero V] (tot : List V → V) (net : Net) (g : Geom) (hg : g.Good) (h0 : 0 < g.nodes) : ∀ (p : Prog V R) (F : Nat → Local V)
    (f : Nat → List Nat → V) (s : State (List V) (R × Local V)) (e : Nat), HoldsAll g F f → Legal (machineSum tot g) g.L p f → Accepted g p →
    At g.nodes s (fun n => node tot g n p (F n)) e →
    ∃ m t F' e', Run net g.nodes m s t ∧ At g.nodes t (fun n => .done ((run (machineSum tot g) p f).1, F' n)) e' ∧ HoldsAll g F' (run (machineSum tot g) p f).2 := by
  intro p
  induction p with
  | ret r => intro F f s e hF _ _ h; exact ⟨0, s, F, e, Run.refl _, h, hF⟩
  | assign dst sub rhs k ih =>
    intro F f s e hF hl ha h
    obtain ⟨F1, h1, hF1⟩ := assign_all hg dst sub rhs hl.1 F f hF
    refine ih F1 _ s e hF1 hl.2 ha ⟨fun n hn => ?_, h.queue, h.log⟩
    obtain ⟨t, a1, a2⟩ := h1 n hn
    rw [h.proc n hn]; simp only [node, a1, a2, after]
  | coord dst mu conv k ih =>
    intro F f s e hF hl ha h
    obtain ⟨G, h1, hG⟩ := coord_all hg mu conv hl.1
    refine ih _ _ s e (holds_update hF hG) hl.2 ha ⟨fun n hn => ?_, h.queue, h.log⟩
    rw [h.proc n hn]; simp only [node, h1 n hn, after]
  | map dst src func k ih =>
    intro F f s e hF hl ha h
    obtain ⟨⟨φ, ψ, hp⟩, hl2⟩ := hl
    obtain ⟨m, t, G, hr, ht, hG⟩ := map_all net g hg func φ ψ hp ha.1 (fun n => F n src) (f src) (hF src) s
      (fun n X => node tot g n k (Function.update (F n) dst X)) e h
    obtain ⟨m', u, F', e', hr', hu, hF'⟩ := ih _ _ t e (holds_update hF hG) hl2 ha.2 ht
    exact ⟨_, u, F', e', hr.trans hr', hu, hF'⟩
  | peek src c k ih =>
    intro F f s e hF hl ha h
    obtain ⟨m, t, hr, ht⟩ := peek_all net g hg h0 [0] (fun n => (F n src).map fun v => [v]) (fun c => [f src c])
      (fun n hn => ⟨by simpa using (hF src n hn).1, fun i c' hi e' => by simp [(hF src n hn).2 i c' hi e']⟩) c hl.1 s
      (fun n m => after (one m) fun v => node tot g n (k v) (F n)) e h
    obtain ⟨m', u, F', e', hr', hu, hF'⟩ := ih (f src c) F f t (e + 1) hF hl.2 (ha _) ⟨fun n hn => by rw [ht.proc n hn]; rfl, ht.queue, ht.log⟩
    exact ⟨_, u, F', e', hr.trans hr', hu, hF'⟩
  | poke dst c v k ih =>
    intro F f s e hF hl ha h
    obtain ⟨G, h1, hG⟩ := poke_all g hg (fun n => F n dst) (f dst) (hF dst) c hl.1 v
    refine ih _ _ s e (holds_update hF hG) hl.2 ha ⟨fun n hn => ?_, h.queue, h.log⟩
    rw [h.proc n hn]; simp only [node, h1 n hn, after]
  | sum sub rhs k ih =>
    intro F f s e hF hl ha h
    have h1 := sum_all hg sub rhs hl.1 F f hF
    obtain ⟨m, t, hr, ht⟩ := reduce_all net g.nodes s (fun n => [nodeSum g sub (rhs.at f) n]) (fun n ms => after (addAll tot ms) fun y => node tot g n (k y) (F n)) e
      ⟨fun n hn => by
        obtain ⟨t, a1, a2⟩ := h1 n hn
        rw [h.proc n hn]; simp only [node, a1, a2, after], h.queue, h.log⟩
    obtain ⟨m', u, F', e', hr', hu, hF'⟩ := ih _ F f t (e + 1) hF hl.2 (ha _)
      ⟨fun n hn => by rw [ht.proc n hn, addAll_eq]; rfl, ht.queue, ht.log⟩
    exact ⟨_, u, F', e', hr.trans hr', hu, hF'⟩

end Verif.Spmd
