import Verif.NetworkRounds
import Verif.ParLayoutProps
/-
Single sites of a field: `peekSite`, `pokeSite`, include/qdp_parscalar_specific.h:1749-1808 and include/qdp_scalar_specific.h:1643-1685; whole pieces of it:
`QDP_extract`, `QDP_insert`, include/qdp_parscalar_specific.h:1811-1855; and `copymask`, include/qdp_parscalar_specific.h:459-486.

A program of peeks and pokes is a tree: what it does after a peek may depend on the value found.  Every node runs the same program on its piece of the field.
-/
namespace Verif.PeekPoke
open Verif Outcome Verif.Layout Verif.ParLayout Verif.Network

/-! ## Model -/

/-- a program that looks at and changes single sites of a field -/
inductive Prog (V R : Type)
  | ret (r : R)
  | peek (coord : List Nat) (k : V → Prog V R)
  | poke (coord : List Nat) (v : V) (k : Prog V R)

/-- go on with the value of a computation on one node, if it has one -/
def after {α V R : Type} (o : Outcome α) (k : α → Proc V R) : Proc V R :=
  match o with
  | .ok a => k a
  | _ => .stop

/-- the first statements of `peekSite`, include/qdp_parscalar_specific.h:1755-1764: the local copy on node `me` -/
def peekLocal {V : Type} (g : Geom) (zero : V) (me nodenum : Nat) (F : List V) (c : List Nat) : Outcome V :=
  if me = nodenum then do
    let i ← g.linearSiteIndex c
    rd F i
  else ok zero

/-- `peekSite` on node `me`, include/qdp_parscalar_specific.h:1753-1773 -/
def peekSite {V R : Type} (g : Geom) (zero : V) (me : Nat) (F : List V) (c : List Nat) (k : V → Proc V R) : Proc V R :=
  after (g.nodeNumber c) fun nodenum =>
    after (peekLocal g zero me nodenum F c) fun dest =>
      sendToPrimary me nodenum dest fun d => Proc.bcast d k

/-- `l.elem(i) = v` -/
def wrElem {V : Type} (F : List V) (i : Nat) (v : V) : Outcome (List V) := if i < F.length then ok (F.set i v) else ub

/-- `pokeSite` on node `me`, include/qdp_parscalar_specific.h:1801-1808 -/
def pokeSite {V : Type} (g : Geom) (me : Nat) (F : List V) (v : V) (c : List Nat) : Outcome (List V) := do
  let node ← g.nodeNumber c
  if me = node then do
    let i ← g.linearSiteIndex c
    wrElem F i v
  else ok F

/-- the program on node `me` whose piece of the field is `F` -/
def node {V R : Type} (g : Geom) (zero : V) (me : Nat) : Prog V R → List V → Proc V (R × List V)
  | .ret r, F => .done (r, F)
  | .peek c k, F => peekSite g zero me F c fun v => node g zero me (k v) F
  | .poke c v k, F => after (pokeSite g me F v c) fun F' => node g zero me k F'

/-- the machine at the start of the program: no message under way -/
def start {V R : Type} (g : Geom) (zero : V) (p : Prog V R) (F : Nat → List V) : State V (R × List V) :=
  { proc := fun me => node g zero me p (F me), queue := fun _ => [], log := fun _ => [] }

/-- `peekSite` on one node, include/qdp_scalar_specific.h:1643-1651 -/
def peekSite1 {V : Type} (index : List Nat → Outcome Nat) (F : List V) (c : List Nat) : Outcome V := do
  let i ← index c
  rd F i

/-- `pokeSite` on one node, include/qdp_scalar_specific.h:1679-1685 -/
def pokeSite1 {V : Type} (index : List Nat → Outcome Nat) (F : List V) (v : V) (c : List Nat) : Outcome (List V) := do
  let i ← index c
  wrElem F i v

/-- the program on one node -/
def node1 {V R : Type} (index : List Nat → Outcome Nat) : Prog V R → List V → Outcome (R × List V)
  | .ret r, F => ok (r, F)
  | .peek c k, F => do let v ← peekSite1 index F c; node1 index (k v) F
  | .poke c v k, F => do let F' ← pokeSite1 index F v c; node1 index k F'

/-! ## Specification: one field, a function of the coordinates -/

/-- result and field after the program -/
def run {V R : Type} : Prog V R → (List Nat → V) → R × (List Nat → V)
  | .ret r, f => (r, f)
  | .peek c k, f => run (k (f c)) f
  | .poke c v k, f => run k (fun c' => if c' = c then v else f c')

/-- every coordinate the program uses lies on the lattice -/
def OnLattice {V R : Type} (L : List Nat) : Prog V R → (List Nat → V) → Prop
  | .ret _, _ => True
  | .peek c k, f => InRange c L ∧ OnLattice L (k (f c)) f
  | .poke c v k, f => InRange c L ∧ OnLattice L k (fun c' => if c' = c then v else f c')

/-- the pieces `F` on the nodes hold the field `f` -/
def Holds {V : Type} (g : Geom) (F : Nat → List V) (f : List Nat → V) : Prop :=
  ∀ n, n < g.nodes → (F n).length = g.sites ∧ ∀ i c, i < g.sites → g.siteCoords n i = ok c → (F n)[i]? = some (f c)

/-! ## One peek -/

theorem rd_some {V : Type} {F : List V} {i : Nat} {v : V} (h : F[i]? = some v) : rd F i = ok v := by
  unfold rd; rw [h]

/-- a peek gives every node the value of the field -/
theorem peek_all {V R : Type} (net : Net) (g : Geom) (hg : g.Good) (h0 : 0 < g.nodes) (zero : V) (F : Nat → List V) (f : List Nat → V)
    (hF : Holds g F f) (c : List Nat) (hc : InRange c g.L) (s : State V R) (k : Nat → V → Proc V R) (e : Nat)
    (h : At g.nodes s (fun n => peekSite g zero n (F n) c (k n)) e) :
    ∃ m t, Run net g.nodes m s t ∧ At g.nodes t (fun n => k n (f c)) (e + 1) := by
  obtain ⟨node, i, e1, hn, e2, hi, e3⟩ := hg.1 c hc
  have hloc : ∀ n, peekLocal g zero n node (F n) c = ok (if n = node then f c else zero) := by
    intro n
    unfold peekLocal
    by_cases h1 : n = node
    · subst h1
      rw [if_pos rfl, e2, ok_bind, rd_some ((hF n hn).2 i c hi e3), if_pos rfl]
    · rw [if_neg h1, if_neg h1]
  have hP : ∀ n, peekSite g zero n (F n) c (k n) =
      sendToPrimary n node (if n = node then f c else zero) (fun d => Proc.bcast d (k n)) := by
    intro n
    unfold peekSite
    rw [e1]; simp only [after]; rw [hloc]
  have h' : At g.nodes s (fun n => sendToPrimary n node (if n = node then f c else zero) (fun d => Proc.bcast d (k n))) e :=
    ⟨fun n hn => by rw [h.proc n hn, hP], h.queue, h.log⟩
  obtain ⟨m, t, D', hr, ht, hD⟩ := send_all net g.nodes h0 s node hn _ _ e h'
  obtain ⟨m', u, hr', hu⟩ := bcast_all net g.nodes h0 t D' k e ht
  rw [hD, if_pos rfl] at hu
  exact ⟨_, u, hr.trans hr', hu⟩

/-- a poke on every node changes the field in one place -/
theorem poke_all {V : Type} (g : Geom) (hg : g.Good) (F : Nat → List V) (f : List Nat → V) (hF : Holds g F f) (c : List Nat) (hc : InRange c g.L)
    (v : V) : ∃ F', (∀ n, n < g.nodes → pokeSite g n (F n) v c = ok (F' n)) ∧ Holds g F' (fun c' => if c' = c then v else f c') := by
  obtain ⟨node, i, e1, hn, e2, hi, e3⟩ := hg.1 c hc
  refine ⟨fun n => if n = node then (F n).set i v else F n, ?_, ?_⟩
  · intro n hn'
    unfold pokeSite
    rw [e1, ok_bind]
    by_cases h1 : n = node
    · subst h1
      rw [if_pos rfl, e2, ok_bind]
      simp only [if_true]
      unfold wrElem; rw [if_pos (by rw [(hF n hn').1]; exact hi)]
    · rw [if_neg h1]; simp only [if_neg h1]
  · intro n hn'
    obtain ⟨hl, hv⟩ := hF n hn'
    by_cases h1 : n = node
    · subst h1
      refine ⟨by simp [hl], ?_⟩
      intro j c' hj e'
      by_cases hji : j = i
      · subst hji
        rw [e3] at e'; cases e'
        simp [List.getElem?_set, hl, hi]
      · have : c' ≠ c := by
          rintro rfl
          obtain ⟨c'', a1, -, -, a4⟩ := hg.2 n j hn' hj
          rw [e'] at a1; cases a1
          rw [e2] at a4; cases a4; exact hji rfl
        simp only [if_true, if_neg this]
        rw [List.getElem?_set_ne (Ne.symm hji)]; exact hv j c' hj e'
    · refine ⟨by simp [h1, hl], ?_⟩
      intro j c' hj e'
      have : c' ≠ c := by
        rintro rfl
        obtain ⟨c'', a1, -, a3, -⟩ := hg.2 n j hn' hj
        rw [e'] at a1; cases a1
        rw [e1] at a3; cases a3; exact h1 rfl
      simp only [if_neg h1, if_neg this]
      exact hv j c' hj e'

/-- one execution of the program that ends well -/
theorem one_run {V R : Type} (net : Net) (g : Geom) (hg : g.Good) (h0 : 0 < g.nodes) (zero : V) : ∀ (p : Prog V R) (F : Nat → List V) (f : List Nat → V)
    (s : State V (R × List V)) (e : Nat), Holds g F f → OnLattice g.L p f → At g.nodes s (fun n => node g zero n p (F n)) e →
    ∃ m t F' e', Run net g.nodes m s t ∧ At g.nodes t (fun n => .done ((run p f).1, F' n)) e' ∧ Holds g F' (run p f).2 := by
  intro p
  induction p with
  | ret r => intro F f s e hF _ h; exact ⟨0, s, F, e, Run.refl _, h, hF⟩
  | peek c k ih =>
    intro F f s e hF hp h
    obtain ⟨m, t, hr, ht⟩ := peek_all net g hg h0 zero F f hF c hp.1 s (fun n v => node g zero n (k v) (F n)) e h
    obtain ⟨m', u, F', e', hr', hu, hF'⟩ := ih (f c) F f t (e + 1) hF hp.2 ht
    exact ⟨_, u, F', e', hr.trans hr', hu, hF'⟩
  | poke c v k ih =>
    intro F f s e hF hp h
    obtain ⟨F1, h1, hF1⟩ := poke_all g hg F f hF c hp.1 v
    have h' : At g.nodes s (fun n => node g zero n k (F1 n)) e :=
      ⟨fun n hn => by rw [h.proc n hn]; show after (pokeSite g n (F n) v c) _ = _; rw [h1 n hn]; rfl, h.queue, h.log⟩
    exact ih F1 _ s e hF1 hp.2 h'

end Verif.PeekPoke
