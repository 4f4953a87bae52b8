import Verif.LayoutProps
/-
Site ordering on a multi-node (parscalar) build: model of `lib/qdp_parscalar_layout.cc`.  The three orderings of the vector library,
lib/qdp_parscalarvec_layout.cc:337-613 (lexicographic, 2 and 32 checkerboards), are the same text.

QMP (node number <-> logical machine coordinate) is external: it enters as the two functions of `Machine`, with
the hypothesis `Machine.Good` (mutually inverse on the logical grid), which is what `Layout::create` tests at start
(lib/qdp_parscalar_layout.cc:337-344).
-/
namespace Verif.ParLayout
open Verif Outcome Verif.Layout

/-! ## Model -/

/-- `multi1d *= multi1d` (include/qdp_multi.h:166-177): elementwise; different lengths stop the program. -/
def zipMul : List Nat → List Nat → Outcome (List Nat)
  | [], [] => ok []
  | a :: as, b :: bs => do let r ← zipMul as bs; return (a * b) :: r
  | _, _ => abort

/-- `multi1d += multi1d`, include/qdp_multi.h:106-117. -/
def zipAdd : List Nat → List Nat → Outcome (List Nat)
  | [], [] => ok []
  | a :: as, b :: bs => do let r ← zipAdd as bs; return (a + b) :: r
  | _, _ => abort

/-- `for(i) tmp_coord[i] = coord[i] / subgridLattSize()[i]`, lib/qdp_parscalar_layout.cc:416-417 -/
def zipDiv : List Nat → List Nat → Outcome (List Nat)
  | [], [] => ok []
  | a :: as, b :: bs => do let q ← cdiv a b; let r ← zipDiv as bs; return q :: r
  | _, _ => ub

/-- `for(i) tmp_coord[i] = coord[i] % subgridLattSize()[i]`, lib/qdp_parscalar_layout.cc:403-404 -/
def zipMod : List Nat → List Nat → Outcome (List Nat)
  | [], [] => ok []
  | a :: as, b :: bs => do let q ← cmod a b; let r ← zipMod as bs; return q :: r
  | _, _ => ub

/-- The QMP logical machine. -/
structure Machine where
  /-- `logical_size` -/
  size : List Nat
  /-- `getNodeNumberFrom`, lib/qdp_parscalar_layout.cc:131-134 (QMP call) -/
  nodeFrom : List Nat → Nat
  /-- `getLogicalCoordFrom`, lib/qdp_parscalar_layout.cc:138-151 (QMP call) -/
  coordFrom : Nat → List Nat

/-- `subgrid_nrow[i] = nrow[i] / logical_size[i]`, lib/qdp_parscalar_layout.cc:298 -/
def subgrid (nrow : List Nat) (m : Machine) : Outcome (List Nat) := zipDiv nrow m.size

/-- `nodeNumber(coord)`, the same for all orderings, lib/qdp_parscalar_layout.cc:412-420, 487-495, 581-589 -/
def nodeNumber (m : Machine) (sub : List Nat) (coord : List Nat) : Outcome Nat := do
  let t ← zipDiv coord sub
  return m.nodeFrom t

/-- lexicographic `linearSiteIndex`, lib/qdp_parscalar_layout.cc:399-407 -/
def linearSiteIndexLex (sub : List Nat) (coord : List Nat) : Outcome Nat := do
  let t ← zipMod coord sub
  localSite t sub

/-- lexicographic `siteCoords`, lib/qdp_parscalar_layout.cc:425-437 -/
def siteCoordsLex (m : Machine) (sub : List Nat) (node linear : Nat) : Outcome (List Nat) := do
  let base ← zipMul (m.coordFrom node) sub
  let c ← crtesn linear sub
  zipAdd base c

/-- 2-checkerboard `linearSiteIndex`, lib/qdp_parscalar_layout.cc:461-478 -/
def linearSiteIndexCB2 (sub : List Nat) (coord : List Nat) : Outcome Nat := do
  let v ← volume sub
  let volCb := v >>> 1
  match sub, coord with
  | s0 :: ss, c0 :: cs => do
      let h := s0 >>> 1
      let s ← ckInt (c0 :: cs).sum
      let cb := s &&& 1
      let x ← cmod (c0 >>> 1) h
      let r ← zipMod cs ss
      let o ← localSite (x :: r) (h :: ss)
      ckInt (o + cb * volCb)
  | _, _ => ub

/-- 2-checkerboard `siteCoords`, lib/qdp_parscalar_layout.cc:503-529 -/
def siteCoordsCB2 (m : Machine) (sub : List Nat) (node linear : Nat) : Outcome (List Nat) := do
  let v ← volume sub
  let volCb := v >>> 1
  let nrow ← halveFirst sub
  let base ← zipMul (m.coordFrom node) sub
  let cb ← cdiv linear volCb
  let q ← cmod linear volCb
  let tmp ← crtesn q nrow
  match base, tmp with
  | b0 :: bs, t0 :: ts => do
      let cs ← zipAdd bs ts
      let cbb ← ckInt (cb + cs.sum)
      return (b0 + 2 * t0 + (cbb &&& 1)) :: cs
  | _, _ => ub

/-- 3D checkerboard `linearSiteIndex`, lib/qdp_parscalar_layout.cc:554-572 -/
def linearSiteIndexCB3D (sub : List Nat) (coord : List Nat) : Outcome Nat := do
  let v ← volume sub
  let volCb := v / 2
  match sub, coord with
  | s0 :: ss, c0 :: cs => do
      let h := s0 / 2
      let s ← ckInt (c0 :: cs).dropLast.sum
      let cb := s &&& 1
      let x ← cmod (c0 / 2) h
      let r ← zipMod cs ss
      let o ← localSite3d (x :: r) (h :: ss)
      ckInt (o + cb * volCb)
  | _, _ => ub

/-- 3D checkerboard `siteCoords`, lib/qdp_parscalar_layout.cc:597-630 -/
def siteCoordsCB3D (m : Machine) (sub : List Nat) (node linear : Nat) : Outcome (List Nat) := do
  let v ← volume sub
  let volCb := v / 2
  let nrow ← match sub with | [] => ub | l :: ls => ok ((l / 2) :: ls)
  let base ← zipMul (m.coordFrom node) sub
  let cb ← cdiv linear volCb
  let q ← cmod linear volCb
  let tmp ← crtesn3d q nrow
  match base, tmp with
  | b0 :: bs, t0 :: ts => do
      let cs ← zipAdd bs ts
      let cbb ← ckInt (cb + cs.dropLast.sum)
      return (b0 + 2 * t0 + (cbb &&& 1)) :: cs
  | _, _ => ub

/-! ## Specification vocabulary -/

/-- QMP's two functions are mutually inverse between `0..numNodes-1` and the logical grid. -/
def Machine.Good (m : Machine) : Prop :=
  (∀ n, n < nsites m.size → InRange (m.coordFrom n) m.size ∧ m.nodeFrom (m.coordFrom n) = n) ∧
  (∀ p, InRange p m.size → m.nodeFrom p < nsites m.size ∧ m.coordFrom (m.nodeFrom p) = p)

/-- the lattice of extents `L` is cut by the machine grid `P` into equal blocks `sub` -/
def Cut : List Nat → List Nat → List Nat → Prop
  | [], [], [] => True
  | l :: L, p :: P, s :: S => l = p * s ∧ Cut L P S
  | _, _, _ => False

/-- A (node, slot) addressing of the sites of a lattice: what a user of `Layout` sees. -/
structure Geom where
  /-- lattice extents -/
  L : List Nat
  /-- number of nodes -/
  nodes : Nat
  /-- sites per node -/
  sites : Nat
  siteCoords : Nat → Nat → Outcome (List Nat)
  nodeNumber : List Nat → Outcome Nat
  linearSiteIndex : List Nat → Outcome Nat

/-- (node, slot) <-> coordinate is a bijection: every lattice coordinate is owned by exactly one (node, slot). -/
def Geom.Good (g : Geom) : Prop :=
  (∀ c, InRange c g.L → ∃ n i, g.nodeNumber c = ok n ∧ n < g.nodes ∧ g.linearSiteIndex c = ok i ∧ i < g.sites ∧
      g.siteCoords n i = ok c) ∧
  (∀ n i, n < g.nodes → i < g.sites → ∃ c, g.siteCoords n i = ok c ∧ InRange c g.L ∧ g.nodeNumber c = ok n ∧
      g.linearSiteIndex c = ok i)

/-! ## Lemmas -/

/-- pure elementwise maps (lengths assumed equal by the lemmas below) -/
def mulL (p s : List Nat) : List Nat := List.zipWith (· * ·) p s
def addL (p s : List Nat) : List Nat := List.zipWith (· + ·) p s

theorem zipMul_eq : ∀ {p s : List Nat}, p.length = s.length → zipMul p s = ok (mulL p s)
  | [], [], _ => rfl
  | a :: as, b :: bs, h => by
      simp only [List.length_cons, Nat.add_right_cancel_iff] at h
      simp [zipMul, zipMul_eq h, mulL]
  | [], _ :: _, h => by simp at h
  | _ :: _, [], h => by simp at h

theorem zipAdd_eq : ∀ {p s : List Nat}, p.length = s.length → zipAdd p s = ok (addL p s)
  | [], [], _ => rfl
  | a :: as, b :: bs, h => by
      simp only [List.length_cons, Nat.add_right_cancel_iff] at h
      simp [zipAdd, zipAdd_eq h, addL]
  | [], _ :: _, h => by simp at h
  | _ :: _, [], h => by simp at h

theorem zipDiv_block : ∀ {p s r : List Nat}, p.length = s.length → InRange r s →
    zipDiv (addL (mulL p s) r) s = ok p
  | [], [], [], _, _ => rfl
  | p :: ps, s :: ss, r :: rs, h, hr => by
      simp only [List.length_cons, Nat.add_right_cancel_iff] at h
      have hs : 0 < s := by have := hr.1; omega
      simp only [addL, mulL, List.zipWith_cons_cons, zipDiv, cdiv_pos hs, ok_bind]
      have := zipDiv_block h hr.2
      simp only [addL, mulL] at this
      rw [this]
      simp [Nat.add_comm, Nat.add_mul_div_right _ _ hs, Nat.div_eq_of_lt hr.1]
  | [], [], _ :: _, _, h => by simp [InRange] at h
  | [], _ :: _, _, h, _ => by simp at h
  | _ :: _, [], _, h, _ => by simp at h
  | _ :: _, _ :: _, [], _, h => by simp [InRange] at h

theorem zipMod_block : ∀ {p s r : List Nat}, p.length = s.length → InRange r s →
    zipMod (addL (mulL p s) r) s = ok r
  | [], [], [], _, _ => rfl
  | p :: ps, s :: ss, r :: rs, h, hr => by
      simp only [List.length_cons, Nat.add_right_cancel_iff] at h
      have hs : 0 < s := by have := hr.1; omega
      simp only [addL, mulL, List.zipWith_cons_cons, zipMod, cmod_pos hs, ok_bind]
      have := zipMod_block h hr.2
      simp only [addL, mulL] at this
      rw [this]
      simp [Nat.add_comm, Nat.add_mul_mod_self_right, Nat.mod_eq_of_lt hr.1]
  | [], [], _ :: _, _, h => by simp [InRange] at h
  | [], _ :: _, _, h, _ => by simp at h
  | _ :: _, [], _, h, _ => by simp at h
  | _ :: _, _ :: _, [], _, h => by simp [InRange] at h

theorem inRange_block : ∀ {L P S p r : List Nat}, Cut L P S → InRange p P → InRange r S →
    InRange (addL (mulL p S) r) L
  | [], [], [], [], [], _, _, _ => trivial
  | l :: L, p :: P, s :: S, a :: as, r :: rs, hc, hp, hr => by
      simp only [addL, mulL, List.zipWith_cons_cons, InRange]
      refine ⟨?_, inRange_block hc.2 hp.2 hr.2⟩
      rw [hc.1]
      have h1 := hp.1
      have h2 := hr.1
      have : (a + 1) * s ≤ p * s := Nat.mul_le_mul_right _ h1
      rw [Nat.add_mul] at this
      omega
  | [], [], [], _ :: _, _, _, h, _ => by simp [InRange] at h
  | [], [], [], [], _ :: _, _, _, h => by simp [InRange] at h
  | _ :: _, _ :: _, _ :: _, [], _, _, h, _ => by simp [InRange] at h
  | _ :: _, _ :: _, _ :: _, _ :: _, [], _, _, h => by simp [InRange] at h
  | [], [], _ :: _, _, _, h, _, _ => by simp [Cut] at h
  | [], _ :: _, _, _, _, h, _, _ => by simp [Cut] at h
  | _ :: _, [], _, _, _, h, _, _ => by simp [Cut] at h
  | _ :: _, _ :: _, [], _, _, h, _, _ => by simp [Cut] at h

theorem block_of_inRange : ∀ {L P S c : List Nat}, Cut L P S → InRange c L →
    ∃ p r, InRange p P ∧ InRange r S ∧ c = addL (mulL p S) r
  | [], [], [], [], _, _ => ⟨[], [], trivial, trivial, rfl⟩
  | l :: L, p :: P, s :: S, c :: cs, hc, h => by
      obtain ⟨ps, rs, h1, h2, h3⟩ := block_of_inRange hc.2 h.2
      have hl := hc.1
      have hlt := h.1
      have hs : 0 < s := by
        rcases Nat.eq_zero_or_pos s with e | e
        · rw [hl, e] at hlt; simp at hlt
        · exact e
      refine ⟨(c / s) :: ps, (c % s) :: rs, ⟨?_, h1⟩, ⟨Nat.mod_lt _ hs, h2⟩, ?_⟩
      · apply Nat.div_lt_of_lt_mul; rw [Nat.mul_comm, ← hl]; exact hlt
      · simp only [addL, mulL, List.zipWith_cons_cons, List.cons.injEq]
        refine ⟨?_, h3⟩
        rw [Nat.mul_comm]; exact (Nat.div_add_mod c s).symm
  | [], [], [], _ :: _, _, h => by simp [InRange] at h
  | _ :: _, _ :: _, _ :: _, [], _, h => by simp [InRange] at h
  | [], [], _ :: _, _, h, _ => by simp [Cut] at h
  | [], _ :: _, _, _, h, _ => by simp [Cut] at h
  | _ :: _, [], _, _, h, _ => by simp [Cut] at h
  | _ :: _, _ :: _, [], _, h, _ => by simp [Cut] at h

theorem cut_lengths : ∀ {L P S : List Nat}, Cut L P S → P.length = S.length ∧ L.length = S.length
  | [], [], [], _ => by simp
  | l :: L, p :: P, s :: S, h => by
      have := cut_lengths h.2
      simp [this.1, this.2]
  | [], [], _ :: _, h => by simp [Cut] at h
  | [], _ :: _, _, h => by simp [Cut] at h
  | _ :: _, [], _, h => by simp [Cut] at h
  | _ :: _, _ :: _, [], h => by simp [Cut] at h

theorem cut_nsites : ∀ {L P S : List Nat}, Cut L P S → nsites L = nsites P * nsites S
  | [], [], [], _ => by simp [nsites]
  | l :: L, p :: P, s :: S, h => by
      simp only [nsites, cut_nsites h.2, h.1]; ac_rfl
  | [], [], _ :: _, h => by simp [Cut] at h
  | [], _ :: _, _, h => by simp [Cut] at h
  | _ :: _, [], _, h => by simp [Cut] at h
  | _ :: _, _ :: _, [], h => by simp [Cut] at h

/-- the sub-grid the code computes is the block size of the cut -/
theorem subgrid_eq : ∀ {L P S : List Nat}, Cut L P S → (∀ p ∈ P, 0 < p) → zipDiv L P = ok S
  | [], [], [], _, _ => rfl
  | l :: L, p :: P, s :: S, h, hp => by
      simp only [List.mem_cons, forall_eq_or_imp] at hp
      simp only [zipDiv, cdiv_pos hp.1, ok_bind, subgrid_eq h.2 hp.2, h.1]
      simp [Nat.mul_div_cancel_left _ hp.1]
  | [], [], _ :: _, h, _ => by simp [Cut] at h
  | [], _ :: _, _, h, _ => by simp [Cut] at h
  | _ :: _, [], _, h, _ => by simp [Cut] at h
  | _ :: _, _ :: _, [], h, _ => by simp [Cut] at h

/-- Ordering inside a block: given the block coordinate `p`, `loc p r` is the slot of local coordinate `r` and
`unl p i` the local coordinate of slot `i`. If they are mutually inverse for each block, the whole geometry is good. -/
theorem good_of_local {L P S : List Nat} {m : Machine} (hcut : Cut L P S) (hm : m.Good) (hP : m.size = P)
    (g : Geom) (hL : g.L = L) (hn : g.nodes = nsites P) (hs : g.sites = nsites S)
    (hnode : g.nodeNumber = ParLayout.nodeNumber m S)
    (loc : List Nat → List Nat → Nat) (unl : List Nat → Nat → List Nat)
    (h1 : ∀ p r, InRange p P → InRange r S →
      g.linearSiteIndex (addL (mulL p S) r) = ok (loc p r) ∧ loc p r < nsites S ∧ unl p (loc p r) = r)
    (h2 : ∀ n i, n < nsites P → i < nsites S →
      g.siteCoords n i = ok (addL (mulL (m.coordFrom n) S) (unl (m.coordFrom n) i)) ∧
      InRange (unl (m.coordFrom n) i) S ∧ loc (m.coordFrom n) (unl (m.coordFrom n) i) = i) :
    g.Good := by
  have hlen := (cut_lengths hcut).1
  constructor
  · intro c hc
    rw [hL] at hc
    obtain ⟨p, r, hp, hr, rfl⟩ := block_of_inRange hcut hc
    have hpm : InRange p m.size := by rw [hP]; exact hp
    obtain ⟨ha, hb⟩ := hm.2 p hpm
    rw [hP] at ha
    have k1 := h1 p r hp hr
    have k2 := h2 _ _ ha k1.2.1
    rw [hb, k1.2.2] at k2
    refine ⟨m.nodeFrom p, loc p r, ?_, by rw [hn]; exact ha, k1.1, by rw [hs]; exact k1.2.1, k2.1⟩
    rw [hnode]
    unfold ParLayout.nodeNumber
    rw [zipDiv_block (by rw [hp.length_eq, hlen]) hr]
    rfl
  · intro n i hn' hi
    rw [hn] at hn'
    rw [hs] at hi
    have hq := hm.1 n (by rw [hP]; exact hn')
    rw [hP] at hq
    have k2 := h2 n i hn' hi
    have k1 := h1 _ _ hq.1 k2.2.1
    refine ⟨_, k2.1, by rw [hL]; exact inRange_block hcut hq.1 k2.2.1, ?_, by rw [k1.1, k2.2.2]⟩
    rw [hnode]
    unfold ParLayout.nodeNumber
    rw [zipDiv_block (by rw [hq.1.length_eq, hlen]) k2.2.1]
    simp [hq.2]

end Verif.ParLayout
