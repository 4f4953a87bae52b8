import Verif.ShiftProps
import Verif.UtilProps
/-
Maps on many nodes: model of the parscalar `Map::make` (lib/qdp_parscalar_specific.cc:29-243) as the program each node
runs, and of `Map::operator()` (include/qdp_parscalar_specific.h:1907-2093) as one collective operation.

Simplifications: the off-node entries of the two node lists are selected with `filter` (code: count, resize, copy);
QMP delivers what was sent between the declared partners; a receive without the matching send (or with another
length) never completes or is outside QMP's contract and is modelled as `ub`; buffers are counted in elements, not
bytes; memory allocation failures (which stop the program) are not modelled.
-/
namespace Verif.ParMap
open Verif Outcome Verif.Layout Verif.ParLayout Verif.Subset Verif.Shift Verif.Util

/-! ## Model -/

/-- the data members of `Map`, include/qdp_parscalar_specific.h:2146-2165 -/
structure MapTab where
  goffsets : List Nat
  srcnode : List Nat
  dstnode : List Nat
  offnodeP : Bool
  srcenodes : List Nat
  destnodes : List Nat
  srcenodesNum : List Nat
  destnodesNum : List Nat
  soffsets : List (Option Nat)
deriving Repr, DecidableEq

/-- body of the first loop, lib/qdp_parscalar_specific.cc:53-75: (goffsets, srcnode, dstnode) of one site -/
def siteRow (g : Geom) (my : Nat) (func : List Nat → Int → Outcome (List Nat)) (linear : Nat) :
    Outcome (Nat × Nat × Nat) := do
  let coord ← g.siteCoords my linear
  let fcoord ← func coord 1
  let bcoord ← func coord (-1)
  let fnode ← g.nodeNumber fcoord
  let bnode ← g.nodeNumber bcoord
  let goff ← g.linearSiteIndex fcoord
  return (goff, fnode, bnode)

/-- `for i: if (nodes[i] == this) { num[i]++; break; }`, lib/qdp_parscalar_specific.cc:167-173 and 178-185 -/
def bump : List Nat → List Nat → Nat → List Nat
  | n :: ns, k :: ks, this => if n = this then (k + 1) :: ks else k :: bump ns ks this
  | _, nums, _ => nums

/-- counting loop over the sites, lib/qdp_parscalar_specific.cc:163-186 (one of its two halves) -/
def countNodes (my : Nat) (nodes : List Nat) : List Nat → List Nat → List Nat
  | [], nums => nums
  | this :: rest, nums => countNodes my nodes rest (if this ≠ my then bump nodes nums this else nums)

/-- scatter loop, lib/qdp_parscalar_specific.cc:221-232 -/
def soffLoop (g : Geom) (func : List Nat → Int → Outcome (List Nat)) (my dest : Nat) :
    List Nat → Nat → List (Option Nat) → Outcome (List (Option Nat))
  | [], _, so => ok so
  | i :: is, si, so => do
      let coord ← g.siteCoords dest i
      let fcoord ← func coord 1
      let fnode ← g.nodeNumber fcoord
      let fline ← g.linearSiteIndex fcoord
      if fnode = my then do
        let so' ← wrSet so si fline
        soffLoop g func my dest is (si + 1) so'
      else soffLoop g func my dest is si so

/-- `Map::make`, lib/qdp_parscalar_specific.cc:29-243 -/
def make (g : Geom) (my : Nat) (func : List Nat → Int → Outcome (List Nat)) : Outcome MapTab := do
  let rows ← mapO (siteRow g my func) (List.range g.sites)
  let goff := rows.map (·.1)
  let src := rows.map (·.2.1)
  let dst := rows.map (·.2.2)
  let srcTmp ← uniquify src
  let dstTmp ← uniquify dst
  let srcs := srcTmp.filter (· ≠ my)
  let dsts := dstTmp.filter (· ≠ my)
  if srcs.length > 0 ∧ dsts.length = 0 then abort
  else if srcs.length = 0 ∧ dsts.length > 0 then abort
  else if srcs.length = 0 then return ⟨goff, src, dst, false, [], [], [], [], []⟩
  else do
    let snum := countNodes my srcs src (List.replicate srcs.length 0)
    let dnum := countNodes my dsts dst (List.replicate dsts.length 0)
    if srcs.length ≠ 1 then abort
    else if dsts.length ≠ 1 then abort
    else do
      let d0 ← rd dsts 0
      let n0 ← rd dnum 0
      let so ← soffLoop g func my d0 (List.range g.sites) 0 (List.replicate n0 none)
      return ⟨goff, src, dst, true, srcs, dsts, snum, dnum, so⟩

/-- packing loop, include/qdp_parscalar_specific.h:1977-1984 -/
def sendBuf {α : Type} (so : List (Option Nat)) (data : List α) : Outcome (List α) :=
  mapO (fun si => do let k ← rdSet so si; rd data k) (List.range so.length)

/-- gather/scatter loops, include/qdp_parscalar_specific.h:1990-2010 and 2081-2089; arguments: (srcnode, goffsets) of the
remaining sites and `ri` -/
def gather {α : Type} (my : Nat) (recv data : List α) : List (Nat × Nat) → Nat → Outcome (List α)
  | [], _ => ok []
  | (s, o) :: rest, ri =>
      if s ≠ my then do
        let x ← rd recv ri
        let xs ← gather my recv data rest (ri + 1)
        return x :: xs
      else do
        let x ← rd data o
        let xs ← gather my recv data rest ri
        return x :: xs

/-- `Map::operator()` on node `my`, all nodes taking part with tables `T` and data `D`,
include/qdp_parscalar_specific.h:1907-2093 -/
def apply {α : Type} (T : Nat → MapTab) (D : Nat → List α) (my : Nat) : Outcome (List α) := do
  let t := T my
  let data := D my
  if t.offnodeP then do
    let dstnum ← rd t.destnodesNum 0
    let srcnum ← rd t.srcenodesNum 0
    let from_ ← rd t.srcenodes 0
    let to ← rd t.destnodes 0
    let mine ← sendBuf t.soffsets data
    -- the partner that must take my message
    let pt := T to
    if ¬ (pt.offnodeP ∧ pt.srcenodes[0]? = some my ∧ pt.srcenodesNum[0]? = some dstnum ∧ mine.length = dstnum) then ub
    else do
      -- the partner whose message I take
      let pf := T from_
      if ¬ (pf.offnodeP ∧ pf.destnodes[0]? = some my) then ub
      else do
        let msg ← sendBuf pf.soffsets (D from_)
        if msg.length ≠ srcnum then ub
        else gather my msg data (t.srcnode.zip t.goffsets) 0
  else mapO (fun i => do let k ← rd t.goffsets i; rd data k) (List.range t.goffsets.length)

/-! ## Specification -/

/-- `φ`, `ψ` are mutually inverse permutations of the sites, and `func` computes them for `+1` and `-1` -/
structure IsPerm (L : List Nat) (func : List Nat → Int → Outcome (List Nat)) (φ ψ : List Nat → List Nat) : Prop where
  fwd : ∀ c, InRange c L → func c 1 = ok (φ c) ∧ InRange (φ c) L
  bwd : ∀ c, InRange c L → func c (-1) = ok (ψ c) ∧ InRange (ψ c) L
  left : ∀ c, InRange c L → ψ (φ c) = c
  right : ∀ c, InRange c L → φ (ψ c) = c

/-! ## Lemmas -/

/-- total versions of the layout functions -/
def co (g : Geom) (n i : Nat) : List Nat := match g.siteCoords n i with | ok c => c | _ => []
def nd (g : Geom) (c : List Nat) : Nat := match g.nodeNumber c with | ok n => n | _ => 0
def ix (g : Geom) (c : List Nat) : Nat := match g.linearSiteIndex c with | ok n => n | _ => 0

section
variable {g : Geom} (hg : g.Good)
include hg

theorem co_spec {n i : Nat} (hn : n < g.nodes) (hi : i < g.sites) :
    g.siteCoords n i = ok (co g n i) ∧ InRange (co g n i) g.L ∧ nd g (co g n i) = n ∧ ix g (co g n i) = i := by
  obtain ⟨c, h1, h2, h3, h4⟩ := hg.2 n i hn hi
  have : co g n i = c := by simp [co, h1]
  rw [this]
  exact ⟨h1, h2, by simp [nd, h3], by simp [ix, h4]⟩

theorem nd_spec {c : List Nat} (hc : InRange c g.L) :
    g.nodeNumber c = ok (nd g c) ∧ g.linearSiteIndex c = ok (ix g c) ∧ nd g c < g.nodes ∧ ix g c < g.sites ∧
      co g (nd g c) (ix g c) = c := by
  obtain ⟨n, i, h1, h2, h3, h4, h5⟩ := hg.1 c hc
  have e1 : nd g c = n := by simp [nd, h1]
  have e2 : ix g c = i := by simp [ix, h3]
  rw [e1, e2]
  exact ⟨h1, h3, h2, h4, by simp [co, h5]⟩

end

/-- the source-node and destination-node lists of a node -/
def srcList (g : Geom) (φ : List Nat → List Nat) (my : Nat) : List Nat :=
  (List.range g.sites).map (fun i => nd g (φ (co g my i)))
def offList (g : Geom) (φ : List Nat → List Nat) (my : Nat) : List Nat :=
  (List.range g.sites).map (fun i => ix g (φ (co g my i)))

section
variable {g : Geom} (hg : g.Good) {func : List Nat → Int → Outcome (List Nat)} {φ ψ : List Nat → List Nat}
  (hp : IsPerm g.L func φ ψ)
include hg hp

theorem siteRow_eq {my i : Nat} (hn : my < g.nodes) (hi : i < g.sites) :
    siteRow g my func i = ok (ix g (φ (co g my i)), nd g (φ (co g my i)), nd g (ψ (co g my i))) := by
  obtain ⟨h1, h2, -, -⟩ := co_spec hg hn hi
  obtain ⟨f1, f2⟩ := hp.fwd _ h2
  obtain ⟨b1, b2⟩ := hp.bwd _ h2
  obtain ⟨a1, a2, -⟩ := nd_spec hg f2
  obtain ⟨a3, -⟩ := nd_spec hg b2
  simp [siteRow, h1, f1, b1, a1, a2, a3]

theorem rows_eq {my : Nat} (hn : my < g.nodes) : mapO (siteRow g my func) (List.range g.sites) =
    ok ((List.range g.sites).map
      (fun i => (ix g (φ (co g my i)), nd g (φ (co g my i)), nd g (ψ (co g my i))))) :=
  mapO_ok (fun _ hi => siteRow_eq hg hp hn (List.mem_range.1 hi))

/-- slots of node `d` whose source is on node `s`, in slot order, as slots of `s` -/
def pick (g : Geom) (φ : List Nat → List Nat) (s d : Nat) (is : List Nat) : List Nat :=
  (is.filter (fun i => nd g (φ (co g d i)) = s)).map (fun i => ix g (φ (co g d i)))

theorem soffLoop_eq {my dest : Nat} (hd : dest < g.nodes) (is : List Nat) (his : ∀ i ∈ is, i < g.sites)
    (acc : List Nat) (k : Nat) (hk : (pick g φ my dest is).length ≤ k) :
    soffLoop g func my dest is acc.length (acc.map some ++ List.replicate k none) =
      ok ((acc ++ pick g φ my dest is).map some ++ List.replicate (k - (pick g φ my dest is).length) none) := by
  induction is generalizing acc k with
  | nil => simp [soffLoop, pick]
  | cons i is ih =>
    simp only [List.mem_cons, forall_eq_or_imp] at his
    obtain ⟨h1, h2, -, -⟩ := co_spec hg hd his.1
    obtain ⟨f1, f2⟩ := hp.fwd _ h2
    obtain ⟨a1, a2, -⟩ := nd_spec hg f2
    rw [soffLoop, h1, ok_bind, f1, ok_bind, a1, ok_bind, a2, ok_bind]
    by_cases hm : nd g (φ (co g dest i)) = my
    · rw [if_pos hm]
      have hpk : pick g φ my dest (i :: is) = ix g (φ (co g dest i)) :: pick g φ my dest is := by
        simp [pick, hm]
      rw [hpk, List.length_cons] at hk
      obtain ⟨k0, rfl⟩ : ∃ k0, k = k0 + 1 := ⟨k - 1, by omega⟩
      rw [wrSet_acc, ok_bind]
      have := ih his.2 (acc ++ [ix g (φ (co g dest i))]) k0 (by omega)
      simp only [List.length_append, List.length_singleton] at this
      rw [this, hpk]
      simp
    · rw [if_neg hm]
      have hpk : pick g φ my dest (i :: is) = pick g φ my dest is := by simp [pick, hm]
      rw [hpk] at hk ⊢
      exact ih his.2 acc k hk

end

theorem countNodes_single (my s : Nat) (hs : s ≠ my) (l : List Nat) (k : Nat) :
    countNodes my [s] l [k] = [k + l.count s] := by
  induction l generalizing k with
  | nil => simp [countNodes]
  | cons a l ih =>
    rw [countNodes]
    by_cases h : a = s
    · subst h
      rw [if_pos hs]
      simp only [bump, if_true]
      rw [ih, List.count_cons_self]
      congr 1; omega
    · have hcnt : (a :: l).count s = l.count s := by simp [h]
      rw [hcnt]
      split
      · simp only [bump]
        rw [if_neg (fun e => h e.symm), ih]
      · exact ih k

section
variable {g : Geom} (hg : g.Good) {func : List Nat → Int → Outcome (List Nat)} {φ ψ : List Nat → List Nat}
  (hp : IsPerm g.L func φ ψ)
include hg hp

/-- Sites of `a` reading from `b` and sites of `b` feeding `a` correspond one to one. -/
theorem count_match {a b : Nat} (ha : a < g.nodes) (hb : b < g.nodes) :
    (srcList g φ a).count b = (srcList g ψ b).count a := by
  have hl : ∀ (χ : List Nat → List Nat) (n m : Nat), (srcList g χ n).count m =
      (((List.range g.sites).map (co g n)).filter (fun c => nd g (χ c) = m)).length := by
    intro χ n m
    unfold srcList
    rw [List.count_eq_countP, List.countP_map, List.filter_map, List.length_map, ← List.countP_eq_length_filter]
    apply List.countP_congr
    intro x _
    simp
  rw [hl, hl]
  have hnd : ∀ n, n < g.nodes → ((List.range g.sites).map (co g n)).Nodup := by
    intro n hn
    rw [List.nodup_iff_pairwise_ne, List.pairwise_map]
    refine (List.nodup_iff_pairwise_ne.1 (List.nodup_range (n := g.sites))).imp_of_mem ?_
    intro x y hx hy hne e
    have h1 := (co_spec hg hn (List.mem_range.1 hx)).2.2.2
    have h2 := (co_spec hg hn (List.mem_range.1 hy)).2.2.2
    rw [e, h2] at h1
    exact hne h1.symm
  have hmem : ∀ n, n < g.nodes → ∀ c, c ∈ (List.range g.sites).map (co g n) ↔ InRange c g.L ∧ nd g c = n := by
    intro n hn c
    constructor
    · intro h
      obtain ⟨i, hi, rfl⟩ := List.mem_map.1 h
      have := co_spec hg hn (List.mem_range.1 hi)
      exact ⟨this.2.1, this.2.2.1⟩
    · rintro ⟨hc, rfl⟩
      have := nd_spec hg hc
      exact List.mem_map.2 ⟨ix g c, List.mem_range.2 this.2.2.2.1, this.2.2.2.2⟩
  have hperm : ((((List.range g.sites).map (co g a)).filter (fun c => nd g (φ c) = b)).map φ).Perm
      (((List.range g.sites).map (co g b)).filter (fun c => nd g (ψ c) = a)) := by
    refine (List.perm_ext_iff_of_nodup ?_ ((hnd b hb).filter _)).2 ?_
    · rw [List.nodup_iff_pairwise_ne, List.pairwise_map]
      refine (List.nodup_iff_pairwise_ne.1 ((hnd a ha).filter _)).imp_of_mem ?_
      intro x y hx hy hne e
      have h1 := (hmem a ha x).1 (List.mem_filter.1 hx).1
      have h2 := (hmem a ha y).1 (List.mem_filter.1 hy).1
      apply hne
      rw [← hp.left x h1.1, ← hp.left y h2.1, e]
    · intro c
      simp only [List.mem_map (f := φ), List.mem_filter, hmem a ha, hmem b hb, decide_eq_true_eq]
      constructor
      · rintro ⟨x, ⟨⟨h1, h2⟩, h3⟩, rfl⟩
        exact ⟨⟨(hp.fwd x h1).2, h3⟩, by rw [hp.left x h1]; exact h2⟩
      · rintro ⟨⟨h1, h2⟩, h3⟩
        exact ⟨ψ c, ⟨⟨(hp.bwd c h1).2, h3⟩, by rw [hp.right c h1]; exact h2⟩, hp.right c h1⟩
  have := hperm.length_eq
  rw [List.length_map] at this
  exact this

theorem pick_length {s d : Nat} (hs : s < g.nodes) (hd : d < g.nodes) :
    (pick g φ s d (List.range g.sites)).length = (srcList g ψ s).count d := by
  rw [← count_match hg hp hd hs]
  unfold pick srcList
  rw [List.length_map, List.count_eq_countP, List.countP_map, ← List.countP_eq_length_filter]
  apply List.countP_congr
  intro x _
  simp

/-- a node reads from elsewhere iff it feeds elsewhere: the two sanity checks of `Map::make` cannot fire -/
theorem off_iff {my : Nat} (hn : my < g.nodes) :
    (∀ x ∈ srcList g φ my, x = my) ↔ (∀ x ∈ srcList g ψ my, x = my) := by
  have h := count_match hg hp hn hn
  have e : ∀ l : List Nat, (∀ x ∈ l, x = my) ↔ l.count my = l.length := by
    intro l
    rw [List.count_eq_length]
    constructor <;> intro h x hx <;> exact (h x hx).symm
  rw [e, e, h]
  simp [srcList]

/-- What an accepted `Map::make` leaves behind. -/
theorem make_ok {my : Nat} (hn : my < g.nodes) {t : MapTab} (hm : make g my func = ok t) :
    t.goffsets = offList g φ my ∧ t.srcnode = srcList g φ my ∧ t.dstnode = srcList g ψ my ∧
    ((t.offnodeP = false ∧ (∀ x ∈ srcList g φ my, x = my) ∧ (∀ x ∈ srcList g ψ my, x = my) ∧
        t.srcenodes = [] ∧ t.destnodes = []) ∨
     (t.offnodeP = true ∧ ∃ s d, s ≠ my ∧ d ≠ my ∧ s ∈ srcList g φ my ∧ d ∈ srcList g ψ my ∧
        (∀ x ∈ srcList g φ my, x ≠ my → x = s) ∧ (∀ x ∈ srcList g ψ my, x ≠ my → x = d) ∧
        t.srcenodes = [s] ∧ t.destnodes = [d] ∧ t.srcenodesNum = [(srcList g φ my).count s] ∧
        t.destnodesNum = [(srcList g ψ my).count d] ∧
        t.soffsets = (pick g φ my d (List.range g.sites)).map some)) := by
  unfold make at hm
  rw [rows_eq hg hp hn, ok_bind] at hm
  simp only [List.map_map, Function.comp_def] at hm
  have e1 : (List.range g.sites).map (fun i => nd g (φ (co g my i))) = srcList g φ my := rfl
  have e2 : (List.range g.sites).map (fun i => nd g (ψ (co g my i))) = srcList g ψ my := rfl
  have e3 : (List.range g.sites).map (fun i => ix g (φ (co g my i))) = offList g φ my := rfl
  rw [e1, e2, e3] at hm
  have hnb : ∀ x ∈ srcList g ψ my, x < g.nodes := by
    intro x hx
    obtain ⟨i, hi, rfl⟩ := List.mem_map.1 hx
    exact (nd_spec hg (hp.bwd _ (co_spec hg hn (List.mem_range.1 hi)).2.1).2).2.2.1
  by_cases hz : g.sites = 0
  · rw [show srcList g φ my = [] by simp [srcList, hz], C54_empty_ub] at hm
    exact absurd hm (by simp)
  have hne1 : srcList g φ my ≠ [] := by simp [srcList, hz]
  have hne2 : srcList g ψ my ≠ [] := by simp [srcList, hz]
  rw [uniquify_eq _ hne1, uniquify_eq _ hne2, ok_bind, ok_bind] at hm
  have hmem : ∀ (l : List Nat) x, x ∈ (firsts l).filter (· ≠ my) ↔ x ∈ l ∧ x ≠ my := by
    intro l x; simp [mem_firsts]
  generalize hS : (firsts (srcList g φ my)).filter (· ≠ my) = S at hm
  generalize hD : (firsts (srcList g ψ my)).filter (· ≠ my) = D at hm
  have hSm : ∀ x, x ∈ S ↔ x ∈ srcList g φ my ∧ x ≠ my := by intro x; rw [← hS]; exact hmem _ x
  have hDm : ∀ x, x ∈ D ↔ x ∈ srcList g ψ my ∧ x ≠ my := by intro x; rw [← hD]; exact hmem _ x
  split at hm
  · exact absurd hm (by simp)
  split at hm
  · exact absurd hm (by simp)
  split at hm
  · next h0 =>
    simp only [pure_def, Outcome.ok.injEq] at hm
    subst hm
    refine ⟨rfl, rfl, rfl, Or.inl ⟨rfl, ?_⟩⟩
    have hall : ∀ x ∈ srcList g φ my, x = my := by
      intro x hx
      rcases Nat.decEq x my with h | h
      · have := (hSm x).2 ⟨hx, h⟩
        rw [List.length_eq_zero_iff.1 h0] at this
        simp at this
      · exact h
    exact ⟨hall, (off_iff hg hp hn).1 hall, rfl, rfl⟩
  split at hm
  · exact absurd hm (by simp)
  split at hm
  · exact absurd hm (by simp)
  next h1 h2 =>
  simp only [Decidable.not_not] at h1 h2
  obtain ⟨s, rfl⟩ := List.length_eq_one_iff.1 h1
  obtain ⟨d, rfl⟩ := List.length_eq_one_iff.1 h2
  obtain ⟨hs1, hs2⟩ := (hSm s).1 (by simp)
  obtain ⟨hd1, hd2⟩ := (hDm d).1 (by simp)
  simp only [List.length_singleton, List.replicate_one, countNodes_single my s hs2, countNodes_single my d hd2,
    Nat.zero_add] at hm
  rw [rd_of_lt (by simp), ok_bind, rd_of_lt (by simp), ok_bind] at hm
  simp only [List.getElem_cons_zero] at hm
  have hlen := pick_length hg hp hn (hnb d hd1)
  have hso := soffLoop_eq hg hp (my := my) (hnb d hd1) (List.range g.sites)
    (fun i hi => List.mem_range.1 hi) [] ((srcList g ψ my).count d) (by omega)
  simp only [List.map_nil, List.nil_append, List.length_nil, hlen, Nat.sub_self, List.replicate_zero,
    List.append_nil] at hso
  rw [hso] at hm
  simp only [ok_bind, pure_def, Outcome.ok.injEq] at hm
  subst hm
  refine ⟨rfl, rfl, rfl, Or.inr ⟨rfl, s, d, hs2, hd2, hs1, hd1, ?_, ?_, rfl, rfl, rfl, rfl, rfl⟩⟩
  · intro x hx hxm
    simpa using (hSm x).2 ⟨hx, hxm⟩
  · intro x hx hxm
    simpa using (hDm x).2 ⟨hx, hxm⟩

/-- When a node talks to at most one other node in each sense, `Map::make` is accepted. -/
theorem make_accepts {my : Nat} (hn : my < g.nodes) (hz : 0 < g.sites)
    (h : (∀ x ∈ srcList g φ my, x = my) ∨ ((∃ s, ∀ x ∈ srcList g φ my, x ≠ my → x = s) ∧
      ∃ d, ∀ x ∈ srcList g ψ my, x ≠ my → x = d)) : ∃ t, make g my func = ok t := by
  unfold make
  rw [rows_eq hg hp hn, ok_bind]
  simp only [List.map_map, Function.comp_def]
  have e1 : (List.range g.sites).map (fun i => nd g (φ (co g my i))) = srcList g φ my := rfl
  have e2 : (List.range g.sites).map (fun i => nd g (ψ (co g my i))) = srcList g ψ my := rfl
  have e3 : (List.range g.sites).map (fun i => ix g (φ (co g my i))) = offList g φ my := rfl
  rw [e1, e2, e3]
  have hnb : ∀ x ∈ srcList g ψ my, x < g.nodes := by
    intro x hx
    obtain ⟨i, hi, rfl⟩ := List.mem_map.1 hx
    exact (nd_spec hg (hp.bwd _ (co_spec hg hn (List.mem_range.1 hi)).2.1).2).2.2.1
  have hne1 : srcList g φ my ≠ [] := by simp [srcList]; omega
  have hne2 : srcList g ψ my ≠ [] := by simp [srcList]; omega
  rw [uniquify_eq _ hne1, uniquify_eq _ hne2, ok_bind, ok_bind]
  have hmem : ∀ (l : List Nat) x, x ∈ (firsts l).filter (· ≠ my) ↔ x ∈ l ∧ x ≠ my := by
    intro l x; simp [mem_firsts]
  have hnS : ((firsts (srcList g φ my)).filter (· ≠ my)).Nodup := (nodup_firsts _).filter _
  have hnD : ((firsts (srcList g ψ my)).filter (· ≠ my)).Nodup := (nodup_firsts _).filter _
  generalize hS : (firsts (srcList g φ my)).filter (· ≠ my) = S at *
  generalize hD : (firsts (srcList g ψ my)).filter (· ≠ my) = D at *
  have hSm : ∀ x, x ∈ S ↔ x ∈ srcList g φ my ∧ x ≠ my := by intro x; rw [← hS]; exact hmem _ x
  have hDm : ∀ x, x ∈ D ↔ x ∈ srcList g ψ my ∧ x ≠ my := by intro x; rw [← hD]; exact hmem _ x
  have hS0 : S = [] ↔ ∀ x ∈ srcList g φ my, x = my := by
    rw [List.eq_nil_iff_forall_not_mem]
    constructor
    · intro h x hx
      rcases Nat.decEq x my with h' | h'
      · exact absurd ((hSm x).2 ⟨hx, h'⟩) (h x)
      · exact h'
    · intro h x hx
      exact ((hSm x).1 hx).2 (h x ((hSm x).1 hx).1)
  have hD0 : D = [] ↔ ∀ x ∈ srcList g ψ my, x = my := by
    rw [List.eq_nil_iff_forall_not_mem]
    constructor
    · intro h x hx
      rcases Nat.decEq x my with h' | h'
      · exact absurd ((hDm x).2 ⟨hx, h'⟩) (h x)
      · exact h'
    · intro h x hx
      exact ((hDm x).1 hx).2 (h x ((hDm x).1 hx).1)
  have hSD : S = [] ↔ D = [] := by rw [hS0, hD0]; exact off_iff hg hp hn
  have hSD' : S.length = 0 ↔ D.length = 0 := by rw [List.length_eq_zero_iff, List.length_eq_zero_iff]; exact hSD
  rw [if_neg (by omega), if_neg (by omega)]
  by_cases h0 : S.length = 0
  · rw [if_pos h0]; exact ⟨_, rfl⟩
  rw [if_neg h0]
  have single : ∀ (l : List Nat) (a : Nat), l.Nodup → (∀ x ∈ l, x = a) → l.length ≠ 0 → l = [a] := by
    intro l a hnd hall hl
    match l, hnd, hall, hl with
    | [], _, _, hl => simp at hl
    | [b], _, hall, _ => simp [hall b (by simp)]
    | b :: c :: l, hnd, hall, _ =>
      have hb := hall b (by simp)
      have hc := hall c (by simp)
      subst hb; subst hc
      simp at hnd
  have h' : (∃ s, ∀ x ∈ srcList g φ my, x ≠ my → x = s) ∧ ∃ d, ∀ x ∈ srcList g ψ my, x ≠ my → x = d := by
    rcases h with h | h
    · exact absurd (List.length_eq_zero_iff.2 (hS0.2 h)) h0
    · exact h
  obtain ⟨⟨s, hs⟩, d, hd⟩ := h'
  have hS1 := single S s hnS (fun x hx => hs x ((hSm x).1 hx).1 ((hSm x).1 hx).2) h0
  have hD1 := single D d hnD (fun x hx => hd x ((hDm x).1 hx).1 ((hDm x).1 hx).2) (by omega)
  subst hS1; subst hD1
  obtain ⟨hd1, hd2⟩ := (hDm d).1 (by simp)
  rw [if_neg (by simp), if_neg (by simp)]
  simp only [List.length_singleton, List.replicate_one, countNodes_single my d hd2, Nat.zero_add]
  rw [rd_of_lt (by simp), ok_bind, rd_of_lt (by simp), ok_bind]
  simp only [List.getElem_cons_zero]
  have hlen := pick_length hg hp hn (hnb d hd1)
  have hso := soffLoop_eq hg hp (my := my) (hnb d hd1) (List.range g.sites)
    (fun i hi => List.mem_range.1 hi) [] ((srcList g ψ my).count d) (by omega)
  simp only [List.map_nil, List.nil_append, List.length_nil] at hso
  rw [hso]
  exact ⟨_, rfl⟩

end

theorem sendBuf_eq {α : Type} (ks : List Nat) (data : List α) (h : ∀ k ∈ ks, k < data.length) :
    ∃ b, sendBuf (ks.map some) data = ok b ∧ b.length = ks.length ∧ ∀ i (hi : i < ks.length), b[i]? = data[ks[i]]? := by
  cases ks with
  | nil => exact ⟨[], by simp [sendBuf, mapO], rfl, by simp⟩
  | cons k0 ks' =>
    have hd : 0 < data.length := by have := h k0 (by simp); omega
    generalize hks : k0 :: ks' = ks at *
    let f : Nat → α := fun i => data[(ks[i]?.getD 0)]?.getD data[0]
    have hf : ∀ i (hi : i < ks.length), ∃ hk : ks[i] < data.length, f i = data[ks[i]] := by
      intro i hi
      have hk := h _ (List.getElem_mem hi)
      exact ⟨hk, by simp [f, hi, hk]⟩
    refine ⟨(List.range ks.length).map f, ?_, by simp, ?_⟩
    · unfold sendBuf
      rw [List.length_map]
      apply mapO_ok
      intro i hi
      have hi := List.mem_range.1 hi
      obtain ⟨hk, e⟩ := hf i hi
      have : rdSet (ks.map some) i = ok ks[i] := by simp [rdSet, hi]
      rw [this, ok_bind, rd_of_lt hk, e]
    · intro i hi
      obtain ⟨hk, e⟩ := hf i hi
      rw [List.getElem?_eq_getElem (by simpa using hi), List.getElem?_eq_getElem hk]
      simp [e]

theorem gather_eq {α : Type} (my : Nat) (recv data : List α) (prs : List (Nat × Nat)) (ri : Nat) (val : Nat × Nat → α)
    (hoff : ∀ k (hk : k < (prs.filter (fun p => p.1 ≠ my)).length),
      recv[ri + k]? = some (val (prs.filter (fun p => p.1 ≠ my))[k]))
    (hon : ∀ p ∈ prs, p.1 = my → data[p.2]? = some (val p)) :
    gather my recv data prs ri = ok (prs.map val) := by
  induction prs generalizing ri with
  | nil => rfl
  | cons p rest ih =>
    obtain ⟨s, o⟩ := p
    simp only [List.mem_cons, forall_eq_or_imp] at hon
    rw [gather]
    by_cases hs : s ≠ my
    · have hfil : ((s, o) :: rest).filter (fun p => p.1 ≠ my) = (s, o) :: rest.filter (fun p => p.1 ≠ my) := by
        simp [hs]
      rw [if_pos hs]
      have h0 := hoff 0 (by rw [hfil]; simp)
      simp only [hfil, List.getElem_cons_zero, Nat.add_zero] at h0
      rw [rd_eq_ok.2 h0, ok_bind, ih (ri + 1) ?_ hon.2]
      · rfl
      · intro k hk
        have := hoff (k + 1) (by rw [hfil]; simpa using hk)
        simp only [hfil, List.getElem_cons_succ] at this
        rw [show ri + 1 + k = ri + (k + 1) by omega]
        exact this
    · have hfil : ((s, o) :: rest).filter (fun p => p.1 ≠ my) = rest.filter (fun p => p.1 ≠ my) := by
        simp only [ne_eq, Decidable.not_not] at hs
        simp [hs]
      rw [if_neg hs]
      have hsm : s = my := by simpa using hs
      rw [rd_eq_ok.2 (hon.1 hsm), ok_bind, ih ri ?_ hon.2]
      · rfl
      · intro k hk
        have := hoff k (by rw [hfil]; exact hk)
        simp only [hfil] at this
        exact this

end Verif.ParMap
