import Verif.ParMap
/-
Properties C09 (the distributed map delivers the globally mapped field) and C10 (communication schedules match).
-/
namespace Verif.ParMap
open Verif Outcome Verif.Layout Verif.ParLayout Verif.Subset Verif.Shift Verif.Util

section
variable {g : Geom} (hg : g.Good) {func : List Nat → Int → Outcome (List Nat)} {φ ψ : List Nat → List Nat}
  (hp : IsPerm g.L func φ ψ)
include hg hp

theorem mem_src_iff {a b : Nat} (ha : a < g.nodes) (hb : b < g.nodes) :
    b ∈ srcList g φ a ↔ a ∈ srcList g ψ b := by
  rw [← List.count_pos_iff, ← List.count_pos_iff, count_match hg hp ha hb]

theorem src_lt {a b : Nat} (ha : a < g.nodes) (h : b ∈ srcList g φ a) : b < g.nodes := by
  obtain ⟨i, hi, rfl⟩ := List.mem_map.1 h
  exact (nd_spec hg (hp.fwd _ (co_spec hg ha (List.mem_range.1 hi)).2.1).2).2.2.1

theorem dst_lt {a b : Nat} (ha : a < g.nodes) (h : b ∈ srcList g ψ a) : b < g.nodes := by
  obtain ⟨i, hi, rfl⟩ := List.mem_map.1 h
  exact (nd_spec hg (hp.bwd _ (co_spec hg ha (List.mem_range.1 hi)).2.1).2).2.2.1

theorem apply_spec {T : Nat → MapTab} (hT : ∀ n, n < g.nodes → make g n func = ok (T n)) {α : Type}
    {D : Nat → List α} (hD : ∀ n, n < g.nodes → (D n).length = g.sites) {my : Nat} (hn : my < g.nodes) :
    ∃ d, apply T D my = ok d ∧ d.length = g.sites ∧
      ∀ i, i < g.sites → d[i]? = (D (nd g (φ (co g my i))))[ix g (φ (co g my i))]? := by
  obtain ⟨t1, t2, t3, t4⟩ := make_ok hg hp hn (hT my hn)
  have hsite : ∀ i, i < g.sites → nd g (φ (co g my i)) < g.nodes ∧ ix g (φ (co g my i)) < g.sites := by
    intro i hi
    have := nd_spec hg (hp.fwd _ (co_spec hg hn hi).2.1).2
    exact ⟨this.2.2.1, this.2.2.2.1⟩
  by_cases hz : g.sites = 0
  · -- no sites at all: `make` reads the first entry of an empty list
    have := hT my hn
    unfold make at this
    rw [rows_eq hg hp hn, ok_bind] at this
    simp [hz, uniquify, rd] at this
  have hpos : 0 < g.sites := by omega
  rcases t4 with ⟨hoff, hall, -⟩ | ⟨hoff, s, d, hs, hd, hsm, hdm, hsu, hdu, e1, e2, e3, e4, e5⟩
  · -- no communication
    have hx0 : 0 < (D my).length := by rw [hD my hn]; exact hpos
    refine ⟨(List.range g.sites).map (fun i => (D my)[ix g (φ (co g my i))]?.getD (D my)[0]), ?_, by simp, ?_⟩
    · have hl : (T my).goffsets.length = g.sites := by rw [t1]; simp [offList]
      simp only [apply, hoff, Bool.false_eq_true, if_false, hl]
      apply mapO_ok
      intro i hi
      have hi := List.mem_range.1 hi
      have hb := (hsite i hi).2
      rw [rd_of_lt (by omega), ok_bind]
      have : (T my).goffsets[i]'(by omega) = ix g (φ (co g my i)) := by simp [t1, offList]
      rw [this, rd_of_lt (by rw [hD my hn]; exact hb)]
      simp [hD my hn, hb]
    · intro i hi
      have hb := (hsite i hi).2
      have hnode : nd g (φ (co g my i)) = my := hall _ (List.mem_map.2 ⟨i, List.mem_range.2 hi, rfl⟩)
      rw [hnode]
      simp [hi, hD my hn, hb]
  · -- communication
    have hslt := src_lt hg hp hn hsm
    have hdlt := dst_lt hg hp hn hdm
    -- my destination expects me
    have hmd : my ∈ srcList g φ d := (mem_src_iff hg hp hdlt hn).2 hdm
    obtain ⟨-, -, -, q4⟩ := make_ok hg hp hdlt (hT d hdlt)
    rcases q4 with ⟨-, qall, -⟩ | ⟨qoff, s', d', -, -, -, -, qsu, -, q1, -, q3, -, -⟩
    · exact absurd (qall my hmd) (Ne.symm hd)
    have hs' : s' = my := (qsu my hmd (Ne.symm hd)).symm
    subst hs'
    -- my source sends to me
    have hms : s' ∈ srcList g ψ s := (mem_src_iff hg hp hn hslt).1 hsm
    obtain ⟨-, -, -, r4⟩ := make_ok hg hp hslt (hT s hslt)
    rcases r4 with ⟨-, -, rall, -⟩ | ⟨roff, s'', d'', -, -, -, -, -, rdu, -, r2, -, r4, r5⟩
    · exact absurd (rall s' hms) (Ne.symm hs)
    have hd'' : d'' = s' := (rdu s' hms (Ne.symm hs)).symm
    subst hd''
    have hpick : ∀ a b, a < g.nodes → b < g.nodes → ∀ k ∈ pick g φ a b (List.range g.sites), k < g.sites := by
      intro a b ha hb k hk
      obtain ⟨i, hi, rfl⟩ := List.mem_map.1 hk
      have hi := List.mem_range.1 (List.mem_filter.1 hi).1
      exact (nd_spec hg (hp.fwd _ (co_spec hg hb hi).2.1).2).2.2.2.1
    obtain ⟨b1, m1, m2, -⟩ := sendBuf_eq (pick g φ d'' d (List.range g.sites)) (D d'')
      (by rw [hD d'' hn]; exact hpick _ _ hn hdlt)
    obtain ⟨b2, m3, m4, m5⟩ := sendBuf_eq (pick g φ s d'' (List.range g.sites)) (D s)
      (by rw [hD s hslt]; exact hpick _ _ hslt hn)
    rw [pick_length hg hp hn hdlt] at m2
    have hcnt : b2.length = (srcList g φ d'').count s := by
      rw [m4, pick_length hg hp hslt hn, count_match hg hp hn hslt]
    have hDs : 0 < (D s).length := by rw [hD s hslt]; exact hpos
    -- the value delivered at a site described by (source node, source slot)
    let val : Nat × Nat → α := fun p => (D p.1)[p.2]?.getD (D s)[0]
    have hzip : (T d'').srcnode.zip (T d'').goffsets =
        (List.range g.sites).map (fun i => (nd g (φ (co g d'' i)), ix g (φ (co g d'' i)))) := by
      rw [t1, t2, srcList, offList, List.zip_map']
    refine ⟨((T d'').srcnode.zip (T d'').goffsets).map val, ?_, by rw [hzip]; simp, ?_⟩
    · unfold apply
      simp only [hoff, if_true, e1, e2, e3, e4, e5]
      rw [rd_of_lt (by simp), ok_bind, rd_of_lt (by simp), ok_bind, rd_of_lt (by simp), ok_bind, rd_of_lt (by simp),
        ok_bind]
      simp only [List.getElem_cons_zero]
      rw [m1, ok_bind, if_neg (by
        rw [Decidable.not_not]
        exact ⟨qoff, by rw [q1]; rfl, by rw [q3, count_match hg hp hdlt hn]; rfl, m2⟩), if_neg (by
        rw [Decidable.not_not]
        exact ⟨roff, by rw [r2]; rfl⟩), r5, m3, ok_bind, if_neg (by rw [Decidable.not_not]; exact hcnt)]
      rw [hzip]
      apply gather_eq
      · intro k hk
        have hfil : ((List.range g.sites).map (fun i => (nd g (φ (co g d'' i)), ix g (φ (co g d'' i))))).filter
            (fun p => p.1 ≠ d'') = ((List.range g.sites).filter (fun i => nd g (φ (co g d'' i)) = s)).map
            (fun i => (nd g (φ (co g d'' i)), ix g (φ (co g d'' i)))) := by
          rw [List.filter_map]
          congr 1
          apply List.filter_congr
          intro i hi
          have hmem : nd g (φ (co g d'' i)) ∈ srcList g φ d'' := List.mem_map.2 ⟨i, hi, rfl⟩
          simp only [Function.comp_apply]
          rw [decide_eq_decide]
          exact ⟨fun h => hsu _ hmem h, fun h => by rw [h]; exact hs⟩
        have hk2 : k < (pick g φ s d'' (List.range g.sites)).length := by
          rw [hfil] at hk
          simpa [pick] using hk
        rw [Nat.zero_add, m5 k hk2]
        have hgl := List.getElem_of_eq hfil hk
        rw [hgl, List.getElem_map]
        have hkf : k < ((List.range g.sites).filter (fun i => nd g (φ (co g d'' i)) = s)).length := by
          simpa [pick] using hk2
        have hmemi := List.getElem_mem hkf
        have hget : (pick g φ s d'' (List.range g.sites))[k] =
            ix g (φ (co g d'' ((List.range g.sites).filter (fun i => nd g (φ (co g d'' i)) = s))[k])) := by
          simp only [pick, List.getElem_map]
        rw [hget]
        generalize ((List.range g.sites).filter (fun i => nd g (φ (co g d'' i)) = s))[k] = i at hmemi
        have hi := List.mem_range.1 (List.mem_filter.1 hmemi).1
        have hnode : nd g (φ (co g d'' i)) = s := by simpa using (List.mem_filter.1 hmemi).2
        have hb : ix g (φ (co g d'' i)) < (D s).length := by rw [hD s hslt]; exact (hsite i hi).2
        simp [val, hnode, hb]
      · intro p hp' hpm
        obtain ⟨i, hi, rfl⟩ := List.mem_map.1 hp'
        have hi := List.mem_range.1 hi
        simp only at hpm
        have hb : ix g (φ (co g d'' i)) < (D d'').length := by rw [hD d'' hn]; exact (hsite i hi).2
        simp [val, hpm, hb]
    · intro i hi
      rw [hzip]
      have hb : ix g (φ (co g d'' i)) < (D (nd g (φ (co g d'' i)))).length := by
        rw [hD _ (hsite i hi).1]; exact (hsite i hi).2
      simp [hi, val, hb]

end

/-- C09: the field a node obtains from the distributed map is the globally mapped field, for every map that every node's
`Map::make` accepted. -/
theorem C09_map (g : Geom) (hg : g.Good) (func : List Nat → Int → Outcome (List Nat)) (φ ψ : List Nat → List Nat)
    (hp : IsPerm g.L func φ ψ) (T : Nat → MapTab) (hT : ∀ n, n < g.nodes → make g n func = ok (T n))
    (α : Type) (D : Nat → List α) (hD : ∀ n, n < g.nodes → (D n).length = g.sites) (my : Nat) (hn : my < g.nodes) :
    ∃ d, apply T D my = ok d ∧ d.length = g.sites ∧
      ∀ c i n' i', InRange c g.L → g.nodeNumber c = ok my → g.linearSiteIndex c = ok i →
        g.nodeNumber (φ c) = ok n' → g.linearSiteIndex (φ c) = ok i' → d[i]? = (D n')[i']? := by
  obtain ⟨d, h1, h2, h3⟩ := apply_spec hg hp hT hD hn
  refine ⟨d, h1, h2, ?_⟩
  intro c i n' i' hc hcn hci hn' hi'
  obtain ⟨a1, a2, a3, a4, a5⟩ := nd_spec hg hc
  rw [hcn] at a1; injection a1 with a1
  rw [hci] at a2; injection a2 with a2
  rw [← a1, ← a2] at a5
  have := h3 i (by omega)
  rw [a5] at this
  rw [this]
  simp [nd, ix, hn', hi']

/-- C10: for a bijective map the schedules agree: who reads from whom, how many sites, and no self-messages. -/
theorem C10_schedules (g : Geom) (hg : g.Good) (func : List Nat → Int → Outcome (List Nat)) (φ ψ : List Nat → List Nat)
    (hp : IsPerm g.L func φ ψ) (T : Nat → MapTab) (hT : ∀ n, n < g.nodes → make g n func = ok (T n))
    (a b : Nat) (ha : a < g.nodes) (hb : b < g.nodes) :
    (b ∈ (T a).srcenodes ↔ a ∈ (T b).destnodes) ∧
    (b ∈ (T a).srcenodes → b ≠ a ∧ ∃ n, (T a).srcenodesNum = [n] ∧ (T b).destnodesNum = [n] ∧
      (T b).soffsets.length = n ∧ (∀ o ∈ (T b).soffsets, ∃ k, o = some k ∧ k < g.sites)) ∧
    ((T a).srcenodes.length ≤ 1 ∧ (T a).destnodes.length ≤ 1 ∧
      ((T a).offnodeP = true ↔ (T a).srcenodes ≠ []) ∧ ((T a).offnodeP = true ↔ (T a).destnodes ≠ [])) := by
  have empt : ∀ n, n < g.nodes → (T n).offnodeP = false → (T n).srcenodes = [] ∧ (T n).destnodes = [] := by
    intro n hn ho
    obtain ⟨-, -, -, t4⟩ := make_ok hg hp hn (hT n hn)
    rcases t4 with ⟨-, -, -, h1, h2⟩ | ⟨h, -⟩
    · exact ⟨h1, h2⟩
    · rw [ho] at h; exact absurd h (by simp)
  have srcs : ∀ n, n < g.nodes → ∀ x, x ∈ (T n).srcenodes ↔ x ∈ srcList g φ n ∧ x ≠ n := by
    intro n hn x
    obtain ⟨-, -, -, t4⟩ := make_ok hg hp hn (hT n hn)
    rcases t4 with ⟨ho, hall, -⟩ | ⟨ho, s, d, hs, hd, hsm, hdm, hsu, hdu, e1, e2, e3, e4, e5⟩
    · rw [(empt n hn ho).1]
      constructor
      · simp
      · rintro ⟨h1, h2⟩; exact absurd (hall x h1) h2
    · rw [e1, List.mem_singleton]
      exact ⟨fun h => by rw [h]; exact ⟨hsm, hs⟩, fun h => hsu x h.1 h.2⟩
  have dsts : ∀ n, n < g.nodes → ∀ x, x ∈ (T n).destnodes ↔ x ∈ srcList g ψ n ∧ x ≠ n := by
    intro n hn x
    obtain ⟨-, -, -, t4⟩ := make_ok hg hp hn (hT n hn)
    rcases t4 with ⟨ho, -, hall, -⟩ | ⟨ho, s, d, hs, hd, hsm, hdm, hsu, hdu, e1, e2, e3, e4, e5⟩
    · rw [(empt n hn ho).2]
      constructor
      · simp
      · rintro ⟨h1, h2⟩; exact absurd (hall x h1) h2
    · rw [e2, List.mem_singleton]
      exact ⟨fun h => by rw [h]; exact ⟨hdm, hd⟩, fun h => hdu x h.1 h.2⟩
  have hiff : b ∈ (T a).srcenodes ↔ a ∈ (T b).destnodes := by
    rw [srcs a ha, dsts b hb, mem_src_iff hg hp ha hb]
    exact ⟨fun h => ⟨h.1, Ne.symm h.2⟩, fun h => ⟨h.1, Ne.symm h.2⟩⟩
  refine ⟨hiff, ?_, ?_⟩
  · intro h
    have h' := hiff.1 h
    refine ⟨((srcs a ha b).1 h).2, (srcList g φ a).count b, ?_, ?_, ?_⟩
    · obtain ⟨-, -, -, t4⟩ := make_ok hg hp ha (hT a ha)
      rcases t4 with ⟨ho, -, -⟩ | ⟨ho, s, d, hs, hd, hsm, hdm, hsu, hdu, e1, e2, e3, e4, e5⟩
      · rw [(empt a ha ho).1] at h; simp at h
      · rw [e1, List.mem_singleton] at h
        rw [e3, h]
    · obtain ⟨-, -, -, t4⟩ := make_ok hg hp hb (hT b hb)
      rcases t4 with ⟨ho, -, -⟩ | ⟨ho, s, d, hs, hd, hsm, hdm, hsu, hdu, e1, e2, e3, e4, e5⟩
      · rw [(empt b hb ho).2] at h'; simp at h'
      · rw [e2, List.mem_singleton] at h'
        rw [e4, ← h', count_match hg hp ha hb]
    · obtain ⟨-, -, -, t4⟩ := make_ok hg hp hb (hT b hb)
      rcases t4 with ⟨ho, -, -⟩ | ⟨ho, s, d, hs, hd, hsm, hdm, hsu, hdu, e1, e2, e3, e4, e5⟩
      · rw [(empt b hb ho).2] at h'; simp at h'
      · rw [e2, List.mem_singleton] at h'
        rw [e5, ← h']
        refine ⟨by rw [List.length_map, pick_length hg hp hb ha, count_match hg hp ha hb], ?_⟩
        intro o ho
        obtain ⟨k, hk, rfl⟩ := List.mem_map.1 ho
        refine ⟨k, rfl, ?_⟩
        obtain ⟨i, hi, rfl⟩ := List.mem_map.1 hk
        have hi := List.mem_range.1 (List.mem_filter.1 hi).1
        exact (nd_spec hg (hp.fwd _ (co_spec hg ha hi).2.1).2).2.2.2.1
  · obtain ⟨-, -, -, t4⟩ := make_ok hg hp ha (hT a ha)
    rcases t4 with ⟨ho, -, -⟩ | ⟨ho, s, d, hs, hd, hsm, hdm, hsu, hdu, e1, e2, e3, e4, e5⟩
    · simp [(empt a ha ho).1, (empt a ha ho).2, ho]
    · simp [e1, e2, ho]

end Verif.ParMap
