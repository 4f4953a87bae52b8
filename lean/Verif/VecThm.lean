import Verif.VecProps
import Mathlib.Tactic.IntervalCases
/-
C100: the vector library computes what the single-node library computes — for single sites, maps, operators, files; not for sums over contiguous subsets that
do not fill whole vectors; and no lattice statement works, so that `Layout::create` never returns.
-/
namespace Verif.Vec
open Verif Outcome ByteOrder Verif.Layout Verif.ParLayout Verif.Subset Verif.Shift Verif.PeekPoke Verif.BinIO Verif.LatticeIO

section
variable {V : Type}

/-- C100: (outer, inner) is a numbering of the sites: every component of every outer element is exactly one site. -/
theorem C100_slots (k n : Nat) :
    (∀ i, i < n * 2 ^ k → outer k i < n ∧ inner k i < 2 ^ k) ∧
    ∀ o j, o < n → j < 2 ^ k → ∃! i, i < n * 2 ^ k ∧ outer k i = o ∧ inner k i = j := by
  have hp := Nat.two_pow_pos k
  refine ⟨fun i hi => ?_, fun o j ho hj => ?_⟩
  · rw [outer_eq, inner_eq]
    exact ⟨(Nat.div_lt_iff_lt_mul hp).2 hi, Nat.mod_lt _ hp⟩
  · refine ⟨o * 2 ^ k + j, ⟨?_, ?_, ?_⟩, ?_⟩
    · have := Nat.mul_le_mul_right (2 ^ k) (Nat.succ_le_of_lt ho)
      rw [Nat.succ_mul] at this; omega
    · rw [outer_eq, div_at hj]
    · rw [inner_eq, mod_at hj]
    · rintro i ⟨-, h1, h2⟩
      rw [outer_eq] at h1; rw [inner_eq] at h2
      rw [← h1, ← h2, Nat.div_add_mod']

/-- C100: `peekSite` is the value of the field at the coordinate. -/
theorem C100_peek (k : Nat) (g : Geom) (hg : Lattice k g) (F : List (List V)) (f : List Nat → V) (hF : Holds k g F f) (c : List Nat)
    (hc : InRange c g.L) : peekSite k g F c = ok (f c) := by
  obtain ⟨i, h1, h2, h3⟩ := hg.index hc
  rw [peekSite, h1, ok_bind, hF.at hg h2 h3]

/-- C100: `pokeSite` changes the field at the coordinate and nowhere else. -/
theorem C100_poke (k : Nat) (g : Geom) (hg : Lattice k g) (F : List (List V)) (f : List Nat → V) (hF : Holds k g F f) (x : V) (c : List Nat)
    (hc : InRange c g.L) : ∃ F', pokeSite k g F x c = ok F' ∧ Holds k g F' (fun c' => if c' = c then x else f c') := by
  obtain ⟨i, h1, h2, h3⟩ := hg.index hc
  obtain ⟨F', e1, e2, e3, e4⟩ := setAt_ok hF.1 (i := i) (by rw [hg.sites_eq]; exact h2) x
  refine ⟨F', by rw [pokeSite, h1, ok_bind, e1], e2, ?_⟩
  intro j c' hj hc'
  dsimp only
  by_cases hij : j = i
  · subst hij
    rw [h3] at hc'; injection hc' with hc'
    rw [if_pos hc'.symm]; exact e3
  · have hne : c' ≠ c := by rintro rfl; exact hij (hg.inj hj h2 hc' h3)
    rw [if_neg hne]
    exact (e4 j hij _).2 (hF.2 j c' hj hc')

/-- C100: `QDP_extract` copies the values of the sites of the subset, and nothing else is changed. -/
theorem C100_extract (k : Nat) (g : Geom) (hg : Lattice k g) (F : List (List V)) (f : List Nat → V) (hF : Holds k g F f) (tab : List Nat)
    (ht : ∀ i ∈ tab, i < g.sites) (dest : List V) (hd : dest.length = g.sites) :
    ∃ d', extract k F tab dest = ok d' ∧ d'.length = g.sites ∧
      ∀ i c, i < g.sites → g.siteCoords 0 i = ok c → d'[i]? = if i ∈ tab then some (f c) else dest[i]? := by
  induction tab generalizing dest with
  | nil => exact ⟨dest, rfl, hd, fun i c _ _ => by simp⟩
  | cons a as ih =>
    have ha := ht a (by simp)
    obtain ⟨ca, hca, -, -⟩ := hg.coords ha
    obtain ⟨d', e1, e2, e3⟩ := ih (fun i hi => ht i (by simp [hi])) (dest.set a (f ca)) (by rw [List.length_set, hd])
    refine ⟨d', ?_, e2, ?_⟩
    · unfold extract at e1 ⊢
      rw [foldO, hF.at hg ha hca, ok_bind, wrElem, if_pos (by rw [hd]; exact ha), ok_bind, e1]
    · intro i c hi hc
      rw [e3 i c hi hc]
      by_cases hm : i ∈ as
      · simp [hm]
      · by_cases hia : i = a
        · subst hia
          rw [hca] at hc; injection hc with hc; subst hc
          rw [if_neg hm, if_pos (by simp), List.getElem?_set_self (by rw [hd]; exact ha)]
        · rw [if_neg hm, if_neg (by simp [hm, hia]), List.getElem?_set_ne (fun h => hia h.symm)]

open Classical in
/-- C100: `QDP_insert` writes the sites of the subset, and nothing else is changed. -/
theorem C100_insert (k : Nat) (g : Geom) (hg : Lattice k g) (F : List (List V)) (f h : List Nat → V) (hF : Holds k g F f) (tab : List Nat)
    (ht : ∀ i ∈ tab, i < g.sites) (src : List V) (hsrc : ∀ i c, i < g.sites → g.siteCoords 0 i = ok c → src[i]? = some (h c)) :
    ∃ F', insert k F src tab = ok F' ∧ Holds k g F' (fun c => if ∃ i ∈ tab, g.siteCoords 0 i = ok c then h c else f c) := by
  by_cases hne : tab = []
  · subst hne; exact ⟨F, rfl, by simpa using hF⟩
  · obtain ⟨t0, ht0⟩ := List.exists_mem_of_ne_nil tab hne
    obtain ⟨c0, hc0, -, -⟩ := hg.coords (ht t0 ht0)
    obtain ⟨F', e1, e2, e3, e4⟩ := fill_ok (k := k) (body := fun F i => do let x ← rd src i; setAt k F i x) (h := fun i => (src[i]?).getD (h c0)) (tab := tab)
      hF.1 (fun i hi => by rw [hg.sites_eq]; exact ht i hi) (fun F i hi => by
        obtain ⟨c, hc, -, -⟩ := hg.coords (ht i hi)
        rw [rd_eq_ok_iff.2 (hsrc i c (ht i hi) hc), ok_bind, hsrc i c (ht i hi) hc, Option.getD_some])
    refine ⟨F', e1, e2, ?_⟩
    intro i c hi hc
    dsimp only
    by_cases hm : i ∈ tab
    · have := e3 i hm
      rw [hsrc i c hi hc, Option.getD_some] at this
      rwa [if_pos ⟨i, hm, hc⟩]
    · rw [if_neg (by rintro ⟨j, hj, hcj⟩; exact hm (hg.inj hi (ht j hj) hc hcj ▸ hj))]
      exact (e4 i hm _).2 (hF.2 i c hi hc)

/-- C100: `latticeCoordinate(mu)` is the coordinate in the direction `mu`; the program is stopped for another direction. -/
theorem C100_coordinate (k : Nat) (g : Geom) (hg : Lattice k g) (F : List (List Nat)) (hF : Shape k (g.sites / 2 ^ k) F) (mu : Int) :
    (0 ≤ mu ∧ mu < g.L.length → ∃ F', latticeCoordinate k g mu F = ok F' ∧ Holds k g F' (fun c => c.getD mu.toNat 0)) ∧
    (¬ (0 ≤ mu ∧ mu < g.L.length) → latticeCoordinate k g mu F = abort) := by
  constructor
  · intro hmu
    let cs : Nat → List Nat := fun i => match g.siteCoords 0 i with | ok c => c | _ => []
    have hcs : ∀ i c, g.siteCoords 0 i = ok c → cs i = c := fun i c h => by simp only [cs, h]
    obtain ⟨F', e1, e2, e3, -⟩ := fill_ok (k := k) (tab := List.range g.sites) (body := fun F i => do
        let c ← g.siteCoords 0 i
        let x ← rd c mu.toNat
        setAt k F i x) (h := fun i => (cs i).getD mu.toNat 0) hF
      (fun i hi => by rw [hg.sites_eq]; exact List.mem_range.1 hi) (fun F i hi => by
        obtain ⟨c, hc, hr, -⟩ := hg.coords (List.mem_range.1 hi)
        rw [hc, ok_bind, hcs i c hc]
        have hl : mu.toNat < c.length := by rw [hr.length_eq]; omega
        rw [rd_of_lt hl, ok_bind, List.getD_eq_getElem?_getD, List.getElem?_eq_getElem hl, Option.getD_some])
    refine ⟨F', by rw [latticeCoordinate, if_neg (by omega), e1], e2, ?_⟩
    intro i c hi hc
    have := e3 i (List.mem_range.2 hi)
    rwa [hcs i c hc] at this
  · intro hmu
    rw [latticeCoordinate, if_pos (by omega)]

/-- the loop of `Map::operator()` -/
theorem applyMap_ok {n : Nat} {goff : List Nat} {l d : List (List V)} {h : Nat → V} (hl : ∀ i, i < n * 4 → ∃ j, rd goff i = ok j ∧ Site 2 l j (h i))
    (hd : Shape 2 n d) : ∃ d', applyMap (n * 4) goff l d = ok d' ∧ Shape 2 n d' ∧ ∀ i, i < n * 4 → Site 2 d' i (h i) := by
  have hst : strides 0 (n * 4) 4 = ok ((List.range n).map (fun k => 0 + k * 4)) := by
    rw [strides, if_neg (by decide)]
    congr 3
    omega
  rw [applyMap, hst, ok_bind]
  obtain ⟨d', e1, e2, e3⟩ := foldO_range (f := mapStep goff l) (s := d)
    (fun m d => Shape 2 n d ∧ ∀ i, i < m * 4 → Site 2 d i (h i)) (fun k => 0 + k * 4) n ⟨hd, by intro i hi; omega⟩ (by
      rintro m s hm ⟨hs, hv⟩
      have get : ∀ r, r < 4 → ∃ j v, rd goff (0 + m * 4 + r) = ok j ∧ rd l (outer 2 j) = ok v ∧ rd v (inner 2 j) = ok (h (m * 4 + r)) := by
        intro r hr
        obtain ⟨j, hj, v, h1, h2⟩ := hl (m * 4 + r) (by omega)
        refine ⟨j, v, by rw [Nat.zero_add]; exact hj, ?_, ?_⟩
        · rw [outer_eq]; exact rd_eq_ok_iff.2 h1
        · rw [inner_eq]; exact rd_eq_ok_iff.2 h2
      obtain ⟨j0, v0, a0, b0, c0⟩ := get 0 (by omega)
      obtain ⟨j1, v1, a1, b1, c1⟩ := get 1 (by omega)
      obtain ⟨j2, v2, a2, b2, c2⟩ := get 2 (by omega)
      obtain ⟨j3, v3, a3, b3, c3⟩ := get 3 (by omega)
      have ho : outer 2 (0 + m * 4) = m := by rw [outer_eq]; omega
      have hml : m < s.length := by rw [hs.1]; exact hm
      refine ⟨s.set m [h (m * 4 + 0), h (m * 4 + 1), h (m * 4 + 2), h (m * 4 + 3)], ?_, ⟨by rw [List.length_set, hs.1], ?_⟩, ?_⟩
      · rw [mapStep, a0, ok_bind, a1, ok_bind, a2, ok_bind, a3, ok_bind, b0, ok_bind, b1, ok_bind, b2, ok_bind, b3, ok_bind, gather4, c0, ok_bind,
          c1, ok_bind, c2, ok_bind, c3, ok_bind, pure_def, ok_bind, ho, wrElem, if_pos hml]
      · intro v hv'
        rcases List.mem_or_eq_of_mem_set hv' with hv' | rfl
        · exact hs.2 v hv'
        · rfl
      · intro i hi
        unfold Site
        by_cases him : i / 2 ^ 2 = m
        · rw [him, List.getElem?_set_self hml]
          refine ⟨_, rfl, ?_⟩
          have hc : i = m * 4 + i % 2 ^ 2 := by omega
          have hlt : i % 2 ^ 2 < 4 := by omega
          generalize i % 2 ^ 2 = r at hc hlt ⊢
          subst hc
          interval_cases r <;> rfl
        · rw [List.getElem?_set_ne (fun h => him h.symm)]
          exact hv i (by omega))
  exact ⟨d', e1, e2, e3⟩

/-- C100: a map object: the new field at `c` is the old field at `func(c,+1)`. -/
theorem C100_map (g : Geom) (hg : Lattice 2 g) (func : List Nat → Int → Outcome (List Nat)) (φ : List Nat → List Nat)
    (hf : ∀ c, InRange c g.L → func c 1 = ok (φ c) ∧ InRange (φ c) g.L) :
    ∃ t, mapMake g func = ok t ∧ ∀ (F : List (List V)) (f : List Nat → V), Holds 2 g F f → ∀ d, Shape 2 (g.sites / 2 ^ 2) d →
      ∃ F', applyMap g.sites t F d = ok F' ∧ Holds 2 g F' (fun c => f (φ c)) := by
  obtain ⟨t, ht, -, h⟩ := Shift.mapMake_ok hg.good hg.one hf
  refine ⟨t, ht, ?_⟩
  intro F f hF d hd
  by_cases hn : g.sites = 0
  · refine ⟨d, ?_, hd, fun i c hi => by omega⟩
    rw [hn]; rfl
  obtain ⟨c0, hc0, -, -⟩ := hg.coords (i := 0) (by omega)
  let cs : Nat → List Nat := fun i => match g.siteCoords 0 i with | ok c => c | _ => c0
  have hcs : ∀ i c, g.siteCoords 0 i = ok c → cs i = c := fun i c h => by simp only [cs, h]
  have hs := hg.sites_eq
  obtain ⟨d', e1, e2, e3⟩ := applyMap_ok (n := g.sites / 2 ^ 2) (goff := t) (l := F) (d := d) (h := fun i => f (φ (cs i))) (by
    intro i hi
    obtain ⟨c, hc, hr, hi'⟩ := hg.coords (i := i) (by omega)
    obtain ⟨j, hj, hj'⟩ := h c i hr hi'
    obtain ⟨j', q1, q2, q3⟩ := hg.index (hf c hr).2
    rw [hj] at q1; injection q1 with q1; subst q1
    exact ⟨j, hj', by rw [hcs i c hc]; exact hF.2 j _ q2 q3⟩) hd
  rw [show g.sites / 2 ^ 2 * 4 = g.sites from by omega] at e1 e3
  refine ⟨d', e1, e2, ?_⟩
  intro i c hi hc
  have := e3 i hi
  rwa [hcs i c hc] at this

/-- C100: a shift: the map of the nearest neighbours brings the value of the neighbour. -/
theorem C100_shift (g : Geom) (hg : Lattice 2 g) (hL : ∀ l ∈ g.L, 5 * l < 2 ^ 31) (s : Sgn) (dir : Nat) (hd : dir < g.L.length) :
    ∃ t, mapMake g (fun coord isign => nnFunc g.L coord (s.toInt * isign) dir) = ok t ∧
      ∀ (F : List (List V)) (f : List Nat → V), Holds 2 g F f → ∀ d, Shape 2 (g.sites / 2 ^ 2) d →
        ∃ F', applyMap g.sites t F d = ok F' ∧ Holds 2 g F' (fun c => f (nbr g.L c s dir)) :=
  C100_map g hg _ (fun c => nbr g.L c s dir) (fun c hc => ⟨nnFunc_eq hc hL hd _ s (by cases s <;> rfl), nbr_inRange hc⟩)

/-- C100, refuted: the gather of two sites (for double precision) brings the second value from the first vector. -/
theorem C100_gather2_wrong : ¬ ∀ (s0 s1 : List Int) (i0 i1 : Nat) (x y : Int), s0[i0]? = some x → s1[i1]? = some y → gather2 s0 i0 s1 i1 = ok [x, y] := by
  intro h
  have := h [1, 2] [3, 4] 0 1 1 4 rfl rfl
  exact absurd this (by decide)

/-- C100: an expression is computed vector by vector as it would be site by site. -/
theorem C100_expr [Zero V] (k n : Nat) (e : Expr V) (he : shapeE k n e) (i : Nat) (hi : i < n * 2 ^ k) :
    ∃ v, evalAt k e (outer k i) = ok v ∧ rd v (inner k i) = ok (valE k e i) := by
  have hp := Nat.two_pow_pos k
  refine ⟨_, by rw [outer_eq]; exact evalAt_eq he ((Nat.div_lt_iff_lt_mul hp).2 hi), ?_⟩
  rw [inner_eq, rd_of_lt (by simpa using Nat.mod_lt i hp), List.getElem_map, List.getElem_range, Nat.div_add_mod']

/-- a loop that writes whole outer elements -/
theorem outerLoop {k n : Nat} {body : List (List V) → Nat → Outcome (List (List V))} {F : List (List V)} {h : Nat → V} (hF : Shape k n F)
    (hb : ∀ G o, o < n → Shape k n G → G[o]? = F[o]? → body G o = ok (G.set o ((List.range (2 ^ k)).map fun j => h (o * 2 ^ k + j)))) :
    ∃ F', foldO body F (List.range n) = ok F' ∧ Shape k n F' ∧ ∀ i, i < n * 2 ^ k → Site k F' i (h i) := by
  have hp := Nat.two_pow_pos k
  obtain ⟨F', e1, ⟨e2, e3, -⟩⟩ := foldO_range_id (f := body) (s := F)
    (fun m G => Shape k n G ∧ (∀ i, i < m * 2 ^ k → Site k G i (h i)) ∧ ∀ o, m ≤ o → G[o]? = F[o]?) n ⟨hF, by intro i hi; omega, fun _ _ => rfl⟩ (by
      rintro m G hm ⟨hs, hv, hr⟩
      have hml : m < G.length := by rw [hs.1]; exact hm
      refine ⟨_, hb G m hm hs (hr m (le_refl m)), ⟨by rw [List.length_set, hs.1], ?_⟩, ?_, ?_⟩
      · intro v hv'
        rcases List.mem_or_eq_of_mem_set hv' with hv' | rfl
        · exact hs.2 v hv'
        · simp
      · intro i hi
        unfold Site
        by_cases him : i / 2 ^ k = m
        · rw [him, List.getElem?_set_self hml]
          refine ⟨_, rfl, ?_⟩
          rw [List.getElem?_eq_getElem (by simpa using Nat.mod_lt i hp), List.getElem_map, List.getElem_range, ← him, Nat.div_add_mod']
        · rw [List.getElem?_set_ne (fun h => him h.symm)]
          refine hv i ?_
          have h1 : i / 2 ^ k < m + 1 := (Nat.div_lt_iff_lt_mul hp).2 hi
          exact (Nat.div_lt_iff_lt_mul hp).1 (by omega)
      · intro o ho
        rw [List.getElem?_set_ne (by omega), hr o (by omega)])
  exact ⟨F', e1, e2, e3⟩

/-- C100: `zero_rep` of a field makes every site zero. -/
theorem C100_zero [Zero V] (k : Nat) (g : Geom) (F : List (List V)) (hF : Shape k (g.sites / 2 ^ k) F) (hg : Lattice k g) :
    ∃ F', zeroRep k (g.sites / 2 ^ k) F = ok F' ∧ Holds k g F' (fun _ => 0) := by
  obtain ⟨F', e1, e2, e3⟩ := outerLoop (k := k) (h := fun _ => (0 : V)) (body := fun F i => wrElem F i (List.replicate (2 ^ k) 0)) hF (by
    intro G o ho hG _
    rw [wrElem, if_pos (by rw [hG.1]; exact ho)]
    congr 2
    rw [List.map_const', List.length_range])
  exact ⟨F', e1, e2, fun i c hi _ => e3 i (by rw [hg.sites_eq]; exact hi)⟩

/-- C100: `copymask` takes the other field where the mask is set. -/
theorem C100_copymask [Zero V] (k : Nat) (g : Geom) (hg : Lattice k g) (F S : List (List V)) (M : List (List Bool)) (f s : List Nat → V) (m : List Nat → Bool)
    (hF : Holds k g F f) (hM : Holds k g M m) (hS : Holds k g S s) :
    ∃ F', copymask k (g.sites / 2 ^ k) F M S = ok F' ∧ Holds k g F' (fun c => if m c then s c else f c) := by
  let _ : Zero Bool := ⟨false⟩
  obtain ⟨F', e1, e2, e3⟩ := outerLoop (k := k) (h := fun i => if val k M i then val k S i else val k F i)
    (body := fun F i => do
      let d ← rd F i
      let m ← rd M i
      let s ← rd S i
      let w ← inner3 (fun d m s => if m then s else d) (2 ^ k) d m s
      wrElem F i w) hF.1 (by
    intro G o ho hG he
    rw [elem_eq hF.1 ho] at he
    rw [rd_eq_ok_iff.2 he, ok_bind, rd_eq_ok_iff.2 (elem_eq hM.1 ho), ok_bind, rd_eq_ok_iff.2 (elem_eq hS.1 ho), ok_bind, inner3_eq, ok_bind,
      wrElem, if_pos (by rw [hG.1]; exact ho)])
  refine ⟨F', e1, e2, ?_⟩
  intro i c hi hc
  have := e3 i (by rw [hg.sites_eq]; exact hi)
  rwa [val_of_site (hF.2 i c hi hc), val_of_site (hM.2 i c hi hc), val_of_site (hS.2 i c hi hc)] at this

/-! ### files -/

/-- C100: the file is the records of the sites in lexicographic order, each most significant byte first: the file of every other library (C27). -/
theorem C100_write (k : Nat) (g : Geom) (hg : Lattice k g) (hR : Ready g 1) (be : Bool) (size nmemb : Nat) (hs : Supported size)
    (hn : size = 1 ∨ nmemb < 2 ^ 32) (f : List Nat → List (List Byte)) (hf : IsField g.L size nmemb f) (F : List (List (List Byte)))
    (hF : Holds k g F (fun c => mem be (f c))) (d : Dev) : write be k g size nmemb F d = ok (d.put (fileBytes g.L f)) := by
  obtain ⟨d', e1, e2⟩ := foldO_range_id (s := d) (f := fun d site => do
      let i ← indexOf g site
      let b ← getAt k F i
      let r ← writeArray be b size nmemb d
      return r.2)
    (fun m d' => d' = d.put ((List.range m).flatMap (fun r => (f (digits r g.L)).flatten))) (nsites g.L) (by simp [put_nil]) (by
      rintro m d' hm rfl
      obtain ⟨n, l, -, h2, h3, h4, h5⟩ := indexOf_eq hR hm
      rw [hg.one] at h2
      obtain rfl : n = 0 := by omega
      have hfm := hf _ (digits_inRange hm)
      have hw := writeArray_eq be hs (f (digits m g.L)) hfm.2 (by rw [hfm.1]; exact hn) []
        (d.put ((List.range m).flatMap (fun r => (f (digits r g.L)).flatten)))
      rw [List.append_nil, hfm.1] at hw
      refine ⟨_, by rw [h3, ok_bind, hF.at hg h4 h5, ok_bind, hw, ok_bind]; rfl, ?_⟩
      simp only
      rw [put_put, List.range_succ, List.flatMap_append]
      simp)
  rw [write, e1, e2]
  rfl

/-- C100: reading such a file gives the field, whatever was in memory. -/
theorem C100_read (k : Nat) (g : Geom) (hg : Lattice k g) (hR : Ready g 1) (be : Bool) (size nmemb : Nat) (hs : Supported size)
    (hn : size = 1 ∨ nmemb < 2 ^ 32) (f : List Nat → List (List Byte)) (hf : IsField g.L size nmemb f) (F : List (List (List Byte)))
    (hF : Shape k (g.sites / 2 ^ k) F) (d : Dev) (hd : d.Sees (fileBytes g.L f)) :
    ∃ F', read be k g size nmemb F d = ok (F', d.skip (fileBytes g.L f)) ∧ Holds k g F' (fun c => mem be (f c)) := by
  let pre : Nat → List Byte := fun m => (List.range m).flatMap (fun r => (f (digits r g.L)).flatten)
  have hpre : ∀ m, pre (m + 1) = pre m ++ (f (digits m g.L)).flatten := by
    intro m; simp only [pre]; rw [List.range_succ, List.flatMap_append]; simp
  have hsplit : ∀ m j, ∃ t, pre (m + j) = pre m ++ t := by
    intro m j
    induction j with
    | zero => exact ⟨[], by simp⟩
    | succ j ih => obtain ⟨t, ht⟩ := ih; exact ⟨t ++ _, by rw [← Nat.add_assoc, hpre, ht, List.append_assoc]⟩
  obtain ⟨st, e1, e2, e3, e4⟩ := foldO_range_id (s := (F, d)) (f := fun st site => do
      let i ← indexOf g site
      let r ← readArray be size nmemb st.2
      let F' ← setAt k st.1 i r.1
      return (F', r.2))
    (fun m st => st.2 = d.skip (pre m) ∧ Shape k (g.sites / 2 ^ k) st.1 ∧
      ∀ r, r < m → ∀ l, l < g.sites → g.siteCoords 0 l = ok (digits r g.L) → Site k st.1 l (mem be (f (digits r g.L)))) (nsites g.L)
    ⟨by simp [pre, skip_nil], hF, by intro r hr; omega⟩ (by
      rintro m ⟨G, d'⟩ hm ⟨h1, h2, h3⟩
      simp only at h1 h2 h3
      obtain ⟨n, l, -, a2, a3, a4, a5⟩ := indexOf_eq hR hm
      rw [hg.one] at a2
      obtain rfl : n = 0 := by omega
      have hfm := hf _ (digits_inRange hm)
      have hsee : d'.Sees (f (digits m g.L)).flatten := by
        obtain ⟨j, hj⟩ : ∃ j, nsites g.L = m + 1 + j := ⟨nsites g.L - (m + 1), by omega⟩
        obtain ⟨t, ht⟩ := hsplit (m + 1) j
        have hd' : d.Sees (pre (m + 1 + j)) := by rw [← hj]; exact hd
        rw [ht, hpre] at hd'
        rw [h1]
        exact Sees.right (Sees.left hd')
      have hw := readArray_eq be hs (f (digits m g.L)) hfm.2 (by rw [hfm.1]; exact hn) d' hsee
      rw [hfm.1] at hw
      obtain ⟨G', b1, b2, b3, b4⟩ := setAt_ok h2 (i := l) (by rw [hg.sites_eq]; exact a4) (mem be (f (digits m g.L)))
      refine ⟨(G', d'.skip (f (digits m g.L)).flatten), by
        simp only
        rw [a3, ok_bind, hw, ok_bind]
        simp only
        rw [b1, ok_bind]; rfl, ?_, b2, ?_⟩
      · simp only
        rw [h1, skip_skip, hpre]
      · intro r hr l' hl' hc'
        simp only
        by_cases hll : l' = l
        · subst hll
          rw [a5] at hc'
          injection hc' with hc'
          rw [← hc']; exact b3
        · refine (b4 l' hll _).2 (h3 r ?_ l' hl' hc')
          rcases Nat.lt_succ_iff_lt_or_eq.1 hr with h | h
          · exact h
          · subst h; exact absurd (hg.inj hl' a4 hc' a5) hll)
  refine ⟨st.1, ?_, e3, ?_⟩
  · rw [read, e1]
    congr 1
    exact Prod.ext rfl e2
  · intro i c hi hc
    obtain ⟨c', h1, h2, -⟩ := hg.coords hi
    rw [hc] at h1; injection h1 with h1; subst h1
    have := e4 (rank c g.L) (rank_lt h2) i hi (by rw [digits_rank h2]; exact hc)
    rwa [digits_rank h2] at this

/-- C100: so the field written by this library is read by the single-node library, and the other way round, on any layouts and hosts. -/
theorem C100_same_file (k : Nat) (g g' : Geom) (hg : Lattice k g) (hR : Ready g 1) (hR' : Ready g' 1) (h1 : g'.nodes = 1) (hL : g.L = g'.L) (be be' : Bool)
    (size nmemb : Nat) (hs : Supported size) (hn : size = 1 ∨ nmemb < 2 ^ 32) (f : List Nat → List (List Byte)) (hf : IsField g.L size nmemb f)
    (F : List (List (List Byte))) (hF : Holds k g F (fun c => mem be (f c))) (m : List Byte) (hM : LatticeIO.Holds be' g' size nmemb (fun _ => m) f) (d : Dev) :
    ∃ d', write be k g size nmemb F d = ok d' ∧ writeOLatticeS be' g' m size nmemb d = ok (m, d') := by
  refine ⟨_, C100_write k g hg hR be size nmemb hs hn f hf F hF d, ?_⟩
  rw [hL] at hf ⊢
  exact C27_single g' hR' h1 be' size nmemb hs hn f hf m hM d

/-- C100: one site of a file -/
theorem C100_site (k : Nat) (g : Geom) (hg : Lattice k g) (be : Bool) (size : Nat) (hs : Supported size) (vs : List (List Byte))
    (hvs : ∀ v ∈ vs, v.length = size) (hn : size = 1 ∨ vs.length < 2 ^ 32) (F : List (List (List Byte))) (f : List Nat → List Byte) (hF : Holds k g F f)
    (c : List Nat) (hc : InRange c g.L) (d : Dev) :
    (f c = mem be vs → writeSite be k g size vs.length F c d = ok (d.put vs.flatten)) ∧
    (d.Sees vs.flatten → ∃ F', readSite be k g size vs.length F c d = ok (F', d.skip vs.flatten) ∧
      Holds k g F' (fun c' => if c' = c then mem be vs else f c')) := by
  obtain ⟨i, h1, h2, h3⟩ := hg.index hc
  constructor
  · intro hfc
    have hw := writeArray_eq be hs vs hvs hn [] d
    rw [List.append_nil] at hw
    rw [writeSite, h1, ok_bind, hF.at hg h2 h3, ok_bind, hfc, hw, ok_bind]; rfl
  · intro hd
    obtain ⟨F', e1, e2⟩ := C100_poke k g hg F f hF (mem be vs) c hc
    refine ⟨F', ?_, e2⟩
    rw [pokeSite, h1, ok_bind] at e1
    rw [readSite, h1, ok_bind, readArray_eq be hs vs hvs hn d hd, ok_bind]
    simp only
    rw [e1, ok_bind]; rfl

/-! ### sums -/

/-- C100: what the sum over a contiguous subset is: the sum over all sites of the vectors that the subset touches. -/
theorem C100_sum_covers [AddCommMonoid V] (k n : Nat) (e : Expr V) (he : shapeE k n e) (col : List Nat) (hcol : col.length = n * 2 ^ k) (cb : Nat) (s : Sub)
    (hs : makeSub col cb = ok s) (ho : s.ordRep = true) :
    ∃ a b : Nat, a ≤ b ∧ b < n * 2 ^ k ∧ sitesFrom cb col 0 = List.range' a (b + 1 - a) ∧ s.start = a ∧ s.stop = b ∧
      sumOver k e s = ok (∑ i ∈ Finset.Ico (a / 2 ^ k * 2 ^ k) ((b / 2 ^ k + 1) * 2 ^ k), valE k e i) := by
  obtain ⟨s', h1, h2, -, -, -⟩ := makeSub_eq col cb
  rw [hs] at h1; injection h1 with h1; subst h1
  obtain ⟨c1, c2, -⟩ := C05_ordered col cb s hs
  obtain ⟨a, m, ht, ha, hb⟩ := c2 ho
  obtain ⟨a', m', hm', ht'⟩ := c1.1 ho
  have hm : m = m' := by
    have := congrArg List.length (ht.symm.trans ht')
    simpa using this
  subst hm
  have htab : sitesFrom cb col 0 = List.range' a m := by
    rw [h2] at ht
    exact List.map_injective_iff.2 (fun x y h => by simpa using h) ht
  have hlast : a + m - 1 ∈ sitesFrom cb col 0 := by rw [htab, List.mem_range'_1]; omega
  have hlt : a + m - 1 < n * 2 ^ k := by
    obtain ⟨q, h3, h4⟩ := (mem_sitesFrom _ _ _ _).1 hlast
    obtain ⟨h4, -⟩ := List.getElem?_eq_some_iff.1 h4
    omega
  refine ⟨a, a + m - 1, by omega, hlt, by rw [htab]; congr 1; omega, ha, by rw [hb]; omega, ?_⟩
  exact sum_ordered he ho ha (by rw [hb]; omega) (by omega) hlt

theorem sum_range' [AddCommMonoid V] (f : Nat → V) (a m : Nat) : ((List.range' a m).map f).sum = ∑ i ∈ Finset.Ico a (a + m), f i := by
  rw [List.range'_eq_map_range, List.map_map, list_sum_range, Finset.sum_Ico_eq_sum_range]
  simp

/-- the field that is 1 at the site `t` -/
def unit (k n t : Nat) : List (List Int) := (List.range n).map fun o => (List.range (2 ^ k)).map fun j => if o * 2 ^ k + j = t then 1 else 0

theorem unit_shape (k n t : Nat) : Shape k n (unit k n t) := by
  refine ⟨by simp [unit], ?_⟩
  intro v hv
  obtain ⟨o, -, rfl⟩ := List.mem_map.1 hv
  simp

theorem unit_val (k n t i : Nat) (hi : i < n * 2 ^ k) : val k (unit k n t) i = if i = t then 1 else 0 := by
  have hp := Nat.two_pow_pos k
  apply val_of_site
  have h1 : i / 2 ^ k < n := (Nat.div_lt_iff_lt_mul hp).2 hi
  refine ⟨(List.range (2 ^ k)).map fun j => if i / 2 ^ k * 2 ^ k + j = t then 1 else 0, ?_, ?_⟩
  · rw [List.getElem?_eq_getElem (by simpa [unit] using h1)]
    simp [unit]
  · rw [List.getElem?_eq_getElem (by simpa using Nat.mod_lt i hp), List.getElem_map, List.getElem_range, Nat.div_add_mod']

theorem sum_unit (k n t : Nat) (S : Finset Nat) (hS : ∀ i ∈ S, i < n * 2 ^ k) : ∑ i ∈ S, val k (unit k n t) i = if t ∈ S then 1 else 0 := by
  rw [Finset.sum_congr rfl (fun i hi => unit_val k n t i (hS i hi)), Finset.sum_ite_eq']

/-- the sum over a subset is right, for every field: whole vectors or not contiguous -/
def Whole (k : Nat) (s : Sub) : Prop := s.ordRep = false ∨ ((2 ^ k : Int) ∣ s.start ∧ (2 ^ k : Int) ∣ s.stop + 1)

/-- C100 (the full claim is for every subset: see `C100_sum_right_iff`).  The sum over a subset that is not contiguous, or starts and ends with whole vectors,
is the sum of the values at its sites. -/
theorem C100_sum_partial [AddCommMonoid V] (k n : Nat) (e : Expr V) (he : shapeE k n e) (col : List Nat) (hcol : col.length = n * 2 ^ k) (cb : Nat) (s : Sub)
    (hs : makeSub col cb = ok s) (hw : Whole k s) : sumOver k e s = ok (((sitesFrom cb col 0).map (valE k e)).sum) := by
  by_cases ho : s.ordRep = true
  · obtain ⟨a, b, hab, hbn, ht, ha, hb, h⟩ := C100_sum_covers k n e he col hcol cb s hs ho
    rw [h, ht, sum_range']
    rcases hw with hw | ⟨h1, h2⟩
    · rw [ho] at hw; exact absurd hw (by decide)
    · rw [ha] at h1
      rw [hb] at h2
      have d1 : 2 ^ k ∣ a := by exact_mod_cast h1
      have d2 : 2 ^ k ∣ b + 1 := by exact_mod_cast h2
      rw [Nat.div_mul_cancel d1]
      obtain ⟨q, hq⟩ := d2
      have hq0 : 0 < q := by
        rcases Nat.eq_zero_or_pos q with h | h
        · rw [h] at hq; omega
        · exact h
      have : b / 2 ^ k + 1 = q := by
        obtain ⟨r, rfl⟩ : ∃ r, q = r + 1 := ⟨q - 1, by omega⟩
        have hp := Nat.two_pow_pos k
        have hb' : b = r * 2 ^ k + (2 ^ k - 1) := by
          have : 2 ^ k * (r + 1) = r * 2 ^ k + 2 ^ k := by ring
          omega
        rw [hb', div_at (by omega)]
      rw [this, Nat.mul_comm, ← hq, show a + (b + 1 - a) = b + 1 from by omega]
  · have ho' : s.ordRep = false := by simpa using ho
    obtain ⟨s', h1, h2, -, -, -⟩ := makeSub_eq col cb
    rw [hs] at h1; injection h1 with h1; subst h1
    refine sum_unordered he ho' h2 ?_
    intro i hi
    obtain ⟨q, h3, h4⟩ := (mem_sitesFrom _ _ _ _).1 hi
    obtain ⟨h4, -⟩ := List.getElem?_eq_some_iff.1 h4
    omega

/-- C100: for every other subset it is not: some field is summed wrongly. -/
theorem C100_sum_right_iff (k n : Nat) (col : List Nat) (hcol : col.length = n * 2 ^ k) (cb : Nat) (s : Sub) (hs : makeSub col cb = ok s) :
    (∀ F : List (List Int), Shape k n F → sumOver k (.leaf F) s = ok (((sitesFrom cb col 0).map (val k F)).sum)) ↔ Whole k s := by
  constructor
  · intro h
    by_contra hw
    have ho : s.ordRep = true := by
      by_contra ho
      exact hw (Or.inl (by simpa using ho))
    obtain ⟨a, b, hab, hbn, ht, ha, hb, -⟩ := C100_sum_covers k n (.leaf (unit k n 0)) (unit_shape k n 0) col hcol cb s hs ho
    have hp := Nat.two_pow_pos k
    have hcover : (b / 2 ^ k + 1) * 2 ^ k ≤ n * 2 ^ k := Nat.mul_le_mul_right _ ((Nat.div_lt_iff_lt_mul hp).2 hbn)
    have key : ∀ t, (if t ∈ Finset.Ico (a / 2 ^ k * 2 ^ k) ((b / 2 ^ k + 1) * 2 ^ k) then (1 : Int) else 0) = if t ∈ Finset.Ico a (b + 1) then 1 else 0 := by
      intro t
      have := h (unit k n t) (unit_shape k n t)
      rw [sum_ordered (e := .leaf (unit k n t)) (unit_shape k n t) ho ha hb hab hbn, ht, sum_range', show a + (b + 1 - a) = b + 1 from by omega] at this
      injection this with this
      rw [sum_unit k n t _ (by intro i hi; rw [Finset.mem_Ico] at hi; omega)] at this
      rw [← this]
      exact (sum_unit k n t _ (by intro i hi; rw [Finset.mem_Ico] at hi; omega)).symm
    have key' : ∀ t, a / 2 ^ k * 2 ^ k ≤ t ∧ t < (b / 2 ^ k + 1) * 2 ^ k ↔ a ≤ t ∧ t < b + 1 := by
      intro t
      have := key t
      simp only [Finset.mem_Ico] at this
      split_ifs at this with h1 h2 h2
      · exact ⟨fun _ => h2, fun _ => h1⟩
      · exact absurd this (by decide)
      · exact absurd this (by decide)
      · exact ⟨fun h => absurd h h1, fun h => absurd h h2⟩
    have la := Nat.div_mul_le_self a (2 ^ k)
    have lb : b < (b / 2 ^ k + 1) * 2 ^ k := Nat.lt_mul_of_div_lt (Nat.lt_succ_self _) hp
    have e1 : a / 2 ^ k * 2 ^ k = a := by
      have := (key' (a / 2 ^ k * 2 ^ k)).1 ⟨le_refl _, by omega⟩
      omega
    have e2 : (b / 2 ^ k + 1) * 2 ^ k = b + 1 := by
      by_contra hne
      have := (key' (b + 1)).1 ⟨by omega, by omega⟩
      omega
    apply hw
    right
    rw [ha, hb]
    constructor
    · exact_mod_cast (⟨a / 2 ^ k, by rw [Nat.mul_comm]; exact e1.symm⟩ : 2 ^ k ∣ a)
    · exact_mod_cast (⟨b / 2 ^ k + 1, by rw [Nat.mul_comm]; exact e2.symm⟩ : 2 ^ k ∣ b + 1)
  · intro hw F hF
    exact C100_sum_partial k n (.leaf F) hF col hcol cb s hs hw

/-- C100: the sum over the whole lattice is right. -/
theorem C100_sum_all [AddCommMonoid V] (k : Nat) (g : Geom) (hg : Lattice k g) (hpos : 0 < g.sites) (e : Expr V) (he : shapeE k (g.sites / 2 ^ k) e) :
    ∃ ss s, setMake g 0 allFunc 1 = ok ss ∧ rd ss.subs 0 = ok s ∧ sumOver k e s = ok (∑ i ∈ Finset.range g.sites, valE k e i) := by
  obtain ⟨ss, h1, h2, h3, h4, h5⟩ := C05_all g hg.good 0 (by rw [hg.one]; omega) hpos
  refine ⟨ss, ss.subs[0], h1, rd_of_lt h2, ?_⟩
  have hp := Nat.two_pow_pos k
  rw [sum_ordered he h3 (a := 0) (b := g.sites - 1) (by rw [h4]; rfl) (by rw [h5]; omega) (by omega) (by rw [hg.sites_eq]; omega)]
  congr 1
  obtain ⟨q, hq⟩ := hg.mult
  have hq0 : 0 < q := by
    rcases Nat.eq_zero_or_pos q with h | h
    · rw [h] at hq; omega
    · exact h
  obtain ⟨r, rfl⟩ : ∃ r, q = r + 1 := ⟨q - 1, by omega⟩
  have hb' : g.sites - 1 = r * 2 ^ k + (2 ^ k - 1) := by
    have : 2 ^ k * (r + 1) = r * 2 ^ k + 2 ^ k := by ring
    omega
  rw [hb', div_at (by omega), Nat.zero_div, Nat.zero_mul, Nat.mul_comm (r + 1), ← hq, Finset.range_eq_Ico]

/-! ### the checkerboards -/

theorem sitesFrom_append (cb : Nat) (xs ys : List Nat) (l : Nat) : sitesFrom cb (xs ++ ys) l = sitesFrom cb xs l ++ sitesFrom cb ys (l + xs.length) := by
  induction xs generalizing l with
  | nil => simp [sitesFrom]
  | cons x xs ih =>
    simp only [List.cons_append, sitesFrom]
    split_ifs
    · rw [ih, List.cons_append, List.length_cons, show l + 1 + xs.length = l + (xs.length + 1) from by omega]
    · rw [ih, List.length_cons, show l + 1 + xs.length = l + (xs.length + 1) from by omega]

theorem sitesFrom_same (cb h l : Nat) : sitesFrom cb (List.replicate h cb) l = List.range' l h := by
  induction h generalizing l with
  | zero => rfl
  | succ h ih => rw [List.replicate_succ, sitesFrom, if_pos rfl, ih, List.range'_succ]

theorem sitesFrom_other (cb x h l : Nat) (hx : x ≠ cb) : sitesFrom cb (List.replicate h x) l = [] := by
  induction h generalizing l with
  | zero => rfl
  | succ h ih => rw [List.replicate_succ, sitesFrom, if_neg hx, ih]

/-- the lattice in the two-colour order -/
abbrev geomV (L : List Nat) : Geom := geomScalar L (Layout.siteCoordsCB2 L) (Layout.linearSiteIndexCB2 L)

theorem rb_sets (l0 : Nat) (ls : List Nat) (heven : l0 % 2 = 0) (hp : ∀ l ∈ l0 :: ls, 0 < l) (hv : nsites (l0 :: ls) < 2 ^ 31) :
    ∃ s0 s1, setMake (geomV (l0 :: ls)) 0 rbFunc 2 =
        ok ⟨List.replicate (nsites (l0 :: ls) / 2) 0 ++ List.replicate (nsites (l0 :: ls) / 2) 1, [s0, s1]⟩ ∧
      makeSub (List.replicate (nsites (l0 :: ls) / 2) 0 ++ List.replicate (nsites (l0 :: ls) / 2) 1) 0 = ok s0 ∧
      makeSub (List.replicate (nsites (l0 :: ls) / 2) 0 ++ List.replicate (nsites (l0 :: ls) / 2) 1) 1 = ok s1 ∧
      (s0.ordRep = true ∧ s0.start = 0 ∧ s0.stop = (nsites (l0 :: ls) / 2 : Nat) - 1) ∧
      (s1.ordRep = true ∧ s1.start = (nsites (l0 :: ls) / 2 : Nat) ∧ s1.stop = (nsites (l0 :: ls) : Int) - 1) := by
  have hg := C02_scalar _ _ _ (C01_cb2 l0 ls heven hp hv)
  have hhalf := C03_halves l0 ls heven
  have hpos : 0 < nsites (l0 :: ls) := nsites_pos hp
  generalize hH : nsites (l0 :: ls) / 2 = H at *
  have hcol : latColor (geomV (l0 :: ls)) 0 rbFunc 2 = ok (List.replicate H 0 ++ List.replicate H 1) := by
    refine mapO_of (by simp [geomScalar]; omega) ?_
    intro i hi hi'
    have hi0 : i < nsites (l0 :: ls) := by simpa [geomScalar] using hi
    rw [List.getElem_range]
    obtain ⟨c, h1, h2, h3, h4⟩ := hg.2 0 i (show 0 < 1 by decide) hi0
    have hpar := C03_cb2 l0 ls heven hp hv i hi0 c h1
    rw [hH] at hpar
    have hn : (geomV (l0 :: ls)).nodeNumber c = ok 0 := h3
    unfold colourSite
    rw [h1, ok_bind, hn, ok_bind, h4, ok_bind]
    simp only [ne_eq, not_true_eq_false, if_false]
    rw [if_neg (by simp only [rbFunc, and_one]; omega)]
    simp only [rbFunc, and_one, pure_def]
    congr 1
    by_cases hlt : i < H
    · rw [List.getElem_append_left (by simpa using hlt), List.getElem_replicate]
      have := hpar.2 hlt
      omega
    · rw [List.getElem_append_right (by simpa using hlt), List.getElem_replicate]
      have : ¬ c.sum % 2 = 0 := fun h => hlt (hpar.1 h)
      omega
  obtain ⟨s0, a1, a2, -, -, -⟩ := makeSub_eq (List.replicate H 0 ++ List.replicate H 1) 0
  obtain ⟨s1, b1, b2, -, -, -⟩ := makeSub_eq (List.replicate H 0 ++ List.replicate H 1) 1
  refine ⟨s0, s1, ?_, a1, b1, ?_, ?_⟩
  · rw [setMake, hcol, ok_bind, show List.range 2 = [0, 1] from rfl, mapO, a1, ok_bind, mapO, b1, ok_bind, mapO]
    rfl
  · rw [sitesFrom_append, sitesFrom_same, sitesFrom_other _ _ _ _ (by decide), List.append_nil] at a2
    obtain ⟨c1, c2, -⟩ := C05_ordered _ _ _ a1
    have ho := c1.2 ⟨0, H, by omega, a2⟩
    obtain ⟨a, m, ht, h3, h4⟩ := c2 ho
    rw [a2] at ht
    have ht' := List.map_injective_iff.2 (fun x y h => by simpa using h : Function.Injective Int.ofNat) ht
    have hm : H = m := by simpa using congrArg List.length ht'
    subst hm
    have ha : a = 0 := by
      have := congrArg (fun l => l[0]?) ht'
      rw [List.getElem?_range' (by omega), List.getElem?_range' (by omega)] at this
      simpa using this.symm
    subst ha
    exact ⟨ho, h3, by rw [h4]; omega⟩
  · rw [sitesFrom_append, sitesFrom_same, sitesFrom_other _ _ _ _ (by decide), List.nil_append, Nat.zero_add, List.length_replicate] at b2
    obtain ⟨c1, c2, -⟩ := C05_ordered _ _ _ b1
    have ho := c1.2 ⟨H, H, by omega, b2⟩
    obtain ⟨a, m, ht, h3, h4⟩ := c2 ho
    rw [b2] at ht
    have ht' := List.map_injective_iff.2 (fun x y h => by simpa using h : Function.Injective Int.ofNat) ht
    have hm : H = m := by simpa using congrArg List.length ht'
    subst hm
    have ha : a = H := by
      have := congrArg (fun l => l[0]?) ht'
      rw [List.getElem?_range' (by omega), List.getElem?_range' (by omega)] at this
      simpa using this.symm
    subst ha
    exact ⟨ho, h3, by rw [h4]; omega⟩

/-- C100: in the two-colour order `sumMulti` over the checkerboards gives the sums over the even and over the odd sites for every field if, and only if,
the volume is a multiple of twice the inner length — `create` only asks for a multiple of the inner length. -/
theorem C100_rb_iff (k l0 : Nat) (ls : List Nat) (heven : l0 % 2 = 0) (hp : ∀ l ∈ l0 :: ls, 0 < l) (hv : nsites (l0 :: ls) < 2 ^ 31)
    (hk : 2 ^ k ∣ nsites (l0 :: ls)) :
    (∃ rb, setMake (geomV (l0 :: ls)) 0 rbFunc 2 = ok rb ∧ ∀ F : List (List Int), Shape k (nsites (l0 :: ls) / 2 ^ k) F →
      sumMulti k (.leaf F) rb = ok [∑ i ∈ Finset.Ico 0 (nsites (l0 :: ls) / 2), val k F i,
        ∑ i ∈ Finset.Ico (nsites (l0 :: ls) / 2) (nsites (l0 :: ls)), val k F i]) ↔ 2 * 2 ^ k ∣ nsites (l0 :: ls) := by
  obtain ⟨s0, s1, h, m0, m1, ⟨o0, st0, e0⟩, ⟨o1, st1, e1⟩⟩ := rb_sets l0 ls heven hp hv
  have hhalf := C03_halves l0 ls heven
  have hpos : 0 < nsites (l0 :: ls) := nsites_pos hp
  generalize nsites (l0 :: ls) = W at *
  generalize hH : W / 2 = H at *
  have hpk := Nat.two_pow_pos k
  have hn : W / 2 ^ k * 2 ^ k = W := Nat.div_mul_cancel hk
  have hcol : (List.replicate H 0 ++ List.replicate H 1).length = W / 2 ^ k * 2 ^ k := by simp; omega
  have t0 : sitesFrom 0 (List.replicate H 0 ++ List.replicate H 1) 0 = List.range' 0 H := by
    rw [sitesFrom_append, sitesFrom_same, sitesFrom_other _ _ _ _ (by decide), List.append_nil]
  have t1 : sitesFrom 1 (List.replicate H 0 ++ List.replicate H 1) 0 = List.range' H H := by
    rw [sitesFrom_append, sitesFrom_same, sitesFrom_other _ _ _ _ (by decide), List.nil_append, Nat.zero_add, List.length_replicate]
  have r0 := C100_sum_right_iff k (W / 2 ^ k) _ hcol 0 s0 m0
  have r1 := C100_sum_right_iff k (W / 2 ^ k) _ hcol 1 s1 m1
  rw [t0] at r0
  rw [t1] at r1
  simp only [sum_range'] at r0 r1
  rw [Nat.zero_add] at r0
  rw [hhalf] at r1
  have w : 2 * 2 ^ k ∣ W ↔ 2 ^ k ∣ H := by
    constructor
    · rintro ⟨q, hq⟩
      refine ⟨q, ?_⟩
      rw [Nat.mul_assoc] at hq; omega
    · rintro ⟨q, hq⟩
      refine ⟨q, ?_⟩
      rw [Nat.mul_assoc, ← hq]; omega
  rw [w]
  constructor
  · rintro ⟨rb, hrb, hall⟩
    rw [h] at hrb; injection hrb with hrb; subst hrb
    have hw := r0.1 (fun F hF => by
      have := hall F hF
      simp only [sumMulti] at this
      have := (mapO_eq_ok this).2 0 (by simp) (by simp)
      simpa using this)
    rcases hw with hw | ⟨-, hw⟩
    · rw [o0] at hw; exact absurd hw (by decide)
    · rw [e0, sub_add_cancel] at hw
      exact_mod_cast hw
  · intro hd
    have w0 : Whole k s0 := Or.inr ⟨by rw [st0]; exact dvd_zero _, by rw [e0, sub_add_cancel]; exact_mod_cast hd⟩
    have w1 : Whole k s1 := Or.inr ⟨by rw [st1]; exact_mod_cast hd, by rw [e1, sub_add_cancel]; exact_mod_cast hk⟩
    refine ⟨_, h, ?_⟩
    intro F hF
    rw [sumMulti]
    simp only [mapO]
    rw [r0.2 w0 F hF, ok_bind, r1.2 w1 F hF]
    rfl

/-- C100, refuted: on the lattice of 6 x 2 sites in the two-colour order the sums over the even and the odd sites of the field 1 are 8 and 8; the sum over the
lattice is 12. -/
theorem C100_not_partition : ∃ rb, setMake (geomV [6, 2]) 0 rbFunc 2 = ok rb ∧
    sumMulti 2 (.leaf (List.replicate 3 (List.replicate 4 (1 : Int)))) rb = ok [8, 8] ∧
    ∑ i ∈ Finset.range 12, val 2 (List.replicate 3 (List.replicate 4 (1 : Int))) i = 12 := by
  refine ⟨⟨[0, 0, 0, 0, 0, 0, 1, 1, 1, 1, 1, 1], [⟨true, 0, 5, [0, 1, 2, 3, 4, 5], 0⟩, ⟨true, 6, 11, [6, 7, 8, 9, 10, 11], 1⟩]⟩, by decide, by decide, by decide⟩

/-- C100: the array version is the same, field by field. -/
theorem C100_array [AddCommMonoid V] (k : Nat) (es : List (List (List V))) (ss : SetObj) (r : List (List V)) (h : sumMultiArr k es ss = ok r) :
    r.length = es.length ∧ ∀ j (hj : j < es.length) (hj' : j < r.length), sumMulti k (.leaf es[j]) ss = ok r[j] := by
  obtain ⟨h1, h2⟩ := mapO_eq_ok h
  exact ⟨h1, fun j hj hj' => h2 j hj hj'⟩

/-! ### statements -/

/-- C100, refuted: no assignment to a field does anything but stop the program. -/
theorem C100_statements_stop (F : List (List V)) (op : V → V → V) (e : Expr V) (s : Sub) :
    evaluate F op e s = abort ∧ ∀ α : Type, (notImplemented s : Outcome α) = abort := ⟨rfl, fun _ => rfl⟩

theorem volume_eq : ∀ (L : List Nat) (v : Nat), (∀ l ∈ L, 0 < l) → v * nsites L < 2 ^ 31 → volume L v = ok (v * nsites L) := by
  intro L
  induction L with
  | nil => intro v _ _; simp [volume, nsites]
  | cons l ls ih =>
    intro v hp hv
    have h1 : 0 < nsites ls := nsites_pos (fun x hx => hp x (by simp [hx]))
    rw [nsites, ← Nat.mul_assoc] at hv ⊢
    have : v * l < 2 ^ 31 := lt_of_le_of_lt (Nat.le_mul_of_pos_right _ h1) hv
    rw [volume, ckInt, if_pos this, ok_bind, ih _ (fun x hx => hp x (by simp [hx])) hv]

/-- C100, refuted: `Layout::create` never returns: whatever the lattice, whatever the sets; and on every lattice on which it should work it gets as far as the
first statement of the random number generator, which stops the program. -/
theorem C100_create_never_returns (k : Nat) (g : Geom) (funcs : List ((List Nat → Int) × Nat)) (F lexoc : List (List Nat)) :
    (∀ u, create k g funcs F lexoc ≠ ok u) ∧
    (Lattice k g → g.L ≠ [] → g.sites = nsites g.L → (∀ l ∈ g.L, 0 < l ∧ 5 * l < 2 ^ 31) → nsites g.L < 2 ^ 31 →
      (∀ fn ∈ funcs, ∀ c, InRange c g.L → 0 ≤ fn.1 c ∧ fn.1 c < fn.2) → Shape k (g.sites / 2 ^ k) F → create k g funcs F lexoc = abort) := by
  constructor
  · intro u h
    unfold create at h
    obtain ⟨vol, -, h⟩ := bind_eq_ok.1 h
    split_ifs at h
    obtain ⟨-, -, h⟩ := bind_eq_ok.1 h
    obtain ⟨-, -, h⟩ := bind_eq_ok.1 h
    obtain ⟨all, -, h⟩ := bind_eq_ok.1 h
    obtain ⟨a, -, h⟩ := bind_eq_ok.1 h
    obtain ⟨-, -, h⟩ := bind_eq_ok.1 h
    obtain ⟨x, hx, -⟩ := bind_eq_ok.1 h
    unfold initRNG at hx
    obtain ⟨y, -, hy⟩ := bind_eq_ok.1 hx
    exact absurd hy (by simp [evaluate])
  · intro hg hne hsites hL hv hfun hF
    have hpos : 0 < nsites g.L := nsites_pos (fun l hl => (hL l hl).1)
    have hsan : sanity g (1 * nsites g.L) = ok () := by
      obtain ⟨u, h1, -⟩ := foldO_range_id (s := ()) (f := fun _ i => do
        let c ← g.siteCoords 0 i
        let ii ← g.linearSiteIndex c
        if i ≠ ii then abort else ok ()) (fun _ _ => True) (1 * nsites g.L) trivial (by
          intro i s hi _
          obtain ⟨c, h1, -, h2⟩ := hg.coords (i := i) (by omega)
          exact ⟨(), by rw [h1, ok_bind, h2, ok_bind, if_neg (by simp)], trivial⟩)
      exact h1
    have hmk : ∃ ss, mapO (fun fn : (List Nat → Int) × Nat => setMake g 0 fn.1 fn.2) funcs = ok ss := by
      clear hF
      induction funcs with
      | nil => exact ⟨[], rfl⟩
      | cons fn fns ih =>
        obtain ⟨s, h1, -⟩ := C04_make g hg.good 0 (by rw [hg.one]; omega) fn.1 fn.2 (hfun fn (by simp))
        obtain ⟨ss, h2⟩ := ih (fun x hx => hfun x (by simp [hx]))
        exact ⟨s :: ss, by rw [mapO, h1, ok_bind, h2, ok_bind]; rfl⟩
    obtain ⟨ss, hss⟩ := hmk
    obtain ⟨all, h1, h2, -⟩ := C05_all g hg.good 0 (by rw [hg.one]; omega) (by omega)
    obtain ⟨tab, h3, -⟩ := C07_shift g hg.good hg.one (fun l hl => (hL l hl).2)
    have hlen : 0 < g.L.length := List.length_pos_iff.2 hne
    obtain ⟨x, h4, -⟩ := (C100_coordinate k g hg F hF ((g.L.length : Int) - 1)).1 ⟨by omega, by omega⟩
    have hmod : ¬ (1 * nsites g.L) % (1 <<< k) ≠ 0 := by
      rw [Nat.one_shiftLeft, Nat.one_mul, ← hsites]
      simpa using Nat.mod_eq_zero_of_dvd hg.mult
    rw [create, volume_eq g.L 1 (fun l hl => (hL l hl).1) (by omega), ok_bind, if_neg hmod, hsan, ok_bind, hss, ok_bind, h1, ok_bind, rd_of_lt h2, ok_bind,
      h3, ok_bind, initRNG, h4, ok_bind]
    rfl

/-- C100, refuted: so there is no lattice for which `create` sets the library up, though it asks for nothing but a multiple of the inner length. -/
theorem C100_create_refuted (k : Nat) : ¬ ∃ (g : Geom) (funcs : List ((List Nat → Int) × Nat)) (F lexoc : List (List Nat)), Lattice k g ∧
    create k g funcs F lexoc = ok () := by
  rintro ⟨g, funcs, F, lexoc, -, h⟩
  exact (C100_create_never_returns k g funcs F lexoc).1 () h

end

/-! ### a case: the lattice 6 x 2 in the two-colour order, in vectors of 4 sites -/

theorem case_lattice : Lattice 2 (geomV [6, 2]) :=
  ⟨C02_scalar _ _ _ (C01_cb2 6 [2] (by decide) (by decide) (by decide)), rfl, by decide⟩

/-- the field `10 x + y` -/
def caseField : List (List Nat) := [[0, 20, 40, 11], [31, 51, 10, 30], [50, 1, 21, 41]]

example : Holds 2 (geomV [6, 2]) caseField (fun c => 10 * c.getD 0 0 + c.getD 1 0) := by
  refine ⟨by refine ⟨by decide, by decide⟩, ?_⟩
  intro i c hi hc
  have hi : i < 12 := hi
  interval_cases i <;> (injection hc with hc; subst hc; exact ⟨_, rfl, rfl⟩)

example : peekSite 2 (geomV [6, 2]) caseField [3, 1] = ok 31 := by decide
example : (mapMake (geomV [6, 2]) (fun c s => nnFunc [6, 2] c (1 * s) 0) >>= fun t => applyMap 12 t caseField (List.replicate 3 (List.replicate 4 0))) =
    ok [[10, 30, 50, 21], [41, 1, 20, 40], [0, 11, 31, 51]] := by decide
example : create 2 (geomV [6, 2]) [(rbFunc, 2)] (List.replicate 3 (List.replicate 4 0)) (List.replicate 3 (List.replicate 4 0)) = abort := by decide
/-- twice the inner length does not divide 12: some field is summed wrongly; it divides 24 -/
example : ¬ ∃ rb, setMake (geomV [6, 2]) 0 rbFunc 2 = ok rb ∧ ∀ F : List (List Int), Shape 2 (nsites [6, 2] / 2 ^ 2) F →
    sumMulti 2 (.leaf F) rb = ok [∑ i ∈ Finset.Ico 0 (nsites [6, 2] / 2), val 2 F i, ∑ i ∈ Finset.Ico (nsites [6, 2] / 2) (nsites [6, 2]), val 2 F i] := by
  rw [C100_rb_iff 2 6 [2] (by decide) (by decide) (by decide) (by decide)]; decide
example : 2 * 2 ^ 2 ∣ nsites [6, 4] := by decide

end Verif.Vec
