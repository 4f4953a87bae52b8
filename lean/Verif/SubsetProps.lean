import Verif.Subset
/-
Properties C04 (a Set partitions the lattice) and C05 (ordered-range flag).
-/
namespace Verif.Subset
open Verif Outcome Verif.Layout Verif.ParLayout

/-- colour of slot `i` of node `node` according to the user's function -/
def ColourAt (g : Geom) (node : Nat) (fn : List Nat → Int) (i : Nat) (k : Nat) : Prop :=
  ∃ c, g.siteCoords node i = ok c ∧ fn c = (k : Int)

theorem colourSite_ok {g : Geom} (hg : g.Good) {node : Nat} (hn : node < g.nodes) {fn : List Nat → Int} {nsub i : Nat}
    (hi : i < g.sites) : ∃ c, g.siteCoords node i = ok c ∧ InRange c g.L ∧
      colourSite g node fn nsub i = if fn c < 0 ∨ fn c ≥ (nsub : Int) then abort else ok (fn c).toNat := by
  obtain ⟨c, h1, h2, h3, h4⟩ := hg.2 node i hn hi
  refine ⟨c, h1, h2, ?_⟩
  simp [colourSite, h1, h3, h4]

/-- C04, main part: if every site's colour is legal, `Set::make` returns; the recorded colouring is the user's; the
site table of each subset lists exactly the sites of that colour, in strictly increasing order. -/
theorem C04_make (g : Geom) (hg : g.Good) (node : Nat) (hn : node < g.nodes) (fn : List Nat → Int) (nsub : Nat)
    (hlegal : ∀ c, InRange c g.L → 0 ≤ fn c ∧ fn c < nsub) :
    ∃ s, setMake g node fn nsub = ok s ∧ s.latColor.length = g.sites ∧ s.subs.length = nsub ∧
      (∀ i (hi : i < s.latColor.length), ColourAt g node fn i s.latColor[i] ∧ s.latColor[i] < nsub) ∧
      (∀ k (hk : k < s.subs.length), s.subs[k].colour = k ∧ s.subs[k].table.Pairwise (· < ·) ∧
        ∀ x : Int, x ∈ s.subs[k].table ↔ ∃ i : Nat, x = (i : Int) ∧ i < g.sites ∧ ColourAt g node fn i k) := by
  -- the colouring
  have hcol : ∃ col : List Nat, latColor g node fn nsub = ok col ∧ col.length = g.sites ∧
      ∀ i (hi : i < col.length), ColourAt g node fn i col[i] ∧ col[i] < nsub := by
    let h : Nat → Nat := fun i => match g.siteCoords node i with | ok c => (fn c).toNat | _ => 0
    refine ⟨(List.range g.sites).map h, ?_, by simp, ?_⟩
    · apply mapO_ok
      intro i hi
      rw [List.mem_range] at hi
      obtain ⟨c, h1, h2, h3⟩ := colourSite_ok hg hn (fn := fn) (nsub := nsub) hi
      have := hlegal c h2
      rw [h3, if_neg (by omega)]
      simp [h, h1]
    · intro i hi
      simp only [List.length_map, List.length_range] at hi
      obtain ⟨c, h1, h2, h3⟩ := colourSite_ok hg hn (fn := fn) (nsub := nsub) hi
      have := hlegal c h2
      simp only [List.getElem_map, List.getElem_range, h, h1]
      exact ⟨⟨c, h1, by omega⟩, by omega⟩
  obtain ⟨col, hc1, hc2, hc3⟩ := hcol
  -- the subsets
  let mk : Nat → Sub := fun k => (makeSub_eq col k).choose
  have hmk : ∀ k, makeSub col k = ok (mk k) ∧ (mk k).table = (sitesFrom k col 0).map Int.ofNat ∧ (mk k).colour = k :=
    fun k => ⟨(makeSub_eq col k).choose_spec.1, (makeSub_eq col k).choose_spec.2.1,
      (makeSub_eq col k).choose_spec.2.2.1⟩
  refine ⟨⟨col, (List.range nsub).map mk⟩, ?_, hc2, by simp, hc3, ?_⟩
  · unfold setMake
    rw [hc1, ok_bind, mapO_ok (h := mk) (fun k _ => (hmk k).1)]
    rfl
  · intro k hk
    simp only [List.length_map, List.length_range] at hk
    simp only [List.getElem_map, List.getElem_range]
    obtain ⟨-, ht, hcc⟩ := hmk k
    refine ⟨hcc, ?_, ?_⟩
    · rw [ht, List.pairwise_map]
      exact (sitesFrom_sorted k col 0).imp (fun {a b} h => by simp only [Int.ofNat_eq_natCast]; omega)
    · intro x
      rw [ht]
      simp only [List.mem_map, mem_sitesFrom, Nat.zero_add]
      constructor
      · rintro ⟨a, ⟨i, rfl, h2⟩, rfl⟩
        have hlt : a < col.length := by
          rcases Nat.lt_or_ge a col.length with h | h
          · exact h
          · rw [List.getElem?_eq_none h] at h2; exact absurd h2 (by simp)
        refine ⟨a, rfl, by omega, ?_⟩
        have := (hc3 a hlt).1
        rw [List.getElem?_eq_getElem hlt] at h2
        injection h2 with h2
        rwa [h2] at this
      · rintro ⟨i, rfl, hi, ⟨c, h1, h2⟩⟩
        refine ⟨i, ⟨i, rfl, ?_⟩, rfl⟩
        obtain ⟨c', h1', h2'⟩ := (hc3 i (by omega)).1
        rw [h1] at h1'
        injection h1' with h1'
        subst h1'
        rw [List.getElem?_eq_getElem (by omega)]
        congr 1
        omega

/-- C04, consequences: subsets are pairwise disjoint and together cover every site of the node. -/
theorem C04_partition (g : Geom) (hg : g.Good) (node : Nat) (hn : node < g.nodes) (fn : List Nat → Int) (nsub : Nat)
    (hlegal : ∀ c, InRange c g.L → 0 ≤ fn c ∧ fn c < nsub) (s : SetObj) (hs : setMake g node fn nsub = ok s) :
    (∀ i, i < g.sites → ∃ k, ∃ hk : k < s.subs.length, (i : Int) ∈ s.subs[k].table) ∧
    (∀ j k (hj : j < s.subs.length) (hk : k < s.subs.length) (x : Int),
      x ∈ s.subs[j].table → x ∈ s.subs[k].table → j = k) := by
  obtain ⟨s', h1, h2, h3, h4, h5⟩ := C04_make g hg node hn fn nsub hlegal
  rw [hs] at h1
  injection h1 with h1
  subst h1
  constructor
  · intro i hi
    have hi' : i < s.latColor.length := by omega
    obtain ⟨ha, hb⟩ := h4 i hi'
    refine ⟨s.latColor[i], by omega, ?_⟩
    exact ((h5 _ (by omega)).2.2 _).2 ⟨i, rfl, hi, ha⟩
  · intro j k hj hk x hxj hxk
    obtain ⟨i, e1, _, c, hc1, hc2⟩ := ((h5 j hj).2.2 x).1 hxj
    obtain ⟨i', e2, _, c', hc1', hc2'⟩ := ((h5 k hk).2.2 x).1 hxk
    have : i = i' := by omega
    subst this
    rw [hc1] at hc1'
    injection hc1' with hc1'
    subst hc1'
    omega

/-- C04, error case: if some site of the node gets a colour outside `0..nsub-1` the program stops. -/
theorem C04_illegal_colour (g : Geom) (hg : g.Good) (node : Nat) (hn : node < g.nodes) (fn : List Nat → Int)
    (nsub : Nat) (i : Nat) (hi : i < g.sites) (c : List Nat) (hc : g.siteCoords node i = ok c)
    (hbad : fn c < 0 ∨ fn c ≥ nsub) : setMake g node fn nsub = abort := by
  have key : ∀ xs : List Nat, (∀ x ∈ xs, x < g.sites) → i ∈ xs → mapO (colourSite g node fn nsub) xs = abort := by
    intro xs
    induction xs with
    | nil => intro _ h; simp at h
    | cons a as ih =>
      intro hall hmem
      simp only [List.mem_cons, forall_eq_or_imp] at hall
      obtain ⟨c', h1, h2, h3⟩ := colourSite_ok hg hn (fn := fn) (nsub := nsub) hall.1
      simp only [mapO, h3]
      by_cases hb : fn c' < 0 ∨ fn c' ≥ (nsub : Int)
      · rw [if_pos hb]; rfl
      · rw [if_neg hb, ok_bind]
        simp only [List.mem_cons] at hmem
        rcases hmem with rfl | hmem
        · rw [hc] at h1; injection h1 with h1; subst h1; exact absurd hbad hb
        · rw [ih hall.2 hmem]; rfl
  unfold setMake latColor
  rw [key (List.range g.sites) (fun x hx => List.mem_range.1 hx) (List.mem_range.2 hi)]
  rfl

/-- C05: a subset reports an ordered representation exactly when its sites are consecutive (and there is one);
`start()`/`end()` are then its first and last site; an empty subset reports none. -/
theorem C05_ordered (col : List Nat) (cb : Nat) (s : Sub) (hs : makeSub col cb = ok s) :
    (s.ordRep = true ↔ ∃ (a n : Nat), 0 < n ∧ s.table = (List.range' a n).map Int.ofNat) ∧
    (s.ordRep = true → ∃ (a n : Nat), s.table = (List.range' a n).map Int.ofNat ∧ s.start = a ∧ s.stop = a + n - 1) ∧
    (s.table = [] → s.ordRep = false) := by
  obtain ⟨s', h1, h2, h3, h4, h5⟩ := makeSub_eq col cb
  rw [hs] at h1
  injection h1 with h1
  subst h1
  have hempty : s.table = [] → s.ordRep = false := fun h => (h4 h).1
  have hcons : s.ordRep = true → ∃ (a n : Nat), 0 < n ∧ s.table = (List.range' a n).map Int.ofNat ∧
      s.start = a ∧ s.stop = a + n - 1 := by
    intro ho
    have hne : s.table ≠ [] := fun h => by rw [hempty h] at ho; exact absurd ho (by simp)
    obtain ⟨k1, k2, -⟩ := h5 hne
    have hall := k1.1 ho
    obtain ⟨hst, hen⟩ := k2 ho
    have hpos : 0 < s.table.length := List.length_pos_iff.2 hne
    have hhead : ∃ a : Nat, s.table.head hne = (a : Int) := by
      have : s.table.head hne ∈ s.table := List.head_mem hne
      generalize s.table.head hne = z at this
      rw [h2] at this
      obtain ⟨a, _, ha⟩ := List.mem_map.1 this
      exact ⟨a, by simpa using ha.symm⟩
    obtain ⟨a, ha⟩ := hhead
    refine ⟨a, s.table.length, hpos, ?_, by rw [hst, ha], ?_⟩
    · apply List.ext_getElem
      · simp
      · intro k hk1 hk2
        rw [hall k hk1, ha]
        simp
    · rw [hen, List.getLast_eq_getElem, hall _ (by omega), ha]
      omega
  refine ⟨⟨fun ho => ?_, ?_⟩, fun ho => ?_, hempty⟩
  · obtain ⟨a, n, h, h', _⟩ := hcons ho; exact ⟨a, n, h, h'⟩
  · rintro ⟨a, n, hn, ht⟩
    have hne : s.table ≠ [] := by
      intro h; rw [h] at ht
      have := congrArg List.length ht
      simp at this; omega
    refine ((h5 hne).1).2 ?_
    intro k hk
    have hh : s.table.head hne = (a : Int) := by
      rw [List.head_eq_getElem]; simp [ht]
    rw [hh]
    simp [ht]
  · obtain ⟨a, n, _, h⟩ := hcons ho; exact ⟨a, n, h⟩

/-! ### the library's own sets -/

/-- `all` covers a node as one ordered range `0 .. sitesOnNode-1` on every geometry. -/
theorem C05_all (g : Geom) (hg : g.Good) (node : Nat) (hn : node < g.nodes) (hpos : 0 < g.sites) :
    ∃ s, setMake g node allFunc 1 = ok s ∧ ∃ h : 0 < s.subs.length, s.subs[0].ordRep = true ∧
      s.subs[0].start = 0 ∧ s.subs[0].stop = (g.sites : Int) - 1 := by
  obtain ⟨s, h1, h2, h3, h4, h5⟩ := C04_make g hg node hn allFunc 1 (by simp [allFunc])
  refine ⟨s, h1, by omega, ?_⟩
  have hmk : makeSub s.latColor 0 = ok s.subs[0] := by
    unfold setMake at h1
    obtain ⟨col, hc, h1⟩ := Outcome.bind_eq_ok.1 h1
    obtain ⟨subs, hsb, h1⟩ := Outcome.bind_eq_ok.1 h1
    simp only [pure_def, Outcome.ok.injEq] at h1
    subst h1
    have := (mapO_eq_ok hsb).2 0 (by simp) (by simp at h3; omega)
    simpa using this
  have htab : s.subs[0].table = (List.range' 0 g.sites).map Int.ofNat := by
    obtain ⟨s', k1, k2, _⟩ := makeSub_eq s.latColor 0
    rw [hmk] at k1
    injection k1 with k1
    rw [k1, k2]
    congr 1
    have : ∀ (col : List Nat) (l : Nat), (∀ c ∈ col, c = 0) → sitesFrom 0 col l = List.range' l col.length := by
      intro col
      induction col with
      | nil => intro l _; simp [sitesFrom]
      | cons c cs ih =>
        intro l h
        simp only [List.mem_cons, forall_eq_or_imp] at h
        simp [sitesFrom, h.1, ih _ h.2, List.range'_succ]
    rw [this _ _ ?_, h2]
    intro c hc
    obtain ⟨i, hi, rfl⟩ := List.mem_iff_getElem.1 hc
    have := (h4 i hi).2
    omega
  have ho := (C05_ordered _ _ _ hmk).1.2 ⟨0, g.sites, hpos, htab⟩
  refine ⟨ho, ?_⟩
  obtain ⟨a, n, e1, e2, e3⟩ := (C05_ordered _ _ _ hmk).2.1 ho
  rw [htab] at e1
  have hlen := congrArg List.length e1
  simp at hlen
  subst hlen
  have h0 : 0 < ((List.range' 0 g.sites).map Int.ofNat).length := by simpa using hpos
  have e0 := List.getElem_of_eq e1 h0
  simp at e0
  rw [e2, e3]
  omega

/-- With the two-colour ordering the red/black subsets are the two contiguous halves of every node. -/
theorem C05_rb_cb2 (L S : List Nat) (s0 : Nat) (m : Machine) (hm : m.Good) (hcut : Cut L m.size (s0 :: S))
    (heven : s0 % 2 = 0) (hS : ∀ s ∈ s0 :: S, 0 < s) (hv : nsites L < 2 ^ 31) (node : Nat) (hn : node < nsites m.size) :
    ∃ s, setMake (geomCB2 L m (s0 :: S)) node rbFunc 2 = ok s ∧ ∃ h : s.subs.length = 2,
      (s.subs[0].ordRep = true ∧ s.subs[0].start = 0 ∧ s.subs[0].stop = (nsites (s0 :: S) / 2 : Nat) - 1) ∧
      (s.subs[1].ordRep = true ∧ s.subs[1].start = (nsites (s0 :: S) / 2 : Nat) ∧
        s.subs[1].stop = (nsites (s0 :: S) : Int) - 1) := by
  have hg := C02_cb2 L S s0 m hm hcut heven hS hv
  have hhalf := C03_halves s0 S heven
  have hpos : 0 < nsites (s0 :: S) := nsites_pos hS
  obtain ⟨s, h1, h2, h3, h4, h5⟩ := C04_make _ hg node hn rbFunc 2 (by
    intro c _; simp only [rbFunc, and_one]; omega)
  refine ⟨s, h1, h3, ?_⟩
  have hmk : ∀ k (hk : k < s.subs.length), makeSub s.latColor k = ok s.subs[k] := by
    intro k hk
    unfold setMake at h1
    obtain ⟨col, hc, h1⟩ := Outcome.bind_eq_ok.1 h1
    obtain ⟨subs, hsb, h1⟩ := Outcome.bind_eq_ok.1 h1
    simp only [pure_def, Outcome.ok.injEq] at h1
    subst h1
    simp only at hk h3
    have := (mapO_eq_ok hsb).2 k (by simp; omega) (by omega)
    simpa using this
  have hpar : ∀ i k, i < nsites (s0 :: S) → k < 2 → (ColourAt (geomCB2 L m (s0 :: S)) node rbFunc i k ↔
      k = if i < nsites (s0 :: S) / 2 then 0 else 1) := by
    intro i k hi hk
    obtain ⟨c, hc1, _⟩ := hg.2 node i hn hi
    have hp := C03_par_cb2 L S s0 m hm hcut heven hS hv node i hn hi c hc1
    constructor
    · rintro ⟨c', hc', hk'⟩
      rw [hc1] at hc'; injection hc' with hc'; subst hc'
      simp only [rbFunc, and_one] at hk'
      split <;> omega
    · intro hk'
      refine ⟨c, hc1, ?_⟩
      simp only [rbFunc, and_one]
      split at hk' <;> omega
  have htab : ∀ k (hk : k < s.subs.length), ∀ a n : Nat,
      (∀ i, i < nsites (s0 :: S) → ((k = if i < nsites (s0 :: S) / 2 then 0 else 1) ↔ a ≤ i ∧ i < a + n)) →
      a + n ≤ nsites (s0 :: S) → s.subs[k].table = (List.range' a n).map Int.ofNat := by
    intro k hk a n hchar hle
    have hk2 : k < 2 := by omega
    obtain ⟨-, hsorted, hmem⟩ := h5 k hk
    have hsr : ((List.range' a n).map Int.ofNat).Pairwise (· < ·) := by
      rw [List.pairwise_map]
      exact (List.pairwise_lt_range' (step := 1)).imp (fun {x y} h => by simp only [Int.ofNat_eq_natCast]; omega)
    have hiff : ∀ x, x ∈ s.subs[k].table ↔ x ∈ (List.range' a n).map Int.ofNat := by
      intro x
      rw [hmem]
      simp only [List.mem_map, List.mem_range'_1]
      constructor
      · rintro ⟨i, rfl, hi, hcol⟩
        have hi : i < nsites (s0 :: S) := hi
        exact ⟨i, (hchar i hi).1 ((hpar i k hi hk2).1 hcol), rfl⟩
      · rintro ⟨i, ⟨hi1, hi2⟩, rfl⟩
        have hi : i < nsites (s0 :: S) := by omega
        exact ⟨i, rfl, hi, (hpar i k hi hk2).2 ((hchar i hi).2 ⟨hi1, hi2⟩)⟩
    exact List.Perm.eq_of_pairwise (fun a b _ _ h1 h2 => by omega) hsorted hsr
      ((List.perm_ext_iff_of_nodup (hsorted.imp (fun h => by omega)) (hsr.imp (fun h => by omega))).2 hiff)
  have fin : ∀ k (hk : k < s.subs.length) (a n : Nat), 0 < n → s.subs[k].table = (List.range' a n).map Int.ofNat →
      s.subs[k].ordRep = true ∧ s.subs[k].start = a ∧ s.subs[k].stop = (a : Int) + n - 1 := by
    intro k hk a n hn' ht
    have ho := (C05_ordered _ _ _ (hmk k hk)).1.2 ⟨a, n, hn', ht⟩
    obtain ⟨a', n', e1, e2, e3⟩ := (C05_ordered _ _ _ (hmk k hk)).2.1 ho
    rw [ht] at e1
    have hl := congrArg List.length e1
    simp at hl; subst hl
    have e0 := List.getElem_of_eq e1 (show 0 < ((List.range' a n).map Int.ofNat).length by simpa using hn')
    simp at e0
    exact ⟨ho, by rw [e2]; omega, by rw [e3]; omega⟩
  have t0 := htab 0 (by omega) 0 (nsites (s0 :: S) / 2) (by intro i hi; split <;> omega) (by omega)
  have t1 := htab 1 (by omega) (nsites (s0 :: S) / 2) (nsites (s0 :: S) / 2) (by intro i hi; split <;> omega) (by omega)
  have f0 := fin 0 (by omega) _ _ (by omega) t0
  have f1 := fin 1 (by omega) _ _ (by omega) t1
  refine ⟨⟨f0.1, f0.2.1, ?_⟩, f1.1, f1.2.1, ?_⟩
  · rw [f0.2.2]; omega
  · rw [f1.2.2]; omega

/-! ### witnesses -/

example : (∀ c, InRange c [4, 3] → 0 ≤ rbFunc c ∧ rbFunc c < (2 : Nat)) := by
  intro c _; simp only [rbFunc, and_one]; omega
example : makeSub [0, 1, 1, 0, 1] 1 = ok ⟨false, -1, -1, [1, 2, 4], 1⟩ := by decide
example : makeSub [0, 1, 1, 1, 0] 1 = ok ⟨true, 1, 3, [1, 2, 3], 1⟩ := by decide
example : makeSub [0, 0] 1 = ok ⟨false, -1, -1, [], 1⟩ := by decide
example : setMake (geomCB2 [4, 2] (lexMachine [1, 1]) [4, 2]) 0 rbFunc 2 =
    ok ⟨[0, 0, 0, 0, 1, 1, 1, 1], [⟨true, 0, 3, [0, 1, 2, 3], 0⟩, ⟨true, 4, 7, [4, 5, 6, 7], 1⟩]⟩ := by decide

end Verif.Subset
