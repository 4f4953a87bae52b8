import Verif.VecNodes
/-
Lemmas: the pieces of a field in vectors and the same pieces laid flat.
-/
namespace Verif.VecNodes
open Verif Outcome Verif.Layout Verif.ParLayout Verif.Subset Verif.ParMap Verif.Network Verif.PeekPoke Verif.Shift
open Verif.LatticeIO (foldO foldO_range_id)
open Verif.Spmd (SubsetOf one addAll latticeSum source)
open Verif.Vec (getAt setAt Shape Site getAt_site setAt_ok fill_ok site_ext rd_eq_ok_iff)

section
variable {V : Type}

theorem flat_length {k n : Nat} {F : List (List V)} (h : Shape k n F) : F.flatten.length = n * 2 ^ k := by
  obtain ⟨h1, h2⟩ := h
  subst h1
  induction F with
  | nil => simp
  | cons v F ih =>
    rw [List.flatten_cons, List.length_append, h2 v (by simp), ih (fun w hw => h2 w (by simp [hw])), List.length_cons, Nat.succ_mul, Nat.add_comm]

/-- the vectors one after the other -/
theorem flat_site {k n : Nat} {F : List (List V)} (h : Shape k n F) (i : Nat) (x : V) : F.flatten[i]? = some x ↔ Site k F i x := by
  have hp := Nat.two_pow_pos k
  obtain ⟨h1, h2⟩ := h
  clear h1
  unfold Site
  induction F generalizing i with
  | nil => simp
  | cons v F ih =>
    have hv := h2 v (by simp)
    rw [List.flatten_cons]
    by_cases hi : i < 2 ^ k
    · rw [List.getElem?_append_left (by rw [hv]; exact hi), Nat.div_eq_of_lt hi, Nat.mod_eq_of_lt hi]
      simp
    · have hih := ih (i - 2 ^ k) (fun w hw => h2 w (by simp [hw]))
      rw [List.getElem?_append_right (by rw [hv]; omega), hv]
      refine hih.trans ?_
      have e1 : i / 2 ^ k = (i - 2 ^ k) / 2 ^ k + 1 := by
        conv_lhs => rw [show i = i - 2 ^ k + 2 ^ k from by omega]
        exact Nat.add_div_right _ hp
      have e2 : i % 2 ^ k = (i - 2 ^ k) % 2 ^ k := by
        conv_lhs => rw [show i = i - 2 ^ k + 2 ^ k from by omega]
        exact Nat.add_mod_right _ _
      rw [e1, e2, List.getElem?_cons_succ]

variable {g : Geom} (h4 : 4 ∣ g.sites)

include h4 in
theorem sites4 : g.sites / 4 * 2 ^ 2 = g.sites := Nat.div_mul_cancel h4

include h4 in
/-- the same field -/
theorem holds_flat {F : Nat → List (List V)} {f : List Nat → V} (h : Holds g F f) : PeekPoke.Holds g (fun n => (F n).flatten) f := by
  intro n hn
  obtain ⟨h1, h2⟩ := h n hn
  exact ⟨by rw [flat_length h1, sites4 h4], fun i c hi e => (flat_site h1 i _).2 (h2 i c hi e)⟩

include h4 in
theorem pack_eq {F : List (List V)} (h : Shape 2 (g.sites / 4) F) : pack g.sites F = ok F.flatten := by
  refine Vec.mapO_of (by rw [flat_length h, sites4 h4, List.length_range]) ?_
  intro i hi hi'
  rw [List.getElem_range]
  exact getAt_site.2 ((flat_site h i _).1 (List.getElem?_eq_getElem hi'))

include h4 in
theorem unpack_ok {xs : List V} (hx : xs.length = g.sites) {d : List (List V)} (h : Shape 2 (g.sites / 4) d) :
    ∃ d', unpack g.sites xs d = ok d' ∧ Shape 2 (g.sites / 4) d' ∧ ∀ i x, xs[i]? = some x → Site 2 d' i x := by
  by_cases hn : g.sites = 0
  · refine ⟨d, by rw [unpack, hn]; rfl, h, fun i x hi => ?_⟩
    rw [List.length_eq_zero_iff.1 (hx.trans hn)] at hi
    simp at hi
  · have hne : xs ≠ [] := by intro h; rw [h] at hx; exact hn hx.symm
    obtain ⟨d', e1, e2, e3, -⟩ := fill_ok (k := 2) (h := fun i => xs.getD i (xs.head hne)) (tab := List.range g.sites) (body := fun d i => do
      let x ← rd xs i; setAt 2 d i x) h (fun i hi => by rw [sites4 h4]; exact List.mem_range.1 hi) (by
        intro G i hi
        have hi' : i < xs.length := by rw [hx]; exact List.mem_range.1 hi
        show (do let x ← rd xs i; setAt 2 G i x) = _
        rw [rd_of_lt hi', ok_bind, List.getD_eq_getElem?_getD, List.getElem?_eq_getElem hi', Option.getD_some])
    refine ⟨d', e1, e2, fun i x hi => ?_⟩
    have hi' : i < xs.length := (List.getElem?_eq_some_iff.1 hi).1
    have := e3 i (List.mem_range.2 (by rw [← hx]; exact hi'))
    rwa [List.getD_eq_getElem?_getD, hi, Option.getD_some] at this

include h4 in
/-- the gather of four sites at a time is the copy of one after the other -/
theorem applyMap_unpack {goff : List Nat} (hl : goff.length = g.sites) {F d : List (List V)} (hF : Shape 2 (g.sites / 4) F) (hd : Shape 2 (g.sites / 4) d)
    {xs : List V} (hx : mapO (fun i => do let j ← rd goff i; rd F.flatten j) (List.range goff.length) = ok xs) :
    Vec.applyMap g.sites goff F d = unpack g.sites xs d := by
  obtain ⟨x1, x2⟩ := mapO_eq_ok hx
  rw [List.length_range, hl] at x1
  obtain ⟨d1, a1, a2, a3⟩ := unpack_ok h4 x1 hd
  rw [a1]
  by_cases hn : g.sites = 0
  · have : d1 = d := by
      have hz : g.sites / 4 = 0 := by omega
      rw [hz] at a2 hd
      rw [List.length_eq_zero_iff.1 a2.1, List.length_eq_zero_iff.1 hd.1]
    rw [this, hn]; rfl
  have hne : xs ≠ [] := by intro h; rw [h] at x1; exact hn x1.symm
  obtain ⟨d2, b1, b2, b3⟩ := Vec.applyMap_ok (n := g.sites / 4) (goff := goff) (l := F) (d := d) (h := fun i => xs.getD i (xs.head hne)) (by
    intro i hi
    rw [Nat.div_mul_cancel h4] at hi
    have := x2 i (by rw [List.length_range, hl]; exact hi) (by rw [x1]; exact hi)
    rw [List.getElem_range] at this
    obtain ⟨j, j1, j2⟩ := bind_eq_ok.1 this
    refine ⟨j, j1, ?_⟩
    rw [List.getD_eq_getElem?_getD, List.getElem?_eq_getElem (by rw [x1]; exact hi), Option.getD_some]
    exact (flat_site hF j _).1 (rd_eq_ok_iff.1 j2)) hd
  rw [Nat.div_mul_cancel h4] at b1
  rw [b1]
  congr 1
  refine (site_ext a2 b2 ?_).symm
  intro i hi x hs
  rw [sites4 h4] at hi
  have e := a3 i _ (List.getElem?_eq_getElem (by rw [x1]; exact hi))
  rw [hs.unique e]
  have := b3 i (by rw [Nat.div_mul_cancel h4]; exact hi)
  rwa [List.getD_eq_getElem?_getD, List.getElem?_eq_getElem (by rw [x1]; exact hi), Option.getD_some] at this

include h4 in
/-- a map of vectors is the map of the flat pieces -/
theorem mapNode_flat {R : Type} (hg : g.Good) {func : List Nat → Int → Outcome (List Nat)} {φ ψ : List Nat → List Nat} (hp : IsPerm g.L func φ ψ)
    (hacc : ∀ n, n < g.nodes → ∃ t, make g n func = ok t) (F d : Nat → List (List V)) (hF : ∀ n, n < g.nodes → Shape 2 (g.sites / 4) (F n))
    (hd : ∀ n, n < g.nodes → Shape 2 (g.sites / 4) (d n)) (k : List (List V) → Proc (List V) R) {n : Nat} (hn : n < g.nodes) :
    mapNode g n func (F n) (d n) k = Spmd.mapNode g n func (F n).flatten fun xs => after (unpack g.sites xs (d n)) k := by
  have hex : ∀ n, ∃ t : MapTab, n < g.nodes → make g n func = ok t := by
    intro n
    by_cases hn : n < g.nodes
    · obtain ⟨t, ht⟩ := hacc n hn; exact ⟨t, fun _ => ht⟩
    · exact ⟨⟨[], [], [], false, [], [], [], [], []⟩, fun h => (hn h).elim⟩
  choose T hT using hex
  obtain ⟨ds, e1, e2, -⟩ := apply_spec hg hp hT (D := fun n => (F n).flatten) (fun n hn => by rw [flat_length (hF n hn), sites4 h4]) hn
  obtain ⟨t1, -, -, -⟩ := make_ok hg hp hn (hT n hn)
  unfold mapNode Spmd.mapNode
  rw [hT n hn]
  simp only [after]
  by_cases ho : (T n).offnodeP = true
  · rw [if_pos ho, if_pos ho, pack_eq h4 (hF n hn)]
  · rw [if_neg ho, if_neg ho]
    unfold apply at e1
    simp only [ho, Bool.false_eq_true, if_false] at e1
    rw [applyMap_unpack h4 (by rw [t1]; simp [offList]) (hF n hn) (hd n hn) e1, e1]

include h4 in
theorem map_all {R : Type} (net : Net) (hg : g.Good) (func : List Nat → Int → Outcome (List Nat)) (φ ψ : List Nat → List Nat)
    (hp : IsPerm g.L func φ ψ) (hacc : ∀ n, n < g.nodes → ∃ t, make g n func = ok t) (F d : Nat → List (List V)) (f : List Nat → V) (hF : Holds g F f)
    (hd : ∀ n, n < g.nodes → Shape 2 (g.sites / 4) (d n))
    (s : State (List V) R) (k : Nat → List (List V) → Proc (List V) R) (e : Nat) (h : At g.nodes s (fun n => mapNode g n func (F n) (d n) (k n)) e) :
    ∃ m t G, Run net g.nodes m s t ∧ At g.nodes t (fun n => k n (G n)) e ∧ Holds g G (fun c => f (source func c)) := by
  obtain ⟨m, t, X, hr, ht, hX⟩ := Spmd.map_all net g hg func φ ψ hp hacc (fun n => (F n).flatten) f (holds_flat h4 hF) s
    (fun n xs => after (unpack g.sites xs (d n)) (k n)) e
    ⟨fun n hn => by rw [h.proc n hn, mapNode_flat h4 hg hp hacc F d (fun n hn => (hF n hn).1) hd (k n) hn], h.queue, h.log⟩
  have hex : ∀ n, ∃ G, n < g.nodes → unpack g.sites (X n) (d n) = ok G ∧ Shape 2 (g.sites / 4) G ∧ ∀ i x, (X n)[i]? = some x → Site 2 G i x := by
    intro n
    by_cases hn : n < g.nodes
    · obtain ⟨G, hG⟩ := unpack_ok h4 (hX n hn).1 (hd n hn); exact ⟨G, fun _ => hG⟩
    · exact ⟨[], fun h => (hn h).elim⟩
  choose G hG using hex
  refine ⟨m, t, G, hr, ⟨fun n hn => ?_, ht.queue, ht.log⟩, fun n hn => ⟨(hG n hn).2.1, fun i c hi ec => (hG n hn).2.2 i _ ((hX n hn).2 i c hi ec)⟩⟩
  rw [ht.proc n hn]
  simp only [(hG n hn).1, after]

include h4 in
theorem peekLocal_flat [Zero V] (me nodenum : Nat) {F : List (List V)} (hF : Shape 2 (g.sites / 4) F) (hg : g.Good) (c : List Nat) (hc : InRange c g.L) :
    (do let v ← peekLocal g me nodenum F c; return [v]) = PeekPoke.peekLocal g [0] me nodenum (F.flatten.map fun v => [v]) c := by
  unfold peekLocal PeekPoke.peekLocal
  obtain ⟨-, i, -, -, e2, hi, -⟩ := hg.1 c hc
  split
  · rw [e2, ok_bind]
    have hi' : i < F.flatten.length := by rw [flat_length hF, sites4 h4]; exact hi
    rw [ok_bind, getAt_site.2 ((flat_site hF i _).1 (List.getElem?_eq_getElem hi')), ok_bind, rd_of_lt (by rw [List.length_map]; exact hi'), List.getElem_map]
    rfl
  · rfl

include h4 in
theorem peek_all [Zero V] {R : Type} (net : Net) (hg : g.Good) (h0 : 0 < g.nodes) (F : Nat → List (List V)) (f : List Nat → V) (hF : Holds g F f)
    (c : List Nat) (hc : InRange c g.L) (s : State (List V) R) (k : Nat → V → Proc (List V) R) (e : Nat)
    (h : At g.nodes s (fun n => peekSite g n (F n) c (k n)) e) :
    ∃ m t, Run net g.nodes m s t ∧ At g.nodes t (fun n => k n (f c)) (e + 1) := by
  obtain ⟨m, t, hr, ht⟩ := PeekPoke.peek_all net g hg h0 [0] (fun n => (F n).flatten.map fun v => [v]) (fun c => [f c])
    (fun n hn => ⟨by rw [List.length_map]; exact (holds_flat h4 hF n hn).1, fun i c' hi e' => by rw [List.getElem?_map, (holds_flat h4 hF n hn).2 i c' hi e']; rfl⟩) c hc s
    (fun n m => after (one m) (k n)) e
    ⟨fun n hn => by
      rw [h.proc n hn]
      unfold peekSite PeekPoke.peekSite
      obtain ⟨node, -, e1, -⟩ := hg.1 c hc
      rw [e1]
      simp only [after]
      have := peekLocal_flat h4 n node (hF n hn).1 hg c hc
      rw [← this]
      cases peekLocal g n node (F n) c <;> rfl, h.queue, h.log⟩
  exact ⟨m, t, hr, ⟨fun n hn => by rw [ht.proc n hn]; rfl, ht.queue, ht.log⟩⟩

include h4 in
theorem poke_all (hg : g.Good) (F : Nat → List (List V)) (f : List Nat → V) (hF : Holds g F f) (c : List Nat) (hc : InRange c g.L) (v : V) :
    ∃ F', (∀ n, n < g.nodes → pokeSite g n (F n) v c = ok (F' n)) ∧ Holds g F' (fun c' => if c' = c then v else f c') := by
  obtain ⟨node, i, e1, hn, e2, hi, e3⟩ := hg.1 c hc
  obtain ⟨G, g1, g2, g3, g4⟩ := setAt_ok (hF node hn).1 (i := i) (by rw [sites4 h4]; exact hi) v
  refine ⟨fun n => if n = node then G else F n, fun n hn' => ?_, fun n hn' => ?_⟩
  · unfold pokeSite
    rw [e1, ok_bind]
    by_cases h1 : n = node
    · subst h1; rw [if_pos rfl, e2, ok_bind, g1]; simp only [if_true]
    · rw [if_neg h1]; simp only [if_neg h1]
  · by_cases h1 : n = node
    · subst h1
      simp only [if_true]
      refine ⟨g2, fun j c' hj ec => ?_⟩
      by_cases hij : j = i
      · subst hij
        rw [e3] at ec; injection ec with ec
        rw [if_pos ec.symm]; exact g3
      · rw [g4 j hij, if_neg]
        · exact (hF n hn).2 j c' hj ec
        · rintro rfl
          obtain ⟨c2, a1, -, -, a4⟩ := hg.2 n j hn hj
          rw [ec] at a1; injection a1 with a1; subst a1
          rw [e2] at a4; injection a4 with a4
          exact hij a4.symm
    · simp only [h1, if_false]
      refine ⟨(hF n hn').1, fun j c' hj ec => ?_⟩
      rw [if_neg]
      · exact (hF n hn').2 j c' hj ec
      · rintro rfl
        obtain ⟨c2, a1, -, a3, -⟩ := hg.2 n j hn' hj
        rw [ec] at a1; injection a1 with a1; subst a1
        rw [e1] at a3; injection a3 with a3
        exact h1 a3.symm

include h4 in
theorem coord_all (hg : g.Good) (mu : Nat) (conv : Nat → V) (hmu : mu < g.L.length) (d : Nat → List (List V)) (hd : ∀ n, n < g.nodes → Shape 2 (g.sites / 4) (d n)) :
    ∃ G : Nat → List (List V), (∀ n, n < g.nodes → latticeCoordinate g n mu conv (d n) = ok (G n)) ∧ Holds g G (fun c => conv (c.getD mu 0)) := by
  have hex : ∀ n, ∃ G, n < g.nodes → latticeCoordinate g n mu conv (d n) = ok G ∧ Shape 2 (g.sites / 4) G ∧
      ∀ i, i < g.sites → Site 2 G i (conv ((co g n i).getD mu 0)) := by
    intro n
    by_cases hn : n < g.nodes
    · obtain ⟨G, e1, e2, e3, -⟩ := fill_ok (k := 2) (h := fun i => conv ((co g n i).getD mu 0)) (tab := List.range g.sites) (body := fun d i => do
        let c ← g.siteCoords n i
        let x ← rd c mu
        setAt 2 d i (conv x)) (hd n hn) (fun i hi => by rw [sites4 h4]; exact List.mem_range.1 hi) (by
          intro G i hi
          obtain ⟨c1, c2, -⟩ := co_spec hg hn (List.mem_range.1 hi)
          have hl : mu < (co g n i).length := by rw [c2.length_eq]; exact hmu
          show (do let c ← g.siteCoords n i; let x ← rd c mu; setAt 2 G i (conv x)) = _
          rw [c1, ok_bind, Sums.rd_getD hl 0, ok_bind])
      exact ⟨G, fun _ => ⟨by rw [latticeCoordinate, if_neg (by omega), e1], e2, fun i hi => e3 i (List.mem_range.2 hi)⟩⟩
    · exact ⟨[], fun h => (hn h).elim⟩
  choose G hG using hex
  refine ⟨G, fun n hn => (hG n hn).1, fun n hn => ⟨(hG n hn).2.1, fun i c hi ec => ?_⟩⟩
  have := (hG n hn).2.2 i hi
  rwa [show co g n i = c from by simp [co, ec]] at this

include h4 in
theorem zero_all [Zero V] (d : Nat → List (List V)) (hd : ∀ n, n < g.nodes → Shape 2 (g.sites / 4) (d n)) :
    ∃ G : Nat → List (List V), (∀ n, n < g.nodes → zeroRep (g.sites / 4) (d n) = ok (G n)) ∧ Holds g G (fun _ => 0) := by
  have hex : ∀ n, ∃ G, n < g.nodes → zeroRep (g.sites / 4) (d n) = ok G ∧ Shape 2 (g.sites / 4) G ∧ ∀ i, i < g.sites → Site 2 G i (0 : V) := by
    intro n
    by_cases hn : n < g.nodes
    · obtain ⟨G, e1, e2, e3⟩ := Vec.outerLoop (k := 2) (h := fun _ => (0 : V)) (body := fun F i => wrElem F i (List.replicate 4 0)) (hd n hn) (by
        intro G o ho hG _
        rw [wrElem, if_pos (by rw [hG.1]; exact ho)]
        congr 2)
      exact ⟨G, fun _ => ⟨e1, e2, fun i hi => e3 i (by rw [sites4 h4]; exact hi)⟩⟩
    · exact ⟨[], fun h => (hn h).elim⟩
  choose G hG using hex
  exact ⟨G, fun n hn => (hG n hn).1, fun n hn => ⟨(hG n hn).2.1, fun i c hi _ => (hG n hn).2.2 i hi⟩⟩

include h4 in
theorem copymask_all [Zero V] (test : V → Bool) (F M S : Nat → List (List V)) (f m s : List Nat → V) (hF : Holds g F f) (hM : Holds g M m)
    (hS : Holds g S s) : ∃ G : Nat → List (List V), (∀ n, n < g.nodes → copymask test (g.sites / 4) (F n) (M n) (S n) = ok (G n)) ∧
      Holds g G (fun c => if test (m c) then s c else f c) := by
  have hex : ∀ n, ∃ G, n < g.nodes → copymask test (g.sites / 4) (F n) (M n) (S n) = ok G ∧ Shape 2 (g.sites / 4) G ∧
      ∀ i, i < g.sites → Site 2 G i (if test (Vec.val 2 (M n) i) then Vec.val 2 (S n) i else Vec.val 2 (F n) i) := by
    intro n
    by_cases hn : n < g.nodes
    · obtain ⟨G, e1, e2, e3⟩ := Vec.outerLoop (k := 2) (h := fun i => if test (Vec.val 2 (M n) i) then Vec.val 2 (S n) i else Vec.val 2 (F n) i)
        (body := fun F i => do
          let d ← rd F i
          let m ← rd (M n) i
          let s ← rd (S n) i
          let w ← Vec.inner3 (fun d m s => if test m then s else d) 4 d m s
          wrElem F i w) (hF n hn).1 (by
        intro G o ho hG hGo
        rw [rd_eq_ok_iff.2 (hGo.trans (Vec.elem_eq (hF n hn).1 ho)), ok_bind, rd_eq_ok_iff.2 (Vec.elem_eq (hM n hn).1 ho), ok_bind,
          rd_eq_ok_iff.2 (Vec.elem_eq (hS n hn).1 ho), ok_bind, show (4 : Nat) = 2 ^ 2 from rfl, Vec.inner3_eq, ok_bind, wrElem, if_pos (by rw [hG.1]; exact ho)])
      exact ⟨G, fun _ => ⟨e1, e2, fun i hi => e3 i (by rw [sites4 h4]; exact hi)⟩⟩
    · exact ⟨[], fun h => (hn h).elim⟩
  choose G hG using hex
  refine ⟨G, fun n hn => (hG n hn).1, fun n hn => ⟨(hG n hn).2.1, fun i c hi ec => ?_⟩⟩
  have := (hG n hn).2.2 i hi
  rwa [Vec.val_of_site ((hF n hn).2 i c hi ec), Vec.val_of_site ((hM n hn).2 i c hi ec), Vec.val_of_site ((hS n hn).2 i c hi ec)] at this

/-! ### sums -/

theorem inst_shape {s : Local V} {n : Nat} (h : ∀ x, Shape 2 n (s x)) : ∀ e : Ex V, Vec.shapeE 2 n (e.inst s)
  | .fld x => h x
  | .op1 _ a => inst_shape h a
  | .op2 _ a b => ⟨inst_shape h a, inst_shape h b⟩

theorem inst_val [Zero V] {s : Local V} {f : Nat → List Nat → V} {i : Nat} {c : List Nat} (h : ∀ x, Site 2 (s x) i (f x c)) :
    ∀ e : Ex V, Vec.valE 2 (e.inst s) i = e.at f c
  | .fld x => Vec.val_of_site (h x)
  | .op1 op a => by rw [Ex.inst, Vec.valE, inst_val h a]; rfl
  | .op2 op a b => by rw [Ex.inst, Vec.valE, inst_val h a, inst_val h b]; rfl

/-- the subset on a node -/
theorem subOf_ok (hg : g.Good) {n : Nat} (hn : n < g.nodes) {sub : SubsetOf} (hs : sub.Legal g.L) :
    ∃ (col : List Nat) (t : Sub), subOf g n sub = ok t ∧ col.length = g.sites ∧ makeSub col sub.cb = ok t ∧ sitesFrom sub.cb col 0 = subSites g n sub := by
  obtain ⟨ts, h1, h2, h3⟩ := Spmd.table_spec hg hn hs
  have hts : ts = subSites g n sub := Spmd.sorted_ext h2 (List.pairwise_lt_range.filter _) (fun i => by simp [h3 i, subSites])
  unfold Spmd.table at h1
  obtain ⟨S, s1, h1'⟩ := bind_eq_ok.1 h1
  obtain ⟨t, s2, h1''⟩ := bind_eq_ok.1 h1'
  obtain ⟨S', r1, r2, -⟩ := C04_make g hg n hn sub.fn sub.nsub hs.2
  rw [s1] at r1; injection r1 with r1; subst r1
  have s1' := s1
  unfold setMake at s1'
  obtain ⟨col, c1, s1'⟩ := bind_eq_ok.1 s1'
  obtain ⟨subs, c2, s1'⟩ := bind_eq_ok.1 s1'
  injection s1' with s1'
  subst s1'
  obtain ⟨m1, m2⟩ := mapO_eq_ok c2
  have hk : sub.cb < subs.length := by rw [m1, List.length_range]; exact hs.1
  have hmk := m2 sub.cb (by rw [List.length_range]; exact hs.1) hk
  rw [List.getElem_range] at hmk
  rw [rd_of_lt hk] at s2
  injection s2 with s2
  rw [s2] at hmk
  refine ⟨col, t, by rw [subOf, s1, ok_bind, rd_of_lt hk, s2], r2, hmk, ?_⟩
  obtain ⟨t', q1, q2, -⟩ := makeSub_eq col sub.cb
  rw [hmk] at q1; injection q1 with q1; subst q1
  injection h1'' with h1''
  rw [q2] at h1''
  rw [← hts]
  exact List.map_injective_iff.2 (fun a b h => by simpa using h) h1''

include h4 in
/-- what the loop of a sum adds up on a node -/
theorem sumOver_covered [AddCommMonoid V] (hg : g.Good) {n : Nat} (hn : n < g.nodes) {sub : SubsetOf} (hs : sub.Legal g.L) (e : Vec.Expr V)
    (he : Vec.shapeE 2 (g.sites / 4) e) :
    ∃ t, subOf g n sub = ok t ∧ Vec.sumOver 2 e t = ok (((covered g n sub).map (Vec.valE 2 e)).sum) := by
  obtain ⟨col, t, h1, h2, h3, h5⟩ := subOf_ok hg hn hs
  refine ⟨t, h1, ?_⟩
  have hcol : col.length = g.sites / 4 * 2 ^ 2 := by rw [h2, sites4 h4]
  by_cases ho : t.ordRep = true
  · obtain ⟨a, b, hab, hbn, ht, -, -, hsum⟩ := Vec.C100_sum_covers 2 (g.sites / 4) e he col hcol sub.cb t h3 ho
    rw [hsum]
    congr 1
    rw [h5] at ht
    have hcov : covered g n sub = (List.range g.sites).filter fun i => (subSites g n sub).any fun j => j / 4 == i / 4 := by
      unfold covered
      rw [if_pos]
      rw [ht]
      have : List.range' a (b + 1 - a) = a :: List.range' (a + 1) (b - a) := by
        rw [show b + 1 - a = (b - a) + 1 from by omega, List.range'_succ]
      rw [show (List.range' a (b + 1 - a)).headD 0 = a from by rw [this]; rfl, List.length_range']
    rw [hcov, ← List.sum_toFinset _ (List.nodup_range.filter _)]
    apply Finset.sum_congr _ (fun _ _ => rfl)
    ext i
    rw [List.mem_toFinset, List.mem_filter, List.mem_range, List.any_eq_true, Finset.mem_Ico, ht]
    rw [sites4 h4] at hbn
    have h4' := Nat.div_mul_cancel h4
    constructor
    · rintro ⟨k1, k2⟩
      have e1 : 2 ^ 2 = 4 := rfl
      rw [e1] at k1 k2
      refine ⟨by omega, if i < a then a else if b < i then b else i, ?_, ?_⟩
      · rw [List.mem_range'_1]; split_ifs <;> omega
      · rw [beq_iff_eq]; split_ifs <;> omega
    · rintro ⟨k1, j, k2, k3⟩
      rw [List.mem_range'_1] at k2
      rw [beq_iff_eq] at k3
      have e1 : 2 ^ 2 = 4 := rfl
      rw [e1]
      omega
  · have ho' : t.ordRep = false := by simpa using ho
    rw [Vec.C100_sum_partial 2 (g.sites / 4) e he col hcol sub.cb t h3 (Or.inl ho'), h5]
    have hcov : covered g n sub = subSites g n sub := by
      unfold covered
      split
      · rename_i hc
        have hl : (subSites g n sub).length = 0 := by
          by_contra hl
          obtain ⟨c1, -, -⟩ := C05_ordered col sub.cb t h3
          obtain ⟨t', q1, q2, -⟩ := makeSub_eq col sub.cb
          rw [h3] at q1; injection q1 with q1; subst q1
          exact ho (c1.2 ⟨_, _, Nat.pos_of_ne_zero hl, by rw [q2, h5]; exact congrArg _ hc⟩)
        rw [List.length_eq_zero_iff.1 hl]
        simp
      · rfl
    rw [hcov]

end
end Verif.VecNodes
