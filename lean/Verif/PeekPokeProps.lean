import Verif.PeekPoke
import Verif.Subset
/-
Property C85: on any machine a program of `peekSite` and `pokeSite` behaves as on one field that is a function of the coordinates.
-/
namespace Verif.PeekPoke
open Verif Outcome Verif.Layout Verif.ParLayout Verif.Network

/-- C85.  Every node of a machine runs the same program of peeks and pokes.  In whatever order the nodes proceed and however far the calls of the message
passing wait for each other: every execution comes to an end, no node is left waiting, every node ends with the result the program has on the one field `f`, and
the pieces on the nodes are then those of the field after the program. -/
theorem C85_peek_poke {V R : Type} (net : Net) (g : Geom) (hg : g.Good) (h0 : 0 < g.nodes) (zero : V) (p : Prog V R) (F : Nat → List V)
    (f : List Nat → V) (hF : Holds g F f) (hp : OnLattice g.L p f) :
    ∃ N : Nat, ∀ (m : Nat) (t : State V (R × List V)), Run net g.nodes m (start g zero p F) t →
      m ≤ N ∧
      (Final net g.nodes t ↔ m = N) ∧
      (Final net g.nodes t → ∃ F', (∀ n, n < g.nodes → t.proc n = .done ((run p f).1, F' n)) ∧ Holds g F' (run p f).2) := by
  have hat : At g.nodes (start g zero p F) (fun n => node g zero n p (F n)) 0 := ⟨fun _ _ => rfl, fun _ => rfl, fun _ _ => rfl⟩
  obtain ⟨N, e, F', e', hr, he, hF'⟩ := one_run net g hg h0 zero p F f _ 0 hF hp hat
  have hfin : Final net g.nodes e := final_of_done net g.nodes e _ he.proc
  refine ⟨N, fun m t ht => ?_⟩
  obtain ⟨hle, hrest⟩ := all_executions hr hfin ht
  refine ⟨hle, ⟨fun hft => (stuck_is_end hr hfin ht hft).2, ?_⟩, ?_⟩
  · rintro rfl
    rw [Nat.sub_self] at hrest
    cases hrest
    exact hfin
  · intro hft
    obtain ⟨rfl, -⟩ := stuck_is_end hr hfin ht hft
    exact ⟨F', he.proc, hF'⟩

/-- C85 on the machines of C02: lexicographic order -/
theorem C85_lexico {V R : Type} (net : Net) (L S : List Nat) (m : Machine) (hm : m.Good) (hcut : Cut L m.size S) (hne : L ≠ [])
    (hS : ∀ s ∈ S, 0 < s) (hP : ∀ p ∈ m.size, 0 < p) (hv : nsites L < 2 ^ 31) (zero : V) (p : Prog V R) (F : Nat → List V) (f : List Nat → V)
    (hF : Holds (geomLex L m S) F f) (hp : OnLattice L p f) :
    ∃ N : Nat, ∀ (k : Nat) (t : State V (R × List V)), Run net (nsites m.size) k (start (geomLex L m S) zero p F) t →
      k ≤ N ∧ (Final net (nsites m.size) t ↔ k = N) ∧
      (Final net (nsites m.size) t → ∃ F', (∀ n, n < nsites m.size → t.proc n = .done ((run p f).1, F' n)) ∧ Holds (geomLex L m S) F' (run p f).2) :=
  C85_peek_poke net (geomLex L m S) (C02_lexico L S m hm hcut hne hS hP hv) (nsites_pos hP) zero p F f hF hp

/-- C85, two-colour order -/
theorem C85_cb2 {V R : Type} (net : Net) (L S : List Nat) (s0 : Nat) (m : Machine) (hm : m.Good) (hcut : Cut L m.size (s0 :: S))
    (heven : s0 % 2 = 0) (hS : ∀ s ∈ s0 :: S, 0 < s) (hP : ∀ p ∈ m.size, 0 < p) (hv : nsites L < 2 ^ 31) (zero : V) (p : Prog V R)
    (F : Nat → List V) (f : List Nat → V) (hF : Holds (geomCB2 L m (s0 :: S)) F f) (hp : OnLattice L p f) :
    ∃ N : Nat, ∀ (k : Nat) (t : State V (R × List V)), Run net (nsites m.size) k (start (geomCB2 L m (s0 :: S)) zero p F) t →
      k ≤ N ∧ (Final net (nsites m.size) t ↔ k = N) ∧
      (Final net (nsites m.size) t → ∃ F', (∀ n, n < nsites m.size → t.proc n = .done ((run p f).1, F' n)) ∧
        Holds (geomCB2 L m (s0 :: S)) F' (run p f).2) :=
  C85_peek_poke net (geomCB2 L m (s0 :: S)) (C02_cb2 L S s0 m hm hcut heven hS hv) (nsites_pos hP) zero p F f hF hp

/-- C85 on one node, in any of the orders of C01 -/
theorem C85_one_node {V R : Type} (L : List Nat) (coords : Nat → Outcome (List Nat)) (index : List Nat → Outcome Nat)
    (h : MutuallyInverse L coords index) : ∀ (p : Prog V R) (F : List V) (f : List Nat → V), F.length = nsites L →
    (∀ i c, i < nsites L → coords i = ok c → F[i]? = some (f c)) → OnLattice L p f →
    ∃ F', node1 index p F = ok ((run p f).1, F') ∧ F'.length = nsites L ∧ ∀ i c, i < nsites L → coords i = ok c → F'[i]? = some ((run p f).2 c) := by
  intro p
  induction p with
  | ret r => intro F f hl hF _; exact ⟨F, rfl, hl, hF⟩
  | peek c k ih =>
    intro F f hl hF hp
    obtain ⟨i, e1, hi, e2⟩ := h.2 c hp.1
    obtain ⟨F', h1, h2, h3⟩ := ih (f c) F f hl hF hp.2
    refine ⟨F', ?_, h2, h3⟩
    show (do let v ← peekSite1 index F c; node1 index (k v) F) = _
    unfold peekSite1
    rw [e1, ok_bind, rd_some (hF i c hi e2), ok_bind, h1]
    rfl
  | poke c v k ih =>
    intro F f hl hF hp
    obtain ⟨i, e1, hi, e2⟩ := h.2 c hp.1
    obtain ⟨F', h1, h2, h3⟩ := ih (F.set i v) (fun c' => if c' = c then v else f c') (by simp [hl]) (by
      intro j c' hj e'
      by_cases hji : j = i
      · subst hji
        rw [e2] at e'; cases e'
        simp [List.getElem?_set, hl, hi]
      · have hcc : c' ≠ c := by
          rintro rfl
          obtain ⟨c'', a1, -, a3⟩ := h.1 j hj
          rw [e'] at a1; cases a1
          rw [e1] at a3; cases a3; exact hji rfl
        rw [List.getElem?_set_ne (Ne.symm hji), if_neg hcc]; exact hF j c' hj e') hp.2
    refine ⟨F', ?_, h2, h3⟩
    show (do let F' ← pokeSite1 index F v c; node1 index k F') = _
    unfold pokeSite1 wrElem
    rw [e1, ok_bind, if_pos (by rw [hl]; exact hi), ok_bind, h1]
    rfl

/-! ### A program on a machine of six nodes -/

/-- swap two sites, if they differ, and say what the first one held -/
def swap (a b : List Nat) : Prog Nat Nat :=
  .peek a fun x => .peek b fun y => if x = y then .ret x else .poke a y (.poke b x (.ret x))

example : ∀ f, OnLattice [4, 6] (swap [3, 5] [0, 1]) f := by
  intro f
  have h1 : InRange [3, 5] [4, 6] := ⟨by decide, by decide, trivial⟩
  have h2 : InRange [0, 1] [4, 6] := ⟨by decide, by decide, trivial⟩
  refine ⟨h1, h2, ?_⟩
  show OnLattice [4, 6] (if f [3, 5] = f [0, 1] then _ else _) f
  split
  · trivial
  · exact ⟨h1, h2, trivial⟩

/-- the coordinates of slot `i` of node `n` -/
def coordsOf (n i : Nat) : List Nat := match siteCoordsCB2 (lexMachine [2, 3]) [2, 2] n i with | .ok c => c | _ => []

example : Holds (geomCB2 [4, 6] (lexMachine [2, 3]) [2, 2]) (fun n => (List.range 4).map fun i => (coordsOf n i).sum) List.sum := by
  intro n _
  refine ⟨by simp [geomCB2, nsites], ?_⟩
  intro i c hi e
  have hi4 : i < 4 := hi
  have e' : coordsOf n i = c := by
    have : siteCoordsCB2 (lexMachine [2, 3]) [2, 2] n i = ok c := e
    unfold coordsOf; rw [this]
  rw [List.getElem?_map, List.getElem?_range hi4, ← e']; rfl

example : (run (swap [3, 5] [0, 1]) List.sum).1 = 8 ∧ (run (swap [3, 5] [0, 1]) List.sum).2 [3, 5] = 1 := by decide

/-! ### Coordinates off the lattice are not noticed -/

/-- One node, lexicographic order: a first coordinate beyond the end of its direction shows the next row, neither an error nor the site that periodicity
would give. -/
theorem C85_off_lattice {V : Type} (l0 l1 y : Nat) (hy : y + 1 < l1) (hv : l0 * l1 < 2 ^ 31) (F : List V) :
    peekSite1 (Verif.Layout.linearSiteIndexLex [l0, l1]) F [l0, y] = peekSite1 (Verif.Layout.linearSiteIndexLex [l0, l1]) F [0, y + 1] := by
  have h1 : l0 * (y + 1) ≤ l0 * l1 := Nat.mul_le_mul_left _ (by omega)
  have h2 : l0 * y + l0 = l0 * (y + 1) := by rw [Nat.mul_add, Nat.mul_one]
  have e1 : Verif.Layout.linearSiteIndexLex [l0, l1] [l0, y] = ok (l0 * (y + 1)) := by
    simp only [Verif.Layout.linearSiteIndexLex, localSite, localSiteGo, List.length_cons, List.length_nil, Nat.add_sub_cancel]
    simp only [rd, List.getElem?_cons_zero, List.getElem?_cons_succ, Nat.zero_add, ok_bind, Nat.add_zero]
    rw [ckInt_of_lt (by omega), ok_bind, ok_bind, ckInt_of_lt (by omega), h2]
  have e2 : Verif.Layout.linearSiteIndexLex [l0, l1] [0, y + 1] = ok (l0 * (y + 1)) := by
    simp only [Verif.Layout.linearSiteIndexLex, localSite, localSiteGo, List.length_cons, List.length_nil, Nat.add_sub_cancel]
    simp only [rd, List.getElem?_cons_zero, List.getElem?_cons_succ, Nat.zero_add, ok_bind, Nat.add_zero]
    rw [ckInt_of_lt (by omega), ok_bind, ok_bind, ckInt_of_lt (by omega), Nat.add_zero]
  unfold peekSite1
  rw [e1, e2]

/-- The parallel build takes each coordinate modulo the block instead: the two builds disagree about the same call. -/
theorem C85_off_lattice_par (l0 l1 y : Nat) (h0 : 0 < l0) (hy : y < l1) :
    Verif.ParLayout.linearSiteIndexLex [l0, l1] [l0, y] = Verif.ParLayout.linearSiteIndexLex [l0, l1] [0, y] := by
  unfold Verif.ParLayout.linearSiteIndexLex
  congr 1
  simp [zipMod, cmod_pos h0, cmod_pos (show 0 < l1 by omega)]

example : peekSite1 (Verif.Layout.linearSiteIndexLex [2, 2]) [10, 11, 12, 13] [2, 0] = ok 12 ∧
    peekSite1 (Verif.ParLayout.linearSiteIndexLex [2, 2]) [10, 11, 12, 13] [2, 0] = ok 10 := by decide

/-! ### Nodes that ask for different sites -/

/-- two nodes with one site each -/
def pair : Geom := geomLex [2] (lexMachine [2]) [1]

/-- both nodes ask for the site of the other -/
def crossed {V : Type} (zero : V) (F : Nat → List V) : State V V :=
  { proc := fun me => peekSite pair zero me (F me) [1 - me] fun v => .done v, queue := fun _ => [], log := fun _ => [] }

/-- If the nodes call `peekSite` with different coordinates, the machine can come to rest with both nodes waiting: then it always does. -/
theorem C85_crossed {V : Type} (net : Net) (zero : V) (F : Nat → List V) (m : Nat) (t : State V V)
    (ht : Run net 2 m (crossed zero F) t) (hf : Final net 2 t) : ∀ n, n < 2 → ∀ v, t.proc n ≠ .done v := by
  have p0 : (crossed zero F).proc 0 = .recv 1 (fun d => .bcast d fun v => .done v) := by rfl
  have p1 : (crossed zero F).proc 1 = .bcast zero (fun v => .done v) := by rfl
  let s1 : State V V := { crossed zero F with proc := Function.update (crossed zero F).proc 1 (.leave fun v => .done v), log := Function.update (fun _ => []) 1 [zero] }
  have st : Step net 2 1 (crossed zero F) s1 := by
    unfold Step; rw [p1]; exact ⟨by omega, rfl⟩
  have q0 : s1.proc 0 = .recv 1 (fun d => .bcast d fun v => .done v) := by
    simp only [s1]
    rw [Function.update_of_ne (by omega)]; exact p0
  have q1 : s1.proc 1 = .leave (fun v => .done v) := by
    simp only [s1]
    rw [Function.update_self]
  have hfin : Final net 2 s1 := by
    intro i u hs
    unfold Step at hs
    obtain ⟨hi, hs⟩ := hs
    have : i = 0 ∨ i = 1 := by omega
    rcases this with rfl | rfl
    · rw [q0] at hs
      obtain ⟨v, q, e, -⟩ := hs
      cases e
    · rw [q1] at hs
      obtain ⟨v, e, -⟩ := hs
      cases e
  obtain ⟨rfl, -⟩ := stuck_is_end (Run.step st (Run.refl _)) hfin ht hf
  intro n hn v
  have : n = 0 ∨ n = 1 := by omega
  rcases this with rfl | rfl
  · rw [q0]; simp
  · rw [q1]; simp

/-! ### Pieces of a field -/

/-- the loop of `QDP_extract`, include/qdp_parscalar_specific.h:1826-1831, with its iterations in the order `order`.  `dest[i]` does not check its index,
include/qdp_multi.h:234. -/
def extract {V : Type} (src : List V) : List Nat → List V → Outcome (List V)
  | [], dest => ok dest
  | i :: rest, dest => do
    let x ← rd src i
    let dest ← wrElem dest i x
    extract src rest dest

/-- the loop of `copymask`, include/qdp_parscalar_specific.h:470-474, with its iterations in the order `order`; the word: include/qdp_simpleword.h:82-103 -/
def copymask {V : Type} (mask : List Bool) (src : List V) : List Nat → List V → Outcome (List V)
  | [], dest => ok dest
  | i :: rest, dest => do
    let b ← rd mask i
    let x ← rd src i
    let old ← rd dest i
    let dest ← wrElem dest i (if b then x else old)
    copymask mask src rest dest

theorem extract_spec {V : Type} (src : List V) : ∀ (order : List Nat) (dest : List V), (∀ i ∈ order, i < src.length) → (∀ i ∈ order, i < dest.length) →
    ∃ r, extract src order dest = ok r ∧ r.length = dest.length ∧ ∀ i : Nat, r[i]? = if i ∈ order then src[i]? else dest[i]? := by
  intro order
  induction order with
  | nil => intro dest _ _; exact ⟨dest, rfl, rfl, fun i => by simp⟩
  | cons a rest ih =>
    intro dest hs hd
    have ha := hs a (by simp)
    have hda := hd a (by simp)
    obtain ⟨r, h1, h2, h3⟩ := ih (dest.set a src[a]) (fun i hi => hs i (by simp [hi])) (fun i hi => by simpa using hd i (by simp [hi]))
    refine ⟨r, ?_, by simpa using h2, ?_⟩
    · show (do let x ← rd src a; let dest ← wrElem dest a x; extract src rest dest) = _
      rw [rd_some (List.getElem?_eq_getElem ha), ok_bind, wrElem, if_pos hda, ok_bind, h1]
    · intro i
      rw [h3 i]
      by_cases hi : i ∈ rest
      · simp [hi]
      · by_cases hia : i = a
        · subst hia; simp [hi, hda, List.getElem?_eq_getElem ha]
        · simp [hi, hia, Ne.symm hia]

theorem extract_short {V : Type} (src : List V) : ∀ (order : List Nat) (dest : List V) (i : Nat), i ∈ order → dest.length ≤ i →
    extract src order dest = ub := by
  intro order
  induction order with
  | nil => intro _ _ h; simp at h
  | cons a rest ih =>
    intro dest i hi hd
    show (do let x ← rd src a; let dest ← wrElem dest a x; extract src rest dest) = _
    cases hx : src[a]? with
    | none => simp only [rd, hx]; rfl
    | some x =>
      rw [rd_some hx, ok_bind]
      unfold wrElem
      split
      · rename_i hl
        rw [ok_bind]
        rcases List.mem_cons.1 hi with rfl | hi
        · omega
        · exact ih _ i hi (by simpa using hd)
      · rfl

/-- C85, `QDP_extract` and `QDP_insert` (the same loop with field and array exchanged): over the sites of a subset, in any order of the iterations, the array of at
least as many elements as the node has sites receives the values of the field on the subset and keeps its other elements. -/
theorem C85_extract {V : Type} (col : List Nat) (cb : Nat) (order : List Nat) (ho : order.Perm (Verif.Subset.sitesFrom cb col 0)) (src dest : List V)
    (hs : src.length = col.length) (hd : col.length ≤ dest.length) :
    ∃ r, extract src order dest = ok r ∧ r.length = dest.length ∧ ∀ i : Nat, r[i]? = if col[i]? = some cb then src[i]? else dest[i]? := by
  have hm : ∀ i, i ∈ order ↔ col[i]? = some cb := by
    intro i; rw [ho.mem_iff, Verif.Subset.mem_sitesFrom]; simp
  have hlt : ∀ i ∈ order, i < col.length := by
    intro i hi
    by_contra hc
    have := (hm i).1 hi
    rw [List.getElem?_eq_none (by omega)] at this; cases this
  obtain ⟨r, h1, h2, h3⟩ := extract_spec src order dest (fun i hi => by rw [hs]; exact hlt i hi) (fun i hi => Nat.lt_of_lt_of_le (hlt i hi) hd)
  refine ⟨r, h1, h2, fun i => ?_⟩
  rw [h3 i]; simp only [hm]

/-- an array with as many elements as the subset has sites is not enough unless the subset comes first in memory: the elements are numbered as the sites of the
node, and writing past the end is undefined -/
theorem C85_extract_short {V : Type} (col : List Nat) (cb : Nat) (order : List Nat) (ho : order.Perm (Verif.Subset.sitesFrom cb col 0)) (src dest : List V)
    (i : Nat) (hi : col[i]? = some cb) (hd : dest.length ≤ i) : extract src order dest = ub :=
  extract_short src order dest i (by rw [ho.mem_iff, Verif.Subset.mem_sitesFrom]; simpa using hi) hd

/-- the odd half of four sites in two-colour order: sites 2 and 3, an array of two elements is written past its end -/
example : extract [10, 11, 12, 13] (Verif.Subset.sitesFrom 1 [0, 0, 1, 1] 0) [0, 0] = ub := by decide
example : extract [10, 11, 12, 13] (Verif.Subset.sitesFrom 1 [0, 0, 1, 1] 0) [0, 0, 0, 0] = ok [0, 0, 12, 13] := by decide

theorem copymask_spec {V : Type} (mask : List Bool) (src : List V) : ∀ (order : List Nat) (dest : List V), order.Nodup →
    (∀ i ∈ order, i < src.length ∧ i < mask.length ∧ i < dest.length) →
    ∃ r, copymask mask src order dest = ok r ∧ r.length = dest.length ∧ ∀ i : Nat, r[i]? = if i ∈ order ∧ mask[i]? = some true then src[i]? else dest[i]? := by
  intro order
  induction order with
  | nil => intro dest _ _; exact ⟨dest, rfl, rfl, fun i => by simp⟩
  | cons a rest ih =>
    intro dest hn h
    obtain ⟨ha, hma, hda⟩ := h a (by simp)
    obtain ⟨hna, hn⟩ := List.nodup_cons.1 hn
    obtain ⟨r, h1, h2, h3⟩ := ih (dest.set a (if mask[a] then src[a] else dest[a])) hn (fun i hi => by simpa using h i (by simp [hi]))
    refine ⟨r, ?_, by simpa using h2, ?_⟩
    · show (do let b ← rd mask a; let x ← rd src a; let old ← rd dest a; let dest ← wrElem dest a (if b then x else old); copymask mask src rest dest) = _
      rw [rd_some (List.getElem?_eq_getElem hma), ok_bind, rd_some (List.getElem?_eq_getElem ha), ok_bind, rd_some (List.getElem?_eq_getElem hda), ok_bind,
        wrElem, if_pos hda, ok_bind, h1]
    · intro i
      rw [h3 i]
      by_cases hia : i = a
      · subst hia
        simp only [hna, false_and, if_false, List.mem_cons, true_or, true_and, List.getElem?_eq_getElem hma, Option.some.injEq]
        rw [List.getElem?_set, if_pos rfl, if_pos hda]
        cases hb : mask[i] <;> simp [List.getElem?_eq_getElem ha, List.getElem?_eq_getElem hda]
      · simp only [List.mem_cons, hia, false_or, List.getElem?_set, Ne.symm hia, if_false]

/-- C85, `copymask`: over the sites of a subset, in any order of the iterations, the field takes the new value where the mask is set and keeps the old one elsewhere. -/
theorem C85_copymask {V : Type} (col : List Nat) (cb : Nat) (order : List Nat) (ho : order.Perm (Verif.Subset.sitesFrom cb col 0)) (mask : List Bool)
    (src dest : List V) (hm : mask.length = col.length) (hs : src.length = col.length) (hd : dest.length = col.length) :
    ∃ r, copymask mask src order dest = ok r ∧ r.length = dest.length ∧
      ∀ i : Nat, r[i]? = if col[i]? = some cb ∧ mask[i]? = some true then src[i]? else dest[i]? := by
  have hmem : ∀ i, i ∈ order ↔ col[i]? = some cb := by
    intro i; rw [ho.mem_iff, Verif.Subset.mem_sitesFrom]; simp
  have hlt : ∀ i ∈ order, i < col.length := by
    intro i hi
    by_contra hc
    have := (hmem i).1 hi
    rw [List.getElem?_eq_none (by omega)] at this; cases this
  have hnd : order.Nodup := ho.nodup_iff.2 ((Verif.Subset.sitesFrom_sorted cb col 0).imp (fun h => Nat.ne_of_lt h))
  obtain ⟨r, h1, h2, h3⟩ := copymask_spec mask src order dest hnd (fun i hi => by rw [hs, hm, hd]; exact ⟨hlt i hi, hlt i hi, hlt i hi⟩)
  exact ⟨r, h1, h2, fun i => by rw [h3 i]; simp only [hmem]⟩

example : copymask [true, true, false, true] [10, 11, 12, 13] (Verif.Subset.sitesFrom 1 [0, 1, 1, 1] 0) [0, 0, 0, 0] = ok [0, 11, 0, 13] := by decide

end Verif.PeekPoke
