import Verif.ParMapProps
/-
The library's nearest-neighbour `shift` on many nodes: `Map::make` accepts it for every machine grid and every layout
whose `nodeNumber` is the block number, and it delivers the periodic neighbour (C09 for `shift`).
-/
namespace Verif.ParMap
open Verif Outcome Verif.Layout Verif.ParLayout Verif.Subset Verif.Shift Verif.Util

/-- one step moves at most to the neighbouring block of a circle of `p` blocks of `σ` points -/
theorem step_block {p σ x : Nat} (s : Sgn) (hx : x < p * σ) :
    step (p * σ) s x / σ = x / σ ∨ step (p * σ) s x / σ = step p s (x / σ) := by
  have hσ : 0 < σ := by
    rcases Nat.eq_zero_or_pos σ with h | h
    · subst h; simp at hx
    · exact h
  obtain ⟨q, r, rfl, hr⟩ : ∃ q r, x = σ * q + r ∧ r < σ :=
    ⟨x / σ, x % σ, (Nat.div_add_mod x σ).symm, Nat.mod_lt _ hσ⟩
  have hq : (σ * q + r) / σ = q := by
    rw [Nat.mul_add_div hσ, Nat.div_eq_of_lt hr, Nat.add_zero]
  have hqp : q < p := by
    apply Nat.lt_of_mul_lt_mul_left (a := σ)
    rw [Nat.mul_comm σ p]; omega
  rw [hq]
  cases s with
  | fwd =>
    simp only [step]
    by_cases hr1 : r + 1 < σ
    · left
      have : σ * q + r + 1 ≠ p * σ := by
        intro h
        have h1 : σ * (q + 1) ≤ σ * p := Nat.mul_le_mul_left _ hqp
        rw [Nat.mul_add, Nat.mul_comm σ p] at h1
        omega
      rw [if_neg this, Nat.add_assoc, Nat.mul_add_div hσ, Nat.div_eq_of_lt hr1, Nat.add_zero]
    · right
      have e : σ * q + r + 1 = σ * (q + 1) := by rw [Nat.mul_add]; omega
      rw [e]
      by_cases hqp' : q + 1 = p
      · rw [if_pos (by rw [hqp', Nat.mul_comm]), if_pos hqp', Nat.zero_div]
      · rw [if_neg (by rw [Nat.mul_comm]; exact fun h => hqp' (Nat.eq_of_mul_eq_mul_right hσ h)), if_neg hqp',
          Nat.mul_div_cancel_left _ hσ]
  | bwd =>
    simp only [step]
    by_cases hr0 : r = 0
    · right
      subst hr0
      rw [Nat.add_zero]
      by_cases hq0 : q = 0
      · subst hq0
        have : p * σ - 1 = σ * (p - 1) + (σ - 1) := by
          obtain ⟨p', rfl⟩ : ∃ p', p = p' + 1 := ⟨p - 1, by omega⟩
          rw [Nat.add_sub_cancel, Nat.add_mul, Nat.mul_comm p']; omega
        simp only [Nat.mul_zero, if_true]
        rw [this, Nat.mul_add_div hσ, Nat.div_eq_of_lt (by omega), Nat.add_zero]
      · have hpos : 0 < σ * q := Nat.mul_pos hσ (by omega)
        rw [if_neg (by omega), if_neg hq0]
        have : σ * q - 1 = σ * (q - 1) + (σ - 1) := by
          obtain ⟨q', rfl⟩ : ∃ q', q = q' + 1 := ⟨q - 1, by omega⟩
          rw [Nat.add_sub_cancel, Nat.mul_add]; omega
        rw [this, Nat.mul_add_div hσ, Nat.div_eq_of_lt (by omega), Nat.add_zero]
    · left
      rw [if_neg (by omega), Nat.add_sub_assoc (by omega), Nat.mul_add_div hσ, Nat.div_eq_of_lt (by omega), Nat.add_zero]

theorem nbr_block : ∀ {L P S c : List Nat}, Cut L P S → InRange c L →
    ∃ p, zipDiv c S = ok p ∧ InRange p P ∧ ∀ (s : Sgn) (dir : Nat),
      zipDiv (nbr L c s dir) S = ok p ∨ zipDiv (nbr L c s dir) S = ok (nbr P p s dir)
  | [], [], [], [], _, _ => ⟨[], rfl, trivial, fun s dir => Or.inl (by simp [nbr, zipDiv])⟩
  | l :: L, p :: P, σ :: S, x :: c, hc, h => by
      obtain ⟨q, h1, h2, h3⟩ := nbr_block hc.2 h.2
      have hl := hc.1
      have hlt := h.1
      have hσ : 0 < σ := by
        rcases Nat.eq_zero_or_pos σ with e | e
        · rw [hl, e] at hlt; simp at hlt
        · exact e
      refine ⟨(x / σ) :: q, by simp [zipDiv, cdiv_pos hσ, h1],
        (⟨by apply Nat.div_lt_of_lt_mul; rw [Nat.mul_comm, ← hl]; exact hlt, h2⟩ : x / σ < p ∧ InRange q P), ?_⟩
      intro s dir
      cases dir with
      | zero =>
        simp only [nbr, zipDiv, cdiv_pos hσ, ok_bind, h1, pure_def, Outcome.ok.injEq, List.cons.injEq, and_true]
        rw [hl] at hlt ⊢
        exact step_block s hlt
      | succ d =>
        simp only [nbr, zipDiv, cdiv_pos hσ, ok_bind]
        rcases h3 s d with h | h
        · left; simp [h]
        · right; simp [h]
  | [], [], [], _ :: _, _, h => by simp [InRange] at h
  | _ :: _, _ :: _, _ :: _, [], _, h => by simp [InRange] at h
  | [], [], _ :: _, _, h, _ => by simp [Cut] at h
  | [], _ :: _, _, _, h, _ => by simp [Cut] at h
  | _ :: _, [], _, _, h, _ => by simp [Cut] at h
  | _ :: _, _ :: _, [], _, h, _ => by simp [Cut] at h

/-- the coordinate function a direction/sign of `shift` is built from, lib/qdp_map.cc:132-148 -/
def shiftFunc (L : List Nat) (mult : Int) (dir : Nat) : List Nat → Int → Outcome (List Nat) :=
  fun coord isign => nnFunc L coord (mult * isign) dir

theorem shift_isPerm {L : List Nat} (hL : ∀ l ∈ L, 5 * l < 2 ^ 31) {dir : Nat} (hd : dir < L.length) (s : Sgn) :
    IsPerm L (shiftFunc L s.toInt dir) (fun c => nbr L c s dir) (fun c => nbr L c s.neg dir) where
  fwd := fun _ hc => ⟨nnFunc_eq hc hL hd _ s (by cases s <;> rfl), nbr_inRange hc⟩
  bwd := fun _ hc => ⟨nnFunc_eq hc hL hd _ s.neg (by cases s <;> rfl), nbr_inRange hc⟩
  left := fun _ hc => nbr_nbr hc
  right := fun c hc => by
    have := nbr_nbr (s := s.neg) (dir := dir) hc
    rwa [show s.neg.neg = s by cases s <;> rfl] at this

/-- C09 for `shift`: on every machine grid, for all layouts placing blocks on nodes, each node's `Map::make` accepts the
nearest-neighbour function and the distributed shift delivers the periodic neighbour. -/
theorem C09_shift (g : Geom) (hg : g.Good) (m : Machine) (hm : m.Good) (S : List Nat)
    (hcut : Cut g.L m.size S)
    (hnode : g.nodeNumber = nodeNumber m S) (hpos : 0 < g.sites) (hL : ∀ l ∈ g.L, 5 * l < 2 ^ 31)
    (s : Sgn) (dir : Nat) (hd : dir < g.L.length) :
    ∃ T : Nat → MapTab, (∀ n, n < g.nodes → make g n (shiftFunc g.L s.toInt dir) = ok (T n)) ∧
      ∀ (α : Type) (D : Nat → List α), (∀ n, n < g.nodes → (D n).length = g.sites) → ∀ my, my < g.nodes →
        ∃ d, apply T D my = ok d ∧ d.length = g.sites ∧
          ∀ c i n' i', InRange c g.L → g.nodeNumber c = ok my → g.linearSiteIndex c = ok i →
            g.nodeNumber (nbr g.L c s dir) = ok n' → g.linearSiteIndex (nbr g.L c s dir) = ok i' →
            d[i]? = (D n')[i']? := by
  have hp := shift_isPerm hL hd s
  have one : ∀ (t : Sgn) n, n < g.nodes → ∃ b, ∀ x ∈ srcList g (fun c => nbr g.L c t dir) n, x ≠ n → x = b := by
    intro t n hn
    refine ⟨m.nodeFrom (nbr m.size (m.coordFrom n) t dir), ?_⟩
    intro x hx hxn
    obtain ⟨i, hi, rfl⟩ := List.mem_map.1 hx
    obtain ⟨-, h2, h3, -⟩ := co_spec hg hn (List.mem_range.1 hi)
    obtain ⟨p, q1, q2, q3⟩ := nbr_block hcut h2
    have hpn : m.nodeFrom p = n := by rw [← h3]; simp [nd, hnode, nodeNumber, q1]
    have hpc : m.coordFrom n = p := by rw [← hpn]; exact (hm.2 p q2).2
    rw [hpc]
    rcases q3 t dir with h | h
    · exact absurd (by simp [nd, hnode, nodeNumber, h, hpn]) hxn
    · simp [nd, hnode, nodeNumber, h]
  have hacc : ∀ n, n < g.nodes → ∃ t, make g n (shiftFunc g.L s.toInt dir) = ok t :=
    fun n hn => make_accepts hg hp hn hpos (Or.inr ⟨one s n hn, one s.neg n hn⟩)
  let T : Nat → MapTab := fun n =>
    match make g n (shiftFunc g.L s.toInt dir) with | ok t => t | _ => ⟨[], [], [], false, [], [], [], [], []⟩
  have hT : ∀ n, n < g.nodes → make g n (shiftFunc g.L s.toInt dir) = ok (T n) := by
    intro n hn
    obtain ⟨t, ht⟩ := hacc n hn
    simp [T, ht]
  exact ⟨T, hT, fun α D hD my hn => C09_map g hg _ _ _ hp T hT α D hD my hn⟩

/-- C09 for `shift`, the lexicographic layout, all hypotheses spelled out -/
theorem C09_shift_lexico (L S : List Nat) (m : Machine) (hm : m.Good) (hcut : Cut L m.size S) (hne : L ≠ [])
    (hS : ∀ s ∈ S, 0 < s) (hP : ∀ p ∈ m.size, 0 < p) (hv : nsites L < 2 ^ 31) (hL : ∀ l ∈ L, 5 * l < 2 ^ 31)
    (s : Sgn) (dir : Nat) (hd : dir < L.length) :
    ∃ T : Nat → MapTab, (∀ n, n < nsites m.size → make (geomLex L m S) n (shiftFunc L s.toInt dir) = ok (T n)) ∧
      ∀ (α : Type) (D : Nat → List α), (∀ n, n < nsites m.size → (D n).length = nsites S) → ∀ my, my < nsites m.size →
        ∃ d, apply T D my = ok d ∧ d.length = nsites S ∧
          ∀ c i n' i', InRange c L → nodeNumber m S c = ok my → ParLayout.linearSiteIndexLex S c = ok i →
            nodeNumber m S (nbr L c s dir) = ok n' → ParLayout.linearSiteIndexLex S (nbr L c s dir) = ok i' →
            d[i]? = (D n')[i']? :=
  C09_shift (geomLex L m S) (C02_lexico L S m hm hcut hne hS hP hv) m hm S hcut rfl (nsites_pos hS) hL s dir hd

/-- C09 for `shift`, the two-colour layout -/
theorem C09_shift_cb2 (L S : List Nat) (s0 : Nat) (m : Machine) (hm : m.Good) (hcut : Cut L m.size (s0 :: S))
    (heven : s0 % 2 = 0) (hS : ∀ s ∈ s0 :: S, 0 < s) (hv : nsites L < 2 ^ 31) (hL : ∀ l ∈ L, 5 * l < 2 ^ 31)
    (s : Sgn) (dir : Nat) (hd : dir < L.length) :
    ∃ T : Nat → MapTab, (∀ n, n < nsites m.size → make (geomCB2 L m (s0 :: S)) n (shiftFunc L s.toInt dir) = ok (T n)) ∧
      ∀ (α : Type) (D : Nat → List α), (∀ n, n < nsites m.size → (D n).length = nsites (s0 :: S)) →
        ∀ my, my < nsites m.size →
        ∃ d, apply T D my = ok d ∧ d.length = nsites (s0 :: S) ∧
          ∀ c i n' i', InRange c L → nodeNumber m (s0 :: S) c = ok my → ParLayout.linearSiteIndexCB2 (s0 :: S) c = ok i →
            nodeNumber m (s0 :: S) (nbr L c s dir) = ok n' → ParLayout.linearSiteIndexCB2 (s0 :: S) (nbr L c s dir) = ok i' →
            d[i]? = (D n')[i']? :=
  C09_shift (geomCB2 L m (s0 :: S)) (C02_cb2 L S s0 m hm hcut heven hS hv) m hm (s0 :: S) hcut rfl (nsites_pos hS) hL
    s dir hd

/-! ### a map that is not a permutation: make's checks are needed -/

/-- The map `x -> 0` on a line of 4 sites over two nodes (backward: everything goes to site 0 too): node 1 has a
source node and a destination node, both node 0, so it is accepted; node 0 has neither.  The schedules do not
match and the collective operation cannot complete: bijectivity in C10 is a real hypothesis. -/
def collapse : List Nat → Int → Outcome (List Nat) := fun _ _ => ok [0]
def wGeom2 : Geom := geomLex [4] (lexMachine [2]) [2]

theorem C10_needs_bijection :
    ∃ T0 T1, make wGeom2 0 collapse = ok T0 ∧ make wGeom2 1 collapse = ok T1 ∧
      T0.offnodeP = false ∧ T1.offnodeP = true ∧ T1.srcenodes = [0] ∧
      apply (fun n => if n = 0 then T0 else T1) (fun _ => [7, 8]) 1 = ub := by
  refine ⟨⟨[0, 0], [0, 0], [0, 0], false, [], [], [], [], []⟩,
    ⟨[0, 0], [0, 0], [0, 0], true, [0], [0], [2], [2], [none, none]⟩, by decide, by decide, rfl, rfl, rfl, by decide⟩

/-! ### witnesses -/

theorem wGeom2_good : wGeom2.Good :=
  C02_lexico [4] [2] (lexMachine [2]) (lexMachine_good _) (by simp [Cut, lexMachine]) (by simp) (by simp)
    (by simp [lexMachine]) (by decide)

example : Cut [4] (lexMachine [2]).size [2] ∧ ∀ l ∈ [4], 5 * l < 2 ^ 31 := by simp [Cut, lexMachine]
/-- forward shift on two nodes: node 0 keeps slot 1, receives node 1's slot 0 -/
example : make wGeom2 0 (shiftFunc [4] 1 0) = ok ⟨[1, 0], [0, 1], [1, 0], true, [1], [1], [1], [1], [some 0]⟩ := by decide
example : make wGeom2 1 (shiftFunc [4] 1 0) = ok ⟨[1, 0], [1, 0], [0, 1], true, [0], [0], [1], [1], [some 0]⟩ := by decide
example : apply (fun n => if n = 0 then ⟨[1, 0], [0, 1], [1, 0], true, [1], [1], [1], [1], [some 0]⟩
      else ⟨[1, 0], [1, 0], [0, 1], true, [0], [0], [1], [1], [some 0]⟩)
    (fun n => if n = 0 then [10, 11] else [12, 13]) 0 = ok [11, 12] := by decide

end Verif.ParMap
