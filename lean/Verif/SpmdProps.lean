import Verif.Spmd
import Verif.ParShift
/-
Property C86: a program of lattice operations has the same results on every machine, in every interleaving of its nodes.
-/
namespace Verif.Spmd
open Verif Outcome Verif.Layout Verif.ParLayout Verif.Subset Verif.ParMap Verif.Network Verif.PeekPoke Verif.Shift

/-- every execution from `s` ends after the same number of steps, with no node left waiting, all nodes having the result `r` and the pieces of the fields `f` -/
def AlwaysEndsIn {V R : Type} (net : Net) (g : Geom) (s : State (List V) (R × Local V)) (r : R) (f : Nat → List Nat → V) : Prop :=
  ∃ N : Nat, ∀ (m : Nat) (t : State (List V) (R × Local V)), Run net g.nodes m s t →
    m ≤ N ∧ (Final net g.nodes t ↔ m = N) ∧
    (Final net g.nodes t → ∃ F', (∀ n, n < g.nodes → t.proc n = .done (r, F' n)) ∧ HoldsAll g F' f)

/-- C86, any arithmetic: on a given machine the order in which the nodes proceed and the messages arrive has no influence.  Every execution ends, and all end with
the same result on all nodes, the one obtained if sums are formed node by node in the order of the sites.  No law of addition is used: this holds for floating
point numbers, bit for bit, as long as the reduction of QMP is a function `tot` of the contributions of the nodes. -/
theorem C86_reproducible {V R : Type} [Add V] [Zero V] (tot : List V → V) (net : Net) (g : Geom) (hg : g.Good) (h0 : 0 < g.nodes) (p : Prog V R)
    (F : Nat → Local V) (f : Nat → List Nat → V) (hF : HoldsAll g F f) (hl : Legal (machineSum tot g) g.L p f) (ha : Accepted g p) :
    AlwaysEndsIn net g (start tot g p F) (run (machineSum tot g) p f).1 (run (machineSum tot g) p f).2 := by
  have hat : At g.nodes (start tot g p F) (fun n => node tot g n p (F n)) 0 := ⟨fun _ _ => rfl, fun _ => rfl, fun _ _ => rfl⟩
  obtain ⟨N, e, F', e', hr, he, hF'⟩ := one_run tot net g hg h0 p F f _ 0 hF hl ha hat
  have hfin : Final net g.nodes e := final_of_done net g.nodes e _ he.proc
  refine ⟨N, fun m t ht => ?_⟩
  obtain ⟨hle, hrest⟩ := all_executions hr hfin ht
  refine ⟨hle, ⟨fun hft => (stuck_is_end hr hfin ht hft).2, ?_⟩, ?_⟩
  · rintro rfl
    rw [Nat.sub_self] at hrest
    cases hrest
    exact hfin
  · intro hft
    obtain ⟨rfl, -⟩ := stuck_is_end hr hfin ht hft
    exact ⟨F', he.proc, hF'⟩

/-- C86, exact arithmetic: every execution ends with the result the program has on the one lattice whose fields are functions of the coordinates.  The machine
does not occur in that result. -/
theorem C86_spmd {V R : Type} [AddCommMonoid V] (tot : List V → V) (htot : ∀ l, tot l = l.sum) (net : Net) (g : Geom) (hg : g.Good) (h0 : 0 < g.nodes)
    (p : Prog V R) (F : Nat → Local V) (f : Nat → List Nat → V) (hF : HoldsAll g F f) (hl : Legal (latticeSum g.L) g.L p f) (ha : Accepted g p) :
    AlwaysEndsIn net g (start tot g p F) (run (latticeSum g.L) p f).1 (run (latticeSum g.L) p f).2 := by
  have e : machineSum tot g = latticeSum g.L := by
    funext sub w; exact machineSum_eq hg tot htot sub w
  have := C86_reproducible tot net g hg h0 p F f hF (by rw [e]; exact hl) ha
  rwa [e] at this

/-! ### Programs whose maps are shifts -/

/-- the maps of the program are shifts by one site -/
def OnlyShifts {V R : Type} (L : List Nat) : Prog V R → Prop
  | .ret _ => True
  | .assign _ _ _ k => OnlyShifts L k
  | .coord _ _ _ k => OnlyShifts L k
  | .map _ _ func k => (∃ (s : Sgn) (dir : Nat), dir < L.length ∧ func = shiftFunc L s.toInt dir) ∧ OnlyShifts L k
  | .peek _ _ k => ∀ v, OnlyShifts L (k v)
  | .poke _ _ _ k => OnlyShifts L k
  | .sum _ _ k => ∀ v, OnlyShifts L (k v)

/-- blocks of one size on the nodes: shifts are accepted -/
theorem accepted_of_shifts {V R : Type} (g : Geom) (hg : g.Good) (m : Machine) (hm : m.Good) (S : List Nat) (hcut : Cut g.L m.size S)
    (hnode : g.nodeNumber = nodeNumber m S) (hpos : 0 < g.sites) (hL : ∀ l ∈ g.L, 5 * l < 2 ^ 31) : ∀ p : Prog V R, OnlyShifts g.L p → Accepted g p := by
  intro p
  induction p with
  | ret r => intro _; trivial
  | assign dst sub rhs k ih => exact ih
  | coord dst mu conv k ih => exact ih
  | map dst src func k ih =>
    rintro ⟨⟨s, dir, hd, rfl⟩, h⟩
    obtain ⟨T, hT, -⟩ := C09_shift g hg m hm S hcut hnode hpos hL s dir hd
    exact ⟨fun n hn => ⟨T n, hT n hn⟩, ih h⟩
  | peek src c k ih => exact fun h v => ih v (h v)
  | poke dst c v k ih => exact ih
  | sum sub rhs k ih => exact fun h v => ih v (h v)

/-- C86 on the machines of C02: lexicographic order -/
theorem C86_lexico {V R : Type} [AddCommMonoid V] (tot : List V → V) (htot : ∀ l, tot l = l.sum) (net : Net) (L S : List Nat) (m : Machine) (hm : m.Good)
    (hcut : Cut L m.size S) (hne : L ≠ []) (hS : ∀ s ∈ S, 0 < s) (hP : ∀ p ∈ m.size, 0 < p) (hv : nsites L < 2 ^ 31) (hL : ∀ l ∈ L, 5 * l < 2 ^ 31)
    (p : Prog V R) (F : Nat → Local V) (f : Nat → List Nat → V) (hF : HoldsAll (geomLex L m S) F f) (hl : Legal (latticeSum L) L p f)
    (hs : OnlyShifts L p) :
    AlwaysEndsIn net (geomLex L m S) (start tot (geomLex L m S) p F) (run (latticeSum L) p f).1 (run (latticeSum L) p f).2 :=
  have hg := C02_lexico L S m hm hcut hne hS hP hv
  C86_spmd tot htot net (geomLex L m S) hg (nsites_pos hP) p F f hF hl
    (accepted_of_shifts (geomLex L m S) hg m hm S hcut rfl (nsites_pos hS) hL p hs)

/-- C86, two-colour order -/
theorem C86_cb2 {V R : Type} [AddCommMonoid V] (tot : List V → V) (htot : ∀ l, tot l = l.sum) (net : Net) (L S : List Nat) (s0 : Nat) (m : Machine)
    (hm : m.Good) (hcut : Cut L m.size (s0 :: S)) (heven : s0 % 2 = 0) (hS : ∀ s ∈ s0 :: S, 0 < s) (hP : ∀ p ∈ m.size, 0 < p) (hv : nsites L < 2 ^ 31)
    (hL : ∀ l ∈ L, 5 * l < 2 ^ 31) (p : Prog V R) (F : Nat → Local V) (f : Nat → List Nat → V) (hF : HoldsAll (geomCB2 L m (s0 :: S)) F f)
    (hl : Legal (latticeSum L) L p f) (hs : OnlyShifts L p) :
    AlwaysEndsIn net (geomCB2 L m (s0 :: S)) (start tot (geomCB2 L m (s0 :: S)) p F) (run (latticeSum L) p f).1 (run (latticeSum L) p f).2 :=
  have hg := C02_cb2 L S s0 m hm hcut heven hS hv
  C86_spmd tot htot net (geomCB2 L m (s0 :: S)) hg (nsites_pos hP) p F f hF hl
    (accepted_of_shifts (geomCB2 L m (s0 :: S)) hg m hm (s0 :: S) hcut rfl (nsites_pos hS) hL p hs)

/-- C86: two machines of any size, order of sites and kind of network that hold the same fields give the same results and hold the same fields in the end -/
theorem C86_two_machines {V R : Type} [AddCommMonoid V] (tot tot' : List V → V) (htot : ∀ l, tot l = l.sum) (htot' : ∀ l, tot' l = l.sum) (net net' : Net)
    (g g' : Geom) (hg : g.Good) (hg' : g'.Good) (hLL : g.L = g'.L) (h0 : 0 < g.nodes) (h0' : 0 < g'.nodes) (p : Prog V R) (F F' : Nat → Local V)
    (f : Nat → List Nat → V) (hF : HoldsAll g F f) (hF' : HoldsAll g' F' f) (hl : Legal (latticeSum g.L) g.L p f) (ha : Accepted g p)
    (ha' : Accepted g' p) (k k' : Nat) (t t' : State (List V) (R × Local V)) (ht : Run net g.nodes k (start tot g p F) t) (hf : Final net g.nodes t)
    (ht' : Run net' g'.nodes k' (start tot' g' p F') t') (hf' : Final net' g'.nodes t') :
    ∃ r h E E', (∀ n, n < g.nodes → t.proc n = .done (r, E n)) ∧ (∀ n, n < g'.nodes → t'.proc n = .done (r, E' n)) ∧ HoldsAll g E h ∧ HoldsAll g' E' h := by
  obtain ⟨_, h1⟩ := C86_spmd tot htot net g hg h0 p F f hF hl ha
  obtain ⟨_, h2⟩ := C86_spmd tot' htot' net' g' hg' h0' p F' f hF' (by rw [← hLL]; exact hl) ha'
  obtain ⟨E, a1, a2⟩ := (h1 k t ht).2.2 hf
  obtain ⟨E', b1, b2⟩ := (h2 k' t' ht').2.2 hf'
  rw [← hLL] at b1 b2
  exact ⟨_, _, E, E', a1, b1, a2, b2⟩

/-! ### A program on a machine of six nodes -/

/-- all sites, and the odd half -/
def allSites : SubsetOf := ⟨allFunc, 1, 0⟩
def odd : SubsetOf := ⟨rbFunc, 2, 1⟩

/-- number the sites by a coordinate, multiply by the neighbour's number on the odd half, add up, and write the sum into one site if it is large -/
def sample : Prog Int Int :=
  .coord 0 1 (fun x => (x : Int)) <|
  .map 1 0 (shiftFunc [4, 6] 1 1) <|
  .assign 0 odd ⟨[0, 1], fun vs => vs.getD 0 0 * vs.getD 1 0⟩ <|
  .map 0 0 (shiftFunc [4, 6] (-1) 0) <|
  .sum allSites ⟨[0], fun vs => vs.getD 0 0⟩ fun x =>
  if x < 100 then .ret x else .poke 0 [3, 5] x <| .peek 0 [3, 5] fun y => .ret (y + 1)

theorem sample_legal (S : SubsetOf → (List Nat → Int) → Int) (f : Nat → List Nat → Int) : Legal S [4, 6] sample f := by
  have hodd : odd.Legal [4, 6] := ⟨by decide, fun c _ => by
    simp only [odd, rbFunc]
    have : c.sum &&& 1 ≤ 1 := Nat.and_le_right
    omega⟩
  have hall : allSites.Legal [4, 6] := ⟨by decide, fun c _ => by simp [allSites, allFunc]⟩
  have hL : ∀ l ∈ [4, 6], 5 * l < 2 ^ 31 := by decide
  refine ⟨by decide, ⟨_, _, shift_isPerm hL (by decide) .fwd⟩, hodd, ⟨_, _, shift_isPerm hL (by decide) .bwd⟩, hall, ?_⟩
  beta_reduce
  split
  · trivial
  · have : InRange [3, 5] [4, 6] := ⟨by decide, by decide, trivial⟩
    exact ⟨this, this, trivial⟩

theorem sample_shifts : OnlyShifts [4, 6] sample := by
  refine ⟨⟨.fwd, 1, by decide, rfl⟩, ⟨.bwd, 0, by decide, rfl⟩, fun v => ?_⟩
  beta_reduce
  split
  · trivial
  · exact fun _ => trivial

/-- the sum is 2 (0 + 1 + 2 + 3 + 4 + 5) on the even half and 2 (0·1 + 1·2 + 2·3 + 3·4 + 4·5 + 5·0) on the odd one -/
example : (run (latticeSum [4, 6]) sample (fun _ _ => 0)).1 = 111 := by decide +kernel

/-- so it does on six nodes, whatever the fields held before, on the slowest and on the fastest network -/
example (F : Nat → Local Int) (f : Nat → List Nat → Int) (hF : HoldsAll (geomCB2 [4, 6] (lexMachine [2, 3]) [2, 2]) F f) :
    AlwaysEndsIn Net.strict (geomCB2 [4, 6] (lexMachine [2, 3]) [2, 2]) (start List.sum (geomCB2 [4, 6] (lexMachine [2, 3]) [2, 2]) sample F)
      (run (latticeSum [4, 6]) sample f).1 (run (latticeSum [4, 6]) sample f).2 :=
  C86_cb2 List.sum (fun _ => rfl) Net.strict [4, 6] [2] 2 (lexMachine [2, 3]) (lexMachine_good _) (by simp [Cut, lexMachine]) rfl (by decide)
    (by simp [lexMachine]) (by decide) (by decide) sample F f hF (sample_legal _ _) sample_shifts

/-- any contents of the pieces are the pieces of some fields -/
theorem holds_some {V : Type} [Zero V] (g : Geom) (hg : g.Good) (F : Nat → Local V) (hl : ∀ n x, n < g.nodes → (F n x).length = g.sites) :
    ∃ f, HoldsAll g F f := by
  refine ⟨fun x c => ((F (nd g c) x)[ix g c]?).getD 0, fun x => holds_of (fun n hn => hl n x hn) fun n hn i hi => ?_⟩
  obtain ⟨-, -, h3, h4⟩ := co_spec hg hn hi
  beta_reduce
  rw [h3, h4, List.getElem?_eq_getElem (by rw [hl n x hn]; exact hi)]; rfl

/-! ### What the hypotheses are for -/

/-- two nodes with one site each -/
def pair : Geom := geomLex [2] (lexMachine [2]) [1]

/-- a machine of two nodes in which only node 0 calls `sum` -/
def lone (F : Nat → Local Int) : State (List Int) (Int × Local Int) :=
  { proc := fun me => if me = 0 then node List.sum pair 0 (.sum allSites ⟨[0], fun vs => vs.getD 0 0⟩ fun x => .ret x) (F 0) else .done (0, F me)
    queue := fun _ => [], log := fun _ => [] }

/-- All nodes must run the same program: if only node 0 calls `sum`, it waits for ever. -/
theorem C86_lone_sum (net : Net) (F : Nat → Local Int) (v : Int) (hF : F 0 0 = [v]) (m : Nat) (t : State (List Int) (Int × Local Int))
    (ht : Run net 2 m (lone F) t) (hf : Final net 2 t) : ∀ r, t.proc 0 ≠ .done r := by
  have htab : table pair 0 allSites = ok [0] := by decide
  have hp : (lone F).proc 0 = .reduce [v] (fun ms => after (addAll List.sum ms) fun y => .done (y, F 0)) := by
    simp only [lone, if_true, node, htab, after, sumLoop, evalRhs, mapO]
    rw [show (Int.toNat 0) = 0 from rfl, hF]
    simp [rd, pure_def]
  obtain ⟨s1, hs1⟩ : ∃ s1 : State (List Int) (Int × Local Int), s1 =
    eff 0 (.total (fun ms => after (addAll List.sum ms) fun y => .done (y, F 0))) (.post [v]) (lone F) := ⟨_, rfl⟩
  have st : Step net 2 0 (lone F) s1 := by
    unfold Step; rw [hp]; exact ⟨by omega, hs1⟩
  have q0 : s1.proc 0 = .total (fun ms => after (addAll List.sum ms) fun y => .done (y, F 0)) := by
    rw [hs1]; simp [eff]
  have q1 : s1.proc 1 = .done (0, F 1) := by rw [hs1]; simp [eff, lone]
  have l1 : s1.log 1 = [] := by rw [hs1]; simp [eff, lone]
  have hfin : Final net 2 s1 := by
    intro i u hs
    unfold Step at hs
    obtain ⟨hi, hs⟩ := hs
    have : i = 0 ∨ i = 1 := by omega
    rcases this with rfl | rfl
    · rw [q0] at hs
      obtain ⟨vs, -, -, e, -⟩ := hs
      obtain ⟨w, -, e2⟩ := e 1 (by omega)
      rw [l1] at e2
      simp at e2
    · rw [q1] at hs; exact hs
  obtain ⟨rfl, -⟩ := stuck_is_end (Run.step st (Run.refl _)) hfin ht hf
  intro r
  rw [q0]; simp

/-- a permutation of six sites in a row that takes the sites of the first block to the other two blocks -/
def spread : List Nat → Int → Outcome (List Nat) := fun c isign =>
  if isign = 1 then ok [[2, 4, 0, 3, 1, 5].getD (c.getD 0 0) 0] else ok [[2, 4, 0, 3, 1, 5].getD (c.getD 0 0) 0]

/-- A map may be a permutation and still not be accepted: on three nodes with two sites each, node 0 would have to receive from two nodes, and `Map::make` stops
the program.  On one node the same program runs. -/
theorem C86_refused : (∃ φ ψ, IsPerm [6] spread φ ψ) ∧ make (geomLex [6] (lexMachine [3]) [2]) 0 spread = abort ∧
    ∃ t, make (geomLex [6] (lexMachine [1]) [6]) 0 spread = ok t := by
  refine ⟨⟨fun c => [[2, 4, 0, 3, 1, 5].getD (c.getD 0 0) 0], fun c => [[2, 4, 0, 3, 1, 5].getD (c.getD 0 0) 0], ?_⟩, by decide +kernel, ?_⟩
  · have key : ∀ c, InRange c [6] → ∃ x, x < 6 ∧ c = [x] := by
      intro c hc
      match c, hc with
      | [x], hc => exact ⟨x, hc.1, rfl⟩
    have h6 : ∀ x, x < 6 → [2, 4, 0, 3, 1, 5].getD x 0 < 6 ∧ [2, 4, 0, 3, 1, 5].getD ([2, 4, 0, 3, 1, 5].getD x 0) 0 = x := by decide
    refine ⟨?_, ?_, ?_, ?_⟩ <;> intro c hc <;> obtain ⟨x, hx, rfl⟩ := key c hc <;> obtain ⟨a, b⟩ := h6 x hx
    · exact ⟨rfl, by simpa [InRange] using a⟩
    · exact ⟨by simp [spread], by simpa [InRange] using a⟩
    · simpa using b
    · simpa using b
  · exact ⟨⟨[2, 4, 0, 3, 1, 5], [0, 0, 0, 0, 0, 0], [0, 0, 0, 0, 0, 0], false, [], [], [], [], []⟩, by decide +kernel⟩

end Verif.Spmd
