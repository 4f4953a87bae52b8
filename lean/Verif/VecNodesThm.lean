import Verif.VecNodesProps
import Mathlib.Algebra.Order.BigOperators.Group.Finset
import Mathlib.Algebra.Order.BigOperators.Group.List
import Mathlib.Algebra.Order.Ring.Int
/-
Property C104: programs of lattice operations on many nodes with vectors.
-/
namespace Verif.VecNodes
open Verif Outcome Verif.Layout Verif.ParLayout Verif.Subset Verif.ParMap Verif.Network Verif.PeekPoke Verif.Shift
open Verif.LatticeIO (foldO foldO_range_id)
open Verif.Spmd (SubsetOf one addAll latticeSum source)
open Verif.Vec (getAt setAt Shape Site getAt_site)

section
variable {V : Type} {R : Type}

theorem holds_update {g : Geom} {F : Nat → Local V} {f : Nat → List Nat → V} (hF : HoldsAll g F f) {dst : Nat} {G : Nat → List (List V)} {w : List Nat → V}
    (hG : Holds g G w) : HoldsAll g (fun n => Function.update (F n) dst (G n)) (Function.update f dst w) := by
  intro x
  by_cases hx : x = dst
  · subst hx; simpa using hG
  · simpa [Function.update_of_ne hx] using hF x

/-- one execution of the program that ends well -/
theorem one_run [AddCommMonoid V] (tot : List V → V) (htot : ∀ l, tot l = l.sum) (net : Net) (g : Geom) (hg : g.Good) (h4 : 4 ∣ g.sites) (h0 : 0 < g.nodes) :
    ∀ (p : Prog V R) (F : Nat → Local V) (f : Nat → List Nat → V) (s : State (List V) (R × Local V)) (e : Nat), HoldsAll g F f → Legal g p →
    At g.nodes s (fun n => node tot g n p (F n)) e →
    ∃ m t F' e', Run net g.nodes m s t ∧ At g.nodes t (fun n => .done ((run (vecSum g) (strip p) f).1, F' n)) e' ∧ HoldsAll g F' (run (vecSum g) (strip p) f).2 := by
  intro p
  induction p with
  | ret r => intro F f s e hF _ h; exact ⟨0, s, F, e, Run.refl _, h, hF⟩
  | assign dst sub op rhs k ih =>
    intro F f s e hF hl h
    refine ih F f s e hF hl.2 ⟨fun n hn => ?_, h.queue, h.log⟩
    obtain ⟨_, t, a1, -⟩ := subOf_ok hg hn hl.1
    rw [h.proc n hn]
    simp only [node, a1, after, evaluate, qdpError, Function.update_eq_self]
  | zero dst k ih =>
    intro F f s e hF hl h
    obtain ⟨G, h1, hG⟩ := zero_all h4 (fun n => F n dst) (fun n hn => (hF dst n hn).1)
    refine ih _ _ s e (holds_update hF hG) hl ⟨fun n hn => ?_, h.queue, h.log⟩
    rw [h.proc n hn]; simp only [node, h1 n hn, after]
  | copymask dst mask src test k ih =>
    intro F f s e hF hl h
    obtain ⟨G, h1, hG⟩ := copymask_all h4 test (fun n => F n dst) (fun n => F n mask) (fun n => F n src) (f dst) (f mask) (f src) (hF dst) (hF mask) (hF src)
    refine ih _ _ s e (holds_update hF hG) hl ⟨fun n hn => ?_, h.queue, h.log⟩
    rw [h.proc n hn]; simp only [node, h1 n hn, after]
  | coord dst mu conv k ih =>
    intro F f s e hF hl h
    obtain ⟨G, h1, hG⟩ := coord_all h4 hg mu conv hl.1 (fun n => F n dst) (fun n hn => (hF dst n hn).1)
    refine ih _ _ s e (holds_update hF hG) hl.2 ⟨fun n hn => ?_, h.queue, h.log⟩
    rw [h.proc n hn]; simp only [node, h1 n hn, after]
  | map dst src func k ih =>
    intro F f s e hF hl h
    obtain ⟨⟨φ, ψ, hp⟩, hacc, hl2⟩ := hl
    obtain ⟨m, t, G, hr, ht, hG⟩ := map_all h4 net hg func φ ψ hp hacc (fun n => F n src) (fun n => F n dst) (f src) (hF src) (fun n hn => (hF dst n hn).1) s
      (fun n X => node tot g n k (Function.update (F n) dst X)) e h
    obtain ⟨m', u, F', e', hr', hu, hF'⟩ := ih _ _ t e (holds_update hF hG) hl2 ht
    exact ⟨_, u, F', e', hr.trans hr', hu, hF'⟩
  | peek src c k ih =>
    intro F f s e hF hl h
    obtain ⟨m, t, hr, ht⟩ := peek_all h4 net hg h0 (fun n => F n src) (f src) (hF src) c hl.1 s (fun n v => node tot g n (k v) (F n)) e h
    obtain ⟨m', u, F', e', hr', hu, hF'⟩ := ih (f src c) F f t (e + 1) hF (hl.2 _) ht
    exact ⟨_, u, F', e', hr.trans hr', hu, hF'⟩
  | poke dst c v k ih =>
    intro F f s e hF hl h
    obtain ⟨G, h1, hG⟩ := poke_all h4 hg (fun n => F n dst) (f dst) (hF dst) c hl.1 v
    refine ih _ _ s e (holds_update hF hG) hl.2 ⟨fun n hn => ?_, h.queue, h.log⟩
    rw [h.proc n hn]; simp only [node, h1 n hn, after]
  | sum sub rhs k ih =>
    intro F f s e hF hl h
    have hsum : ∀ n, n < g.nodes → ∃ t, subOf g n sub = ok t ∧ Vec.sumOver 2 (rhs.inst (F n)) t = ok (((covered g n sub).map fun i => rhs.at f (co g n i)).sum) := by
      intro n hn
      obtain ⟨t, a1, a2⟩ := sumOver_covered h4 hg hn hl.1 (rhs.inst (F n)) (inst_shape (fun x => (hF x n hn).1) rhs)
      refine ⟨t, a1, ?_⟩
      rw [a2]
      congr 2
      apply List.map_congr_left
      intro i hi
      have hi' : i < g.sites := by
        unfold covered subSites at hi
        split at hi
        · exact List.mem_range.1 (List.mem_filter.1 hi).1
        · exact List.mem_range.1 (List.mem_filter.1 hi).1
      exact inst_val (fun x => (hF x n hn).2 i _ hi' (co_spec hg hn hi').1) rhs
    obtain ⟨m, t, hr, ht⟩ := reduce_all net g.nodes s (fun n => [((covered g n sub).map fun i => rhs.at f (co g n i)).sum])
      (fun n ms => after (addAll tot ms) fun y => node tot g n (k y) (F n)) e
      ⟨fun n hn => by
        obtain ⟨t, a1, a2⟩ := hsum n hn
        rw [h.proc n hn]; simp only [node, a1, a2, after], h.queue, h.log⟩
    obtain ⟨m', u, F', e', hr', hu, hF'⟩ := ih (vecSum g sub (rhs.at f)) F f t (e + 1) hF (hl.2 _)
      ⟨fun n hn => by
        rw [ht.proc n hn, Spmd.addAll_eq, htot, GlobalSum.list_sum_range]; rfl, ht.queue, ht.log⟩
    exact ⟨_, u, F', e', hr.trans hr', hu, hF'⟩

/-- C104, what programs do: every execution of a program on any number of nodes ends, all nodes with the same result: that of the program without its
statements, whose sums are those over whole vectors. -/
theorem C104_program [AddCommMonoid V] (tot : List V → V) (htot : ∀ l, tot l = l.sum) (net : Net) (g : Geom) (hg : g.Good) (h4 : 4 ∣ g.sites) (h0 : 0 < g.nodes)
    (p : Prog V R) (F : Nat → Local V) (f : Nat → List Nat → V) (hF : HoldsAll g F f) (hl : Legal g p) :
    AlwaysEndsIn net g (start tot g p F) (run (vecSum g) (strip p) f).1 (run (vecSum g) (strip p) f).2 := by
  have hat : At g.nodes (start tot g p F) (fun n => node tot g n p (F n)) 0 := ⟨fun _ _ => rfl, fun _ => rfl, fun _ _ => rfl⟩
  obtain ⟨N, e, F', e', hr, he, hF'⟩ := one_run tot htot net g hg h4 h0 p F f _ 0 hF hl hat
  have hfin : Final net g.nodes e := final_of_done net g.nodes e _ he.proc
  refine ⟨N, fun m t ht => ?_⟩
  obtain ⟨hle, hrest⟩ := all_executions hr hfin ht
  refine ⟨hle, ⟨fun hft => (stuck_is_end hr hfin ht hft).2, ?_⟩, ?_⟩
  · rintro rfl
    rw [Nat.sub_self] at hrest
    cases hrest
    exact hfin
  · intro hft
    obtain ⟨rfl, -⟩ := stuck_is_end hr hfin ht hft
    exact ⟨F', he.proc, hF'⟩

/-! ### sums -/

theorem subSites_covered (g : Geom) (n : Nat) (sub : SubsetOf) {i : Nat} (hi : i ∈ subSites g n sub) : i ∈ covered g n sub := by
  unfold covered
  split
  · exact List.mem_filter.2 ⟨(List.mem_filter.1 hi).1, List.any_eq_true.2 ⟨i, hi, by simp⟩⟩
  · exact hi

theorem covered_nodup (g : Geom) (n : Nat) (sub : SubsetOf) : (covered g n sub).Pairwise (· < ·) := by
  unfold covered subSites
  split <;> exact List.pairwise_lt_range.filter _

theorem covered_lt {g : Geom} {n : Nat} {sub : SubsetOf} {i : Nat} (hi : i ∈ covered g n sub) : i < g.sites := by
  unfold covered subSites at hi
  split at hi <;> exact List.mem_range.1 (List.mem_filter.1 hi).1

/-- the sum over the subset, node by node -/
theorem latticeSum_nodes [AddCommMonoid V] {g : Geom} (hg : g.Good) (sub : SubsetOf) (w : List Nat → V) :
    latticeSum g.L sub w = ∑ n ∈ Finset.range g.nodes, ((subSites g n sub).map fun i => w (co g n i)).sum := by
  rw [← Spmd.machineSum_eq hg List.sum (fun _ => rfl), Spmd.machineSum, GlobalSum.list_sum_range]
  apply Finset.sum_congr rfl
  intro n _
  unfold Spmd.nodeSum subSites
  have : ∀ (l : List Nat) (acc : V), l.foldl (fun acc i => acc + w (co g n i)) acc = acc + (l.map fun i => w (co g n i)).sum := by
    intro l
    induction l with
    | nil => intro acc; simp
    | cons a l ih => intro acc; simp [ih, add_assoc]
  rw [this, zero_add]

/-- the sums are over the subset and nothing else -/
def Whole (g : Geom) (sub : SubsetOf) : Prop := ∀ n, n < g.nodes → covered g n sub = subSites g n sub

theorem vecSum_eq [AddCommMonoid V] {g : Geom} (hg : g.Good) {sub : SubsetOf} (h : Whole g sub) (w : List Nat → V) : vecSum g sub w = latticeSum g.L sub w := by
  rw [latticeSum_nodes hg, vecSum]
  exact Finset.sum_congr rfl fun n hn => by rw [h n (Finset.mem_range.1 hn)]

/-- C104: the sum over a subset is right for every field exactly if on no node the subset lies in one stretch of sites that begins or ends inside a vector. -/
theorem C104_sum_iff (g : Geom) (hg : g.Good) (sub : SubsetOf) :
    (∀ w : List Nat → Int, vecSum g sub w = latticeSum g.L sub w) ↔ Whole g sub := by
  constructor
  · intro h n hn
    refine Spmd.sorted_ext (covered_nodup g n sub) (List.pairwise_lt_range.filter _) (fun i => ⟨fun hi => ?_, fun hi => subSites_covered g n sub hi⟩)
    by_contra hni
    have hi' := covered_lt hi
    have hcb : sub.fn (co g n i) ≠ sub.cb := fun hcb => hni (List.mem_filter.2 ⟨List.mem_range.2 hi', by simpa using hcb⟩)
    have := h (fun c => if c = co g n i then 1 else 0)
    have hz : latticeSum g.L sub (fun c => if c = co g n i then (1 : Int) else 0) = 0 := by
      unfold latticeSum
      apply Finset.sum_eq_zero
      intro r _
      by_cases a : sub.fn (digits r g.L) = sub.cb
      · rw [if_pos a]
        refine if_neg fun b => ?_
        rw [b] at a; exact hcb a
      · rw [if_neg a]
    rw [hz, vecSum] at this
    have hnn : ∀ m ∈ Finset.range g.nodes, 0 ≤ ((covered g m sub).map fun i' => if co g m i' = co g n i then (1 : Int) else 0).sum := by
      intro m _
      apply List.sum_nonneg
      intro x hx
      obtain ⟨_, -, rfl⟩ := List.mem_map.1 hx
      split_ifs <;> decide
    have h1 := (Finset.sum_eq_zero_iff_of_nonneg hnn).1 this n (Finset.mem_range.2 hn)
    have h2 := List.single_le_sum (l := (covered g n sub).map fun i' => if co g n i' = co g n i then (1 : Int) else 0) (by
      intro x hx
      obtain ⟨_, -, rfl⟩ := List.mem_map.1 hx
      split_ifs <;> decide) 1 (List.mem_map.2 ⟨i, hi, if_pos rfl⟩)
    rw [h1] at h2
    exact absurd h2 (by decide)
  · exact fun h w => vecSum_eq hg h w

/-- the sum over all sites is right -/
theorem whole_all (g : Geom) : Whole g Spmd.allSites := by
  intro n _
  have h : subSites g n Spmd.allSites = List.range g.sites := by
    unfold subSites
    rw [List.filter_eq_self]
    intro i _
    simp [Spmd.allSites, allFunc]
  unfold covered
  split
  · rw [h, List.filter_eq_self]
    intro i hi
    exact List.any_eq_true.2 ⟨i, hi, by simp⟩
  · rfl

/-! ### programs -/

/-- no statements, and sums only over subsets that fill their vectors -/
def Fits (g : Geom) : Prog V R → Prop
  | .ret _ => True
  | .assign _ _ _ _ _ => False
  | .zero _ k => Fits g k
  | .copymask _ _ _ _ k => Fits g k
  | .coord _ _ _ k => Fits g k
  | .map _ _ _ k => Fits g k
  | .peek _ _ k => ∀ v, Fits g (k v)
  | .poke _ _ _ k => Fits g k
  | .sum sub _ k => Whole g sub ∧ ∀ v, Fits g (k v)

theorem run_fits [AddCommMonoid V] {g : Geom} (hg : g.Good) : ∀ (p : Prog V R) (f : Nat → List Nat → V), Fits g p →
    run (vecSum g) (strip p) f = run (latticeSum g.L) p f := by
  intro p
  induction p with
  | ret r => intro f _; rfl
  | assign dst sub op rhs k ih => intro f h; exact h.elim
  | zero dst k ih => intro f h; exact ih _ h
  | copymask dst mask src test k ih => intro f h; exact ih _ h
  | coord dst mu conv k ih => intro f h; exact ih _ h
  | map dst src func k ih => intro f h; exact ih _ h
  | peek src c k ih => intro f h; exact ih _ _ (h _)
  | poke dst c v k ih => intro f h; exact ih _ h
  | sum sub rhs k ih => intro f h; simp only [strip, run, vecSum_eq hg h.1]; exact ih _ _ (h.2 _)

/-- C104 (the full claim is for every program: see `C104_statement_refuted` and `C104_sum_iff`).  A program without statements whose sums are over subsets that
fill their vectors ends, on every machine and in every interleaving, with the result it has on the one lattice whose fields are functions of the coordinates. -/
theorem C104_right_partial [AddCommMonoid V] (tot : List V → V) (htot : ∀ l, tot l = l.sum) (net : Net) (g : Geom) (hg : g.Good) (h4 : 4 ∣ g.sites)
    (h0 : 0 < g.nodes) (p : Prog V R) (F : Nat → Local V) (f : Nat → List Nat → V) (hF : HoldsAll g F f) (hl : Legal g p) (hp : Fits g p) :
    AlwaysEndsIn net g (start tot g p F) (run (latticeSum g.L) p f).1 (run (latticeSum g.L) p f).2 := by
  rw [← run_fits hg p f hp]
  exact C104_program tot htot net g hg h4 h0 p F f hF hl

/-- the program writes the field by nothing but statements -/
def OnlyStatements (x : Nat) : Prog V R → Prop
  | .ret _ => True
  | .assign _ _ _ _ k => OnlyStatements x k
  | .zero dst k => dst ≠ x ∧ OnlyStatements x k
  | .copymask dst _ _ _ k => dst ≠ x ∧ OnlyStatements x k
  | .coord dst _ _ k => dst ≠ x ∧ OnlyStatements x k
  | .map dst _ _ k => dst ≠ x ∧ OnlyStatements x k
  | .peek _ _ k => ∀ v, OnlyStatements x (k v)
  | .poke dst _ _ k => dst ≠ x ∧ OnlyStatements x k
  | .sum _ _ k => ∀ v, OnlyStatements x (k v)

theorem run_only [Zero V] (S : SubsetOf → (List Nat → V) → V) (x : Nat) : ∀ (p : Prog V R) (f : Nat → List Nat → V), OnlyStatements x p →
    (run S (strip p) f).2 x = f x := by
  intro p
  induction p with
  | ret r => intro f _; rfl
  | assign dst sub op rhs k ih => intro f h; exact ih f h
  | zero dst k ih => intro f h; simp only [strip, run]; rw [ih _ h.2, Function.update_of_ne (Ne.symm h.1)]
  | copymask dst mask src test k ih => intro f h; simp only [strip, run]; rw [ih _ h.2, Function.update_of_ne (Ne.symm h.1)]
  | coord dst mu conv k ih => intro f h; simp only [strip, run]; rw [ih _ h.2, Function.update_of_ne (Ne.symm h.1)]
  | map dst src func k ih => intro f h; simp only [strip, run]; rw [ih _ h.2, Function.update_of_ne (Ne.symm h.1)]
  | peek src c k ih => intro f h; exact ih _ _ (h _)
  | poke dst c v k ih => intro f h; simp only [strip, run]; rw [ih _ h.2, Function.update_of_ne (Ne.symm h.1)]
  | sum sub rhs k ih => intro f h; exact ih _ _ (h _)

/-- C104: a field that is written by nothing but statements holds after every execution, on every node, what its memory held before. -/
theorem C104_statements_nothing [AddCommMonoid V] (tot : List V → V) (htot : ∀ l, tot l = l.sum) (net : Net) (g : Geom) (hg : g.Good) (h4 : 4 ∣ g.sites)
    (h0 : 0 < g.nodes) (p : Prog V R) (F : Nat → Local V) (f : Nat → List Nat → V) (hF : HoldsAll g F f) (hl : Legal g p) (x : Nat) (hx : OnlyStatements x p)
    (m : Nat) (t : State (List V) (R × Local V)) (ht : Run net g.nodes m (start tot g p F) t) (hft : Final net g.nodes t) :
    ∃ (r : R) (F' : Nat → Local V), (∀ n, n < g.nodes → t.proc n = .done (r, F' n)) ∧ Holds g (fun n => F' n x) (f x) := by
  obtain ⟨N, h⟩ := C104_program tot htot net g hg h4 h0 p F f hF hl
  obtain ⟨F', h1, h2⟩ := (h m t ht).2.2 hft
  have := h2 x
  rw [run_only _ x p f hx] at this
  exact ⟨_, F', h1, this⟩

/-- C104, refuted: whatever the machine, the program "set the field to 1, look at a site" gives what was there before. -/
theorem C104_statement_refuted (net : Net) (g : Geom) (hg : g.Good) (h4 : 4 ∣ g.sites) (h0 : 0 < g.nodes) (c : List Nat) (hc : InRange c g.L)
    (F : Nat → Local Int) (f : Nat → List Nat → Int) (hF : HoldsAll g F f) (hf : f 0 c ≠ 1) :
    let p : Prog Int Int := .assign 0 Spmd.allSites (fun _ r => r) (.op1 (fun _ => 1) (.fld 0)) <| .peek 0 c fun v => .ret v
    (run (latticeSum g.L) p f).1 = 1 ∧ AlwaysEndsIn net g (start List.sum g p F) (f 0 c) f ∧
      ¬ AlwaysEndsIn net g (start List.sum g p F) (run (latticeSum g.L) p f).1 (run (latticeSum g.L) p f).2 := by
  intro p
  have hall : Spmd.allSites.Legal g.L := ⟨by decide, fun c _ => by simp [Spmd.allSites, allFunc]⟩
  have hl : Legal g p := ⟨hall, hc, fun _ => trivial⟩
  have h1 : (run (latticeSum g.L) p f).1 = 1 := by
    simp only [p, run, Function.update_self]
    rw [if_pos (by simp [Spmd.allSites, allFunc])]
    rfl
  have h2 := C104_program List.sum (fun _ => rfl) net g hg h4 h0 p F f hF hl
  refine ⟨h1, h2, ?_⟩
  rintro ⟨N, h⟩
  have hat : At g.nodes (start List.sum g p F) (fun n => node List.sum g n p (F n)) 0 := ⟨fun _ _ => rfl, fun _ => rfl, fun _ _ => rfl⟩
  obtain ⟨N', e, F', e', hr, he, hF'⟩ := one_run List.sum (fun _ => rfl) net g hg h4 h0 p F f _ 0 hF hl hat
  obtain ⟨E, k1, -⟩ := (h N' e hr).2.2 (final_of_done net g.nodes e _ he.proc)
  have := he.proc 0 h0
  rw [k1 0 h0, h1] at this
  injection this with this
  injection this with this _
  exact hf this.symm

/-! ### the random numbers -/

/-- `lexoc *= L[m]; lexoc += latticeCoordinate(m)` for `m` from `Nd-2` down to 0, lib/qdp_random.cc:86-90; field 0 is `lexoc`, field 6 the new field of the coordinates -/
def lexLoop (L : List Nat) : Nat → Prog Nat Unit → Prog Nat Unit
  | 0, k => k
  | m + 1, k => .assign 0 Spmd.allSites (fun d _ => d * L.getD m 0) (.fld 0) <| .coord 6 m id <| .assign 0 Spmd.allSites (fun d r => d + r) (.fld 6) <| lexLoop L m k

/-- the loop over the bits, lib/qdp_random.cc:114-124; fields: 1 `laa`, 2 `lattice_ran_mult_tmp`, 3 `laamult`, 4 `lbit` -/
def bitLoop : Nat → Prog Nat Unit → Prog Nat Unit
  | 0, k => k
  | n + 1, k =>
    .assign 4 Spmd.allSites (fun _ r => r) (.op1 (fun x => x &&& 1) (.fld 0)) <|
    .assign 3 Spmd.allSites (fun _ r => r) (.op2 (fun a b => a * b % 140737488355328) (.fld 2) (.fld 1)) <|
    .copymask 2 4 3 (fun b => b != 0) <|
    .assign 0 Spmd.allSites (fun d _ => d >>> 1) (.fld 0) <|
    .assign 3 Spmd.allSites (fun _ r => r) (.op2 (fun a b => a * b % 140737488355328) (.fld 1) (.fld 1)) <|
    .assign 1 Spmd.allSites (fun _ r => r) (.fld 3) <| bitLoop n k

/-- `initRNG`, lib/qdp_random.cc:54-165, the part that deals with fields; `a` is `ran_mult`, field 5 is `*lattice_ran_mult`.  A seed is its number (C19), a truth
value 0 or 1. -/
def initRNG (L : List Nat) (a nbits : Nat) : Prog Nat Unit :=
  .coord 6 (L.length - 1) id <| .assign 0 Spmd.allSites (fun _ r => r) (.fld 6) <| lexLoop L (L.length - 1) <|
  .assign 0 Spmd.allSites (fun d _ => d + 1) (.fld 0) <|
  .assign 1 Spmd.allSites (fun _ _ => a) (.fld 1) <| .assign 2 Spmd.allSites (fun _ _ => 1) (.fld 2) <|
  bitLoop nbits <| .assign 5 Spmd.allSites (fun _ r => r) (.fld 2) <| .ret ()

theorem lexLoop_only (L : List Nat) (k : Prog Nat Unit) (hk : OnlyStatements 5 k) : ∀ m, OnlyStatements 5 (lexLoop L m k)
  | 0 => hk
  | m + 1 => ⟨by decide, lexLoop_only L k hk m⟩

theorem bitLoop_only (k : Prog Nat Unit) (hk : OnlyStatements 5 k) : ∀ n, OnlyStatements 5 (bitLoop n k)
  | 0 => hk
  | n + 1 => ⟨by decide, bitLoop_only k hk n⟩

theorem all_legal (L : List Nat) : Spmd.allSites.Legal L := ⟨by decide, fun c _ => by simp [Spmd.allSites, allFunc]⟩

theorem lexLoop_legal (g : Geom) (k : Prog Nat Unit) (hk : Legal g k) : ∀ m, m ≤ g.L.length → Legal g (lexLoop g.L m k)
  | 0, _ => hk
  | m + 1, h => ⟨all_legal _, by omega, all_legal _, lexLoop_legal g k hk m (by omega)⟩

theorem bitLoop_legal (g : Geom) (k : Prog Nat Unit) (hk : Legal g k) : ∀ n, Legal g (bitLoop n k)
  | 0 => hk
  | n + 1 => ⟨all_legal _, all_legal _, all_legal _, all_legal _, all_legal _, bitLoop_legal g k hk n⟩

theorem initRNG_legal (g : Geom) (hL : g.L ≠ []) (a nbits : Nat) : Legal g (initRNG g.L a nbits) := by
  have hp : 0 < g.L.length := List.length_pos_iff.2 hL
  refine ⟨by omega, all_legal _, lexLoop_legal g _ ?_ _ (by omega)⟩
  refine ⟨all_legal _, all_legal _, all_legal _, bitLoop_legal g _ ?_ nbits⟩
  exact ⟨all_legal _, trivial⟩

theorem initRNG_only (L : List Nat) (a nbits : Nat) : OnlyStatements 5 (initRNG L a nbits) := by
  refine ⟨by decide, lexLoop_only L _ ?_ _⟩
  exact bitLoop_only (.assign 5 Spmd.allSites (fun _ r => r) (.fld 2) (.ret ())) trivial nbits

/-- C104, refuted: `Layout::create` returns here (unlike C100), but the field of multipliers of the random number generator holds what its memory held before,
on every machine and in every execution. -/
theorem C104_rng_not_set (net : Net) (g : Geom) (hg : g.Good) (h4 : 4 ∣ g.sites) (h0 : 0 < g.nodes) (hL : g.L ≠ []) (a nbits : Nat)
    (F : Nat → Local Nat) (f : Nat → List Nat → Nat) (hF : HoldsAll g F f)
    (m : Nat) (t : State (List Nat) (Unit × Local Nat)) (ht : Run net g.nodes m (start List.sum g (initRNG g.L a nbits) F) t) (hft : Final net g.nodes t) :
    ∃ F' : Nat → Local Nat, (∀ n, n < g.nodes → t.proc n = .done ((), F' n)) ∧ Holds g (fun n => F' n 5) (f 5) := by
  obtain ⟨r, F', h1, h2⟩ := C104_statements_nothing List.sum (fun _ => rfl) net g hg h4 h0 (initRNG g.L a nbits) F f hF (initRNG_legal g hL a nbits) 5
    (initRNG_only g.L a nbits) m t ht hft
  exact ⟨F', h1, h2⟩

/-- what the text of `initRNG` says: the multiplier of the site number `r` is the power `r + 1` of the multiplier -/
example : (List.range 8).map (fun r => (run (latticeSum [4, 2]) (initRNG [4, 2] 5 4) (fun _ _ => 0)).2 5 (digits r [4, 2])) =
    (List.range 8).map (fun r => 5 ^ (r + 1)) := by decide

/-! ### shifts, and machines -/

/-- C104: shifts are legal on the machines the library creates -/
theorem C104_shift_legal (g : Geom) (hg : g.Good) (m : Machine) (hm : m.Good) (S : List Nat) (hcut : Cut g.L m.size S)
    (hnode : g.nodeNumber = nodeNumber m S) (hpos : 0 < g.sites) (hL : ∀ l ∈ g.L, 5 * l < 2 ^ 31) (s : Sgn) (dir : Nat) (hd : dir < g.L.length) :
    (∃ φ ψ, IsPerm g.L (shiftFunc g.L s.toInt dir) φ ψ) ∧ ∀ n, n < g.nodes → ∃ t, make g n (shiftFunc g.L s.toInt dir) = ok t := by
  obtain ⟨T, hT, -⟩ := C09_shift g hg m hm S hcut hnode hpos hL s dir hd
  exact ⟨⟨_, _, shift_isPerm hL hd s⟩, fun n hn => ⟨T n, hT n hn⟩⟩

/-- C104: the field after a shift, on every machine of C02 in the lexicographic order: the neighbour's value, in every execution -/
theorem C104_shift (net : Net) [AddCommMonoid V] (L S : List Nat) (m : Machine) (hm : m.Good)
    (hcut : Cut L m.size S) (hne : L ≠ []) (hS : ∀ s ∈ S, 0 < s) (hP : ∀ p ∈ m.size, 0 < p) (hv : nsites L < 2 ^ 31) (hL : ∀ l ∈ L, 5 * l < 2 ^ 31)
    (h4 : 4 ∣ nsites S) (s : Sgn) (dir : Nat) (hd : dir < L.length) (F : Nat → Local V) (f : Nat → List Nat → V) (hF : HoldsAll (geomLex L m S) F f) :
    AlwaysEndsIn net (geomLex L m S) (start List.sum (geomLex L m S) (.map 1 0 (shiftFunc L s.toInt dir) (.ret ())) F) ()
      (Function.update f 1 fun c => f 0 (source (shiftFunc L s.toInt dir) c)) := by
  have hg := C02_lexico L S m hm hcut hne hS hP hv
  obtain ⟨h1, h2⟩ := C104_shift_legal (geomLex L m S) hg m hm S hcut rfl (nsites_pos hS) hL s dir hd
  exact C104_right_partial List.sum (fun _ => rfl) net (geomLex L m S) hg h4 (nsites_pos hP) (.map 1 0 (shiftFunc L s.toInt dir) (.ret ())) F f hF ⟨h1, h2, trivial⟩ trivial

/-- and the neighbour is the site one step away -/
theorem source_shift {L : List Nat} (hL : ∀ l ∈ L, 5 * l < 2 ^ 31) {dir : Nat} (hd : dir < L.length) (s : Sgn) {c : List Nat} (hc : InRange c L) :
    source (shiftFunc L s.toInt dir) c = nbr L c s dir := by
  rw [source, ((shift_isPerm hL hd s).fwd c hc).1]

/-- every field has its pieces: the hypothesis `HoldsAll` of the theorems can always be met -/
theorem pieces (g : Geom) (h4 : 4 ∣ g.sites) (f : Nat → List Nat → V) :
    HoldsAll g (fun n x => (List.range (g.sites / 4)).map fun o => (List.range 4).map fun j => f x (co g n (4 * o + j))) f := by
  intro x n _
  refine ⟨⟨by simp, fun v hv => ?_⟩, fun i c hi hc => ?_⟩
  · obtain ⟨o, -, rfl⟩ := List.mem_map.1 hv
    simp
  · have h1 : i / 4 < g.sites / 4 := by omega
    refine ⟨(List.range 4).map fun j => f x (co g n (4 * (i / 4) + j)), by simp [h1], ?_⟩
    have h2 : i % 4 < 4 := Nat.mod_lt _ (by decide)
    have h3 : 4 * (i / 4) + i % 4 = i := by omega
    have h5 : co g n i = c := by simp [co, hc]
    simp [h2, h3, h5]

/-- two nodes of twelve sites each, red sites first -/
def two : Geom := geomCB2 [4, 6] (lexMachine [1, 2]) [4, 3]

theorem two_good : two.Good :=
  C02_cb2 [4, 6] [3] 4 (lexMachine [1, 2]) (lexMachine_good _) (by simp [Cut, lexMachine]) rfl (by decide) (by decide)

/-- the six red sites of a node are one stretch that ends inside a vector … -/
example : covered two 0 ⟨rbFunc, 2, 1⟩ = [4, 5, 6, 7, 8, 9, 10, 11] ∧ subSites two 0 ⟨rbFunc, 2, 1⟩ = [6, 7, 8, 9, 10, 11] := by decide

/-- … so that the sum of 1 over the twelve odd sites of the lattice is 16 -/
example : vecSum two ⟨rbFunc, 2, 1⟩ (fun _ => (1 : Int)) = 16 ∧ latticeSum two.L ⟨rbFunc, 2, 1⟩ (fun _ => (1 : Int)) = 12 := by decide

/-- with blocks of sixteen sites the checkerboards are whole vectors -/
example : Whole (geomCB2 [4, 8] (lexMachine [1, 2]) [4, 4]) ⟨rbFunc, 2, 1⟩ := by
  intro n hn
  have : n < 2 := hn
  interval_cases n <;> decide

/-- a program of two shifts, a poke, a sum over the lattice and a peek, on two nodes, with its result in every execution -/
example (net : Net) : let f : Nat → List Nat → Int := fun _ c => 10 * (c.getD 0 0) + c.getD 1 0
    let L : List Nat := [4, 6]
    let p : Prog Int (Int × Int) := .map 1 0 (shiftFunc L Sgn.fwd.toInt 1) <| .poke 1 [3, 5] 100 <| .sum Spmd.allSites (.op2 (· + ·) (.fld 0) (.fld 1)) fun x =>
      .peek 1 [3, 2] fun y => .ret (x, y)
    ∃ F : Nat → Local Int, HoldsAll (geomLex L (lexMachine [1, 2]) [4, 3]) F f ∧
      AlwaysEndsIn net (geomLex L (lexMachine [1, 2]) [4, 3]) (start List.sum (geomLex L (lexMachine [1, 2]) [4, 3]) p F) (910, 33) (run (latticeSum L) p f).2 := by
  intro f L p
  have hg := C02_lexico [4, 6] [4, 3] (lexMachine [1, 2]) (lexMachine_good _) (by simp [Cut, lexMachine]) (by decide) (by decide) (by simp [lexMachine]) (by decide)
  have h4 : 4 ∣ (geomLex L (lexMachine [1, 2]) [4, 3]).sites := by decide
  have hs := C104_shift_legal (geomLex L (lexMachine [1, 2]) [4, 3]) hg (lexMachine [1, 2]) (lexMachine_good _) [4, 3] (by simp [Cut, lexMachine, geomLex, L]) rfl (by decide)
    (by decide) Sgn.fwd 1 (by decide)
  have hp := pieces _ h4 f
  refine ⟨_, hp, ?_⟩
  have := C104_right_partial List.sum (fun _ => rfl) net _ hg h4 (by decide) p _ f hp
    ⟨hs.1, hs.2, (by decide : InRange [3, 5] [4, 6]), all_legal _, fun x => ⟨(by decide : InRange [3, 2] [4, 6]), fun _ => trivial⟩⟩ ⟨whole_all _, fun _ _ => trivial⟩
  have e : (run (latticeSum (geomLex L (lexMachine [1, 2]) [4, 3]).L) p f).1 = (910, 33) := by decide
  rw [e] at this
  exact this

end
end Verif.VecNodes
