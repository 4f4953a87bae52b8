import Verif.ParLayout
import Mathlib.Data.Finset.Card
import Mathlib.Data.Finset.Image
/-
Which node does the reading and writing for which, lib/qdp_qdpio.cc:40-94, with the grid of I/O nodes of lib/qdp_parscalar_layout.cc:155-214.

The grid given on the command line is taken as natural numbers (the code takes any `int`).
-/
namespace Verif.IoNode
open Verif Outcome Verif.Layout Verif.ParLayout

/-! ## model -/

/-- `block_sizes[mu]`, lib/qdp_qdpio.cc:71-79 -/
def blockSize (proc io : Nat) : Outcome Nat := do
  let q ← cdiv proc io
  let r ← cmod proc io
  ok (if r ≠ 0 then q + 1 else q)

def blockSizes : List Nat → List Nat → Outcome (List Nat)
  | [], _ => ok []
  | p :: ps, g :: gs => do
    let b ← blockSize p g
    let bs ← blockSizes ps gs
    ok (b :: bs)
  | _ :: _, [] => ub

/-- `io_node_coords`, lib/qdp_qdpio.cc:84-92 -/
def corner : List Nat → List Nat → Outcome (List Nat)
  | [], _ => ok []
  | c :: cs, b :: bs => do
    let q ← cdiv c b
    let r ← corner cs bs
    ok (q * b :: r)
  | _ :: _, [] => ub

/-- `io_node`, lib/qdp_qdpio.cc:54-94.  `grid` is `none` if no grid is defined, lib/qdp_parscalar_layout.cc:162-165; the number of I/O nodes is the product
computed by `setIONodeGrid`, lib/qdp_parscalar_layout.cc:197-208. -/
def ioNode (m : Machine) (grid : Option (List Nat)) (node : Nat) : Outcome Nat :=
  match grid with
  | none => ok node
  | some g => do
    let num ← volume g
    if num = 1 then ok 0
    else do
      let bs ← blockSizes m.size g
      let c ← corner (m.coordFrom node) bs
      ok (m.nodeFrom c)

/-! ## specification -/

/-- smallest number of times `b` that covers `a` -/
def ceil (a b : Nat) : Nat := (a + b - 1) / b

/-- positive numbers, as many as directions -/
structure Grid (g : List Nat) (P : List Nat) : Prop where
  len : g.length = P.length
  pos : ∀ x ∈ g, 0 < x
  small : nsites g < 2 ^ 31

/-- the nodes that do I/O -/
def ioNodes (m : Machine) (grid : Option (List Nat)) : Finset Nat := ((Finset.range (nsites m.size)).image fun n =>
  match ioNode m grid n with
  | ok k => k
  | _ => 0)

/-! ## proofs -/

theorem ceil_eq (p g : Nat) (hg : 0 < g) : blockSize p g = ok (ceil p g) := by
  simp only [blockSize, cdiv_pos hg, cmod_pos hg, ok_bind, ceil]
  congr 1
  have h := Nat.div_add_mod p g
  have hl := Nat.mod_lt p hg
  split
  · rename_i h0
    symm
    rw [Nat.div_eq_iff hg]
    have : g * (p / g) = p / g * g := Nat.mul_comm _ _
    constructor
    · rw [Nat.add_mul]; omega
    · rw [Nat.add_mul]; omega
  · rename_i h0
    simp only [ne_eq, Decidable.not_not] at h0
    symm
    rw [Nat.div_eq_iff hg]
    have : g * (p / g) = p / g * g := Nat.mul_comm _ _
    omega

theorem ceil_pos {p g : Nat} (hp : 0 < p) (hg : 0 < g) : 0 < ceil p g := by
  unfold ceil
  exact Nat.div_pos (by omega) hg

theorem lt_ceil_mul {p b : Nat} (hb : 0 < b) {c : Nat} (h : c < p) : c / b < ceil p b := by
  unfold ceil
  have : (c / b + 1) * b ≤ p + b - 1 := by
    have := Nat.div_mul_le_self c b
    rw [Nat.add_mul]; omega
  exact (Nat.le_div_iff_mul_le hb).2 this

theorem mul_lt_of_lt_ceil {p b k : Nat} (hb : 0 < b) (h : k < ceil p b) : k * b < p := by
  unfold ceil at h
  have : (k + 1) * b ≤ p + b - 1 := (Nat.le_div_iff_mul_le hb).1 h
  rw [Nat.add_mul] at this
  omega

theorem one_of_mul {a b : Nat} (h : a * b = 1) : a = 1 ∧ b = 1 := ⟨Nat.eq_one_of_dvd_one ⟨b, h.symm⟩, Nat.eq_one_of_dvd_one ⟨a, by rw [Nat.mul_comm]; exact h.symm⟩⟩

def ceils (P g : List Nat) : List Nat := List.zipWith ceil P g

theorem blockSizes_eq : ∀ {P g : List Nat}, g.length = P.length → (∀ x ∈ g, 0 < x) → blockSizes P g = ok (ceils P g)
  | [], [], _, _ => rfl
  | p :: P, x :: g, h, hp => by
    simp only [List.length_cons, Nat.add_right_cancel_iff] at h
    simp [blockSizes, ceil_eq p x (hp x (by simp)), blockSizes_eq h fun y hy => hp y (by simp [hy]), ceils]

def corners (c b : List Nat) : List Nat := List.zipWith (fun c b => c / b * b) c b

theorem corner_eq : ∀ {c b : List Nat}, b.length = c.length → (∀ x ∈ b, 0 < x) → corner c b = ok (corners c b)
  | [], [], _, _ => rfl
  | x :: c, y :: b, h, hp => by
    simp only [List.length_cons, Nat.add_right_cancel_iff] at h
    simp [corner, cdiv_pos (hp y (by simp)), corner_eq h fun z hz => hp z (by simp [hz]), corners]

theorem ceils_pos : ∀ {P g : List Nat}, (∀ x ∈ P, 0 < x) → (∀ x ∈ g, 0 < x) → ∀ b ∈ ceils P g, 0 < b
  | [], _, _, _ => by simp [ceils]
  | _ :: _, [], _, _ => by simp [ceils]
  | p :: P, x :: g, hP, hg => by
    intro b hb
    simp only [ceils, List.zipWith_cons_cons, List.mem_cons] at hb
    rcases hb with rfl | hb
    · exact ceil_pos (hP p (by simp)) (hg x (by simp))
    · exact ceils_pos (fun y hy => hP y (by simp [hy])) (fun y hy => hg y (by simp [hy])) b hb

theorem corners_inRange : ∀ {c P b : List Nat}, InRange c P → b.length = P.length → InRange (corners c b) P
  | [], [], [], _, _ => trivial
  | x :: c, p :: P, y :: b, h, hl => by
    simp only [List.length_cons, Nat.add_right_cancel_iff] at hl
    exact ⟨Nat.lt_of_le_of_lt (Nat.div_mul_le_self x y) h.1, corners_inRange h.2 hl⟩
  | [], [], _ :: _, _, hl => by simp at hl
  | _ :: _, _ :: _, [], _, hl => by simp at hl
  | [], _ :: _, _, h, _ => h.elim
  | _ :: _, [], _, h, _ => h.elim

theorem corners_idem : ∀ {c b : List Nat}, (∀ x ∈ b, 0 < x) → corners (corners c b) b = corners c b
  | [], b, _ => by simp [corners]
  | _ :: _, [], _ => by simp [corners]
  | x :: c, y :: b, h => by
    have := corners_idem (c := c) (b := b) fun z hz => h z (by simp [hz])
    simp only [corners] at this ⊢
    simp [Nat.mul_div_cancel _ (h y (by simp)), this]

theorem corners_iff : ∀ {c c' b : List Nat}, c.length = b.length → c'.length = b.length → (∀ x ∈ b, 0 < x) →
    (corners c b = corners c' b ↔ List.zipWith (· / ·) c b = List.zipWith (· / ·) c' b)
  | [], [], _, _, _, _ => by simp
  | x :: c, x' :: c', y :: b, h, h', hp => by
    simp only [List.length_cons, Nat.add_right_cancel_iff] at h h'
    have ih := corners_iff h h' fun z hz => hp z (by simp [hz])
    simp only [corners, List.zipWith_cons_cons, List.cons.injEq] at ih ⊢
    rw [ih, Nat.mul_left_inj (Nat.ne_of_gt (hp y (by simp)))]
  | [], _ :: _, b, h, h', _ => by simp at h h'; omega
  | _ :: _, [], b, h, h', _ => by simp at h h'; omega
  | _ :: _, _ :: _, [], h, _, _ => by simp at h

theorem ioNode_eq {m : Machine} {g : List Nat} (hg : Grid g m.size) (hP : ∀ x ∈ m.size, 0 < x) (hm : m.Good) {n : Nat} (hn : n < nsites m.size) :
    ioNode m (some g) n = if nsites g = 1 then ok 0 else ok (m.nodeFrom (corners (m.coordFrom n) (ceils m.size g))) := by
  simp only [ioNode]
  rw [volume_eq hg.pos hg.small]
  simp only [ok_bind]
  split
  · rfl
  · rw [blockSizes_eq hg.len hg.pos]
    simp only [ok_bind]
    rw [corner_eq (by rw [(hm.1 n hn).1.length_eq]; simp [ceils, hg.len]) (ceils_pos hP hg.pos)]
    rfl

theorem ceils_length {P g : List Nat} (h : g.length = P.length) : (ceils P g).length = P.length := by simp [ceils, h]

/-- C74: every node has an I/O node, which is a node of the machine and does its own I/O -/
theorem C74_node (m : Machine) (hm : m.Good) (hP : ∀ x ∈ m.size, 0 < x) (grid : Option (List Nat)) (hg : ∀ g, grid = some g → Grid g m.size) (n : Nat) (hn : n < nsites m.size) :
    ∃ k, ioNode m grid n = ok k ∧ k < nsites m.size ∧ ioNode m grid k = ok k := by
  cases grid with
  | none => exact ⟨n, rfl, hn, rfl⟩
  | some g =>
    have hg := hg g rfl
    have h0 := nsites_pos hP
    rw [ioNode_eq hg hP hm hn]
    split
    · rename_i h1
      exact ⟨0, rfl, h0, by rw [ioNode_eq hg hP hm h0, if_pos h1]⟩
    · rename_i h1
      have hr := corners_inRange (hm.1 n hn).1 (ceils_length hg.len)
      obtain ⟨h2, h3⟩ := hm.2 _ hr
      refine ⟨_, rfl, h2, ?_⟩
      rw [ioNode_eq hg hP hm h2, if_neg h1, h3, corners_idem (ceils_pos hP hg.pos)]

theorem zipDiv_lt_one : ∀ {c P g : List Nat}, InRange c P → g.length = P.length → nsites g = 1 → (∀ x ∈ g, 0 < x) →
    List.zipWith (· / ·) c (ceils P g) = List.replicate P.length 0
  | [], [], _, _, _, _, _ => by simp
  | x :: c, p :: P, y :: g, h, hl, h1, hp => by
    simp only [List.length_cons, Nat.add_right_cancel_iff] at hl
    have h1' : y * nsites g = 1 := h1
    obtain ⟨rfl, hn⟩ := one_of_mul h1'
    have ih := zipDiv_lt_one h.2 hl hn fun z hz => hp z (by simp [hz])
    simp only [ceils] at ih
    simp [ceils, List.replicate_succ, ih, ceil, Nat.div_eq_of_lt h.1]
  | _ :: _, _ :: _, [], _, hl, _, _ => by simp at hl
  | [], _ :: _, _, h, _, _, _ => h.elim
  | _ :: _, [], _, h, _, _, _ => h.elim

/-- C74: two nodes have the same I/O node exactly if they lie in the same block of the machine; the blocks have `ceil (size / grid)` nodes in every direction -/
theorem C74_blocks (m : Machine) (hm : m.Good) (hP : ∀ x ∈ m.size, 0 < x) (g : List Nat) (hg : Grid g m.size) (n n' : Nat) (hn : n < nsites m.size) (hn' : n' < nsites m.size) :
    ioNode m (some g) n = ioNode m (some g) n' ↔
      List.zipWith (· / ·) (m.coordFrom n) (List.zipWith ceil m.size g) = List.zipWith (· / ·) (m.coordFrom n') (List.zipWith ceil m.size g) := by
  rw [ioNode_eq hg hP hm hn, ioNode_eq hg hP hm hn']
  obtain ⟨h1, _⟩ := hm.1 n hn
  obtain ⟨h1', _⟩ := hm.1 n' hn'
  split
  · rename_i h
    have e := zipDiv_lt_one h1 hg.len h hg.pos
    have e' := zipDiv_lt_one h1' hg.len h hg.pos
    simp only [ceils] at e e'
    simp [e, e']
  · have hl := ceils_length (P := m.size) hg.len
    rw [show List.zipWith ceil m.size g = ceils m.size g from rfl, ← corners_iff (by rw [h1.length_eq, hl]) (by rw [h1'.length_eq, hl]) (ceils_pos hP hg.pos)]
    constructor
    · intro h
      injection h with h
      have := congrArg m.coordFrom h
      rwa [(hm.2 _ (corners_inRange h1 hl)).2, (hm.2 _ (corners_inRange h1' hl)).2] at this
    · intro h; rw [h]

/-- number of blocks in every direction -/
def numBlocks (P g : List Nat) : List Nat := List.zipWith ceil P (ceils P g)

theorem scale_inRange : ∀ {k P b : List Nat}, InRange k (List.zipWith ceil P b) → b.length = P.length → (∀ x ∈ b, 0 < x) → InRange (List.zipWith (· * ·) k b) P
  | [], [], [], _, _, _ => trivial
  | x :: k, p :: P, y :: b, h, hl, hp => by
    simp only [List.length_cons, Nat.add_right_cancel_iff] at hl
    exact ⟨mul_lt_of_lt_ceil (hp y (by simp)) h.1, scale_inRange h.2 hl fun z hz => hp z (by simp [hz])⟩
  | [], [], _ :: _, _, hl, _ => by simp at hl
  | _ :: _, _ :: _, [], h, _, _ => h.elim
  | [], _ :: _, _ :: _, h, _, _ => h.elim
  | [], _ :: _, [], _, hl, _ => by simp at hl
  | _ :: _, [], [], h, _, _ => h.elim
  | _ :: _, [], _ :: _, h, _, _ => h.elim

theorem corners_scale : ∀ {k b : List Nat}, (∀ x ∈ b, 0 < x) → corners (List.zipWith (· * ·) k b) b = List.zipWith (· * ·) k b
  | [], _, _ => by simp [corners]
  | _ :: _, [], _ => by simp [corners]
  | x :: k, y :: b, hp => by
    have := corners_scale (k := k) (b := b) fun z hz => hp z (by simp [hz])
    simp only [corners] at this ⊢
    simp [this, Nat.mul_div_cancel _ (hp y (by simp))]

theorem scale_inj : ∀ {k k' b : List Nat}, k.length = b.length → k'.length = b.length → (∀ x ∈ b, 0 < x) → List.zipWith (· * ·) k b = List.zipWith (· * ·) k' b → k = k'
  | [], [], _, _, _, _, _ => rfl
  | x :: k, x' :: k', y :: b, h, h', hp, e => by
    simp only [List.length_cons, Nat.add_right_cancel_iff] at h h'
    simp only [List.zipWith_cons_cons, List.cons.injEq] at e
    rw [Nat.mul_left_inj (Nat.ne_of_gt (hp y (by simp)))] at e
    rw [e.1, scale_inj h h' (fun z hz => hp z (by simp [hz])) e.2]
  | [], _ :: _, b, h, h', _, _ => by simp at h h'; omega
  | _ :: _, [], b, h, h', _, _ => by simp at h h'; omega
  | _ :: _, _ :: _, [], h, _, _, _ => by simp at h

theorem quot_inRange : ∀ {c P b : List Nat}, InRange c P → b.length = P.length → (∀ x ∈ b, 0 < x) → InRange (List.zipWith (· / ·) c b) (List.zipWith ceil P b)
  | [], [], [], _, _, _ => trivial
  | x :: c, p :: P, y :: b, h, hl, hp => by
    simp only [List.length_cons, Nat.add_right_cancel_iff] at hl
    exact ⟨lt_ceil_mul (hp y (by simp)) h.1, quot_inRange h.2 hl fun z hz => hp z (by simp [hz])⟩
  | [], [], _ :: _, _, hl, _ => by simp at hl
  | _ :: _, _ :: _, [], _, hl, _ => by simp at hl
  | [], _ :: _, _, h, _, _ => h.elim
  | _ :: _, [], _, h, _, _ => h.elim

theorem corners_scale_quot : ∀ (c b : List Nat), corners c b = List.zipWith (· * ·) (List.zipWith (· / ·) c b) b
  | [], _ => by simp [corners]
  | _ :: _, [] => by simp [corners]
  | x :: c, y :: b => by
    have := corners_scale_quot c b
    simp only [corners] at this
    simp [corners, this]

/-- C74: the number of nodes that do I/O is the number of blocks -/
theorem C74_count (m : Machine) (hm : m.Good) (hP : ∀ x ∈ m.size, 0 < x) (g : List Nat) (hg : Grid g m.size) :
    (ioNodes m (some g)).card = nsites (List.zipWith ceil m.size (List.zipWith ceil m.size g)) := by
  have hl := ceils_length (P := m.size) hg.len
  have hb := ceils_pos hP hg.pos
  have h0 := nsites_pos hP
  by_cases h1 : nsites g = 1
  · have e1 : ioNodes m (some g) = {0} := by
      unfold ioNodes
      ext k
      simp only [Finset.mem_image, Finset.mem_range, Finset.mem_singleton]
      constructor
      · rintro ⟨n, hn, rfl⟩
        rw [ioNode_eq hg hP hm hn, if_pos h1]
      · rintro rfl
        exact ⟨0, h0, by rw [ioNode_eq hg hP hm h0, if_pos h1]⟩
    rw [e1, Finset.card_singleton]
    symm
    have : ∀ {P g : List Nat}, (∀ x ∈ P, 0 < x) → g.length = P.length → nsites g = 1 → nsites (List.zipWith ceil P (List.zipWith ceil P g)) = 1 := by
      intro P
      induction P with
      | nil => intro g _ _ _; simp [nsites]
      | cons p P ih =>
        intro g hP hl h1
        cases g with
        | nil => simp at hl
        | cons y g =>
          have h1' : y * nsites g = 1 := h1
          obtain ⟨rfl, hn⟩ := one_of_mul h1'
          simp only [List.zipWith_cons_cons]
          show ceil p (ceil p 1) * nsites _ = 1
          rw [ih (fun x hx => hP x (by simp [hx])) (by simpa using hl) hn]
          have hp : 0 < p := hP p (by simp)
          simp only [ceil, Nat.add_sub_cancel, Nat.div_one, Nat.mul_one]
          rw [Nat.div_eq_iff hp]; omega
    exact this hP hg.len h1
  · have hio : ∀ n, n < nsites m.size → ioNode m (some g) n = ok (m.nodeFrom (corners (m.coordFrom n) (ceils m.size g))) := fun n hn => by
      rw [ioNode_eq hg hP hm hn, if_neg h1]
    rw [show List.zipWith ceil m.size (List.zipWith ceil m.size g) = numBlocks m.size g from rfl]
    rw [← Finset.card_range (nsites (numBlocks m.size g))]
    symm
    refine Finset.card_bij (fun i _ => m.nodeFrom (List.zipWith (· * ·) (digits i (numBlocks m.size g)) (ceils m.size g))) ?_ ?_ ?_
    · intro i hi
      have hr := scale_inRange (k := digits i (numBlocks m.size g)) (digits_inRange (Finset.mem_range.1 hi)) hl hb
      obtain ⟨h2, h3⟩ := hm.2 _ hr
      simp only [ioNodes, Finset.mem_image, Finset.mem_range]
      refine ⟨_, h2, ?_⟩
      rw [hio _ h2, h3]
      simp only [corners_scale hb]
    · intro i hi j hj e
      have hi' := digits_inRange (Finset.mem_range.1 hi)
      have hj' := digits_inRange (Finset.mem_range.1 hj)
      have e' := congrArg m.coordFrom e
      rw [(hm.2 _ (scale_inRange hi' hl hb)).2, (hm.2 _ (scale_inRange hj' hl hb)).2] at e'
      have hn : (numBlocks m.size g).length = (ceils m.size g).length := by simp [numBlocks, ceils, hg.len]
      have := scale_inj (by rw [hi'.length_eq, hn]) (by rw [hj'.length_eq, hn]) hb e'
      rw [← rank_digits (Finset.mem_range.1 hi), this, rank_digits (Finset.mem_range.1 hj)]
    · intro k hk
      simp only [ioNodes, Finset.mem_image, Finset.mem_range] at hk
      obtain ⟨n, hn, rfl⟩ := hk
      rw [hio n hn]
      have hq : InRange _ (numBlocks m.size g) := quot_inRange (hm.1 n hn).1 hl hb
      refine ⟨rank (List.zipWith (· / ·) (m.coordFrom n) (ceils m.size g)) (numBlocks m.size g), Finset.mem_range.2 (rank_lt hq), ?_⟩
      simp only
      rw [digits_rank hq, corners_scale_quot]

theorem ceil_ceil_le {p g : Nat} (hp : 0 < p) (hg : 0 < g) : ceil p (ceil p g) ≤ g := by
  have hb := ceil_pos hp hg
  have h : p ≤ g * ceil p g := by
    have h1 := Nat.div_add_mod (p + g - 1) g
    have h2 := Nat.mod_lt (p + g - 1) hg
    unfold ceil
    omega
  have : ceil p (ceil p g) < g + 1 := by
    rw [ceil, Nat.div_lt_iff_lt_mul hb, Nat.add_mul]
    omega
  omega

theorem ceil_ceil_dvd {p g : Nat} (hp : 0 < p) (h : g ∣ p) : ceil p (ceil p g) = g := by
  obtain ⟨k, rfl⟩ := h
  have hg : 0 < g := by
    rcases Nat.eq_zero_or_pos g with rfl | h'
    · simp at hp
    · exact h'
  have hk : 0 < k := by
    rcases Nat.eq_zero_or_pos k with rfl | h'
    · simp at hp
    · exact h'
  have e : ∀ a b : Nat, 0 < b → ceil (a * b) b = a := by
    intro a b hb
    unfold ceil
    rw [Nat.div_eq_iff hb]
    omega
  rw [show ceil (g * k) g = k by rw [Nat.mul_comm]; exact e k g hg]
  exact e g k hk

theorem nsites_le : ∀ {P g : List Nat}, (∀ x ∈ P, 0 < x) → (∀ x ∈ g, 0 < x) → g.length = P.length → nsites (List.zipWith ceil P (List.zipWith ceil P g)) ≤ nsites g
  | [], [], _, _, _ => by simp [nsites]
  | p :: P, y :: g, hP, hg, hl => by
    simp only [List.length_cons, Nat.add_right_cancel_iff] at hl
    exact Nat.mul_le_mul (ceil_ceil_le (hP p (by simp)) (hg y (by simp))) (nsites_le (fun x hx => hP x (by simp [hx])) (fun x hx => hg x (by simp [hx])) hl)

/-- C74: there are never more nodes doing I/O than asked for -/
theorem C74_at_most (m : Machine) (hm : m.Good) (hP : ∀ x ∈ m.size, 0 < x) (g : List Nat) (hg : Grid g m.size) : (ioNodes m (some g)).card ≤ nsites g := by
  rw [C74_count m hm hP g hg]
  exact nsites_le hP hg.pos hg.len

/-- C74: as many nodes do I/O as asked for, if the grid divides the machine -/
theorem C74_asked_partial (m : Machine) (hm : m.Good) (hP : ∀ x ∈ m.size, 0 < x) (g : List Nat) (hg : Grid g m.size)
    (hd : ∀ i (h : i < g.length) (h' : i < m.size.length), g[i] ∣ m.size[i]) : (ioNodes m (some g)).card = nsites g := by
  rw [C74_count m hm hP g hg]
  have : ∀ {P g : List Nat}, (∀ x ∈ P, 0 < x) → g.length = P.length → (∀ i (h : i < g.length) (h' : i < P.length), g[i] ∣ P[i]) →
      nsites (List.zipWith ceil P (List.zipWith ceil P g)) = nsites g := by
    intro P
    induction P with
    | nil => intro g _ hl _; cases g with | nil => rfl | cons y g => simp at hl
    | cons p P ih =>
      intro g hP hl hd
      cases g with
      | nil => simp at hl
      | cons y g =>
        simp only [List.zipWith_cons_cons]
        show ceil p (ceil p y) * nsites _ = y * nsites g
        rw [ceil_ceil_dvd (hP p (by simp)) (show y ∣ p from hd 0 (by simp) (by simp)), ih (fun x hx => hP x (by simp [hx])) (by simpa using hl)]
        intro i h h'
        exact hd (i + 1) (by simpa using h) (by simpa using h')
  exact this hP hg.len hd

/-- C74 refuted: if in some direction the blocks do not come out even, fewer nodes do I/O than asked for -/
theorem C74_fewer (m : Machine) (hm : m.Good) (hP : ∀ x ∈ m.size, 0 < x) (g : List Nat) (hg : Grid g m.size)
    (i : Nat) (h : i < g.length) (h' : i < m.size.length) (hi : ceil m.size[i] (ceil m.size[i] g[i]) < g[i]) : (ioNodes m (some g)).card < nsites g := by
  rw [C74_count m hm hP g hg]
  have : ∀ {P g : List Nat} (i : Nat), (∀ x ∈ P, 0 < x) → (∀ x ∈ g, 0 < x) → g.length = P.length → ∀ (h : i < g.length) (h' : i < P.length),
      ceil P[i] (ceil P[i] g[i]) < g[i] → nsites (List.zipWith ceil P (List.zipWith ceil P g)) < nsites g := by
    intro P
    induction P with
    | nil => intro g i _ _ _ _ h'; simp at h'
    | cons p P ih =>
      intro g i hP hg hl h h' hi
      cases g with
      | nil => simp at h
      | cons y g =>
        simp only [List.length_cons, Nat.add_right_cancel_iff] at hl
        have hP' : ∀ x ∈ P, 0 < x := fun x hx => hP x (by simp [hx])
        have hg' : ∀ x ∈ g, 0 < x := fun x hx => hg x (by simp [hx])
        simp only [List.zipWith_cons_cons]
        show ceil p (ceil p y) * nsites _ < y * nsites g
        cases i with
        | zero =>
          simp only [List.getElem_cons_zero] at hi
          exact Nat.lt_of_le_of_lt (Nat.mul_le_mul_left _ (nsites_le hP' hg' hl)) (Nat.mul_lt_mul_of_pos_right hi (nsites_pos hg'))
        | succ i =>
          simp only [List.getElem_cons_succ] at hi
          have := ih i hP' hg' hl (by simpa using h) (by simpa using h') hi
          exact Nat.lt_of_le_of_lt (Nat.mul_le_mul_right _ (ceil_ceil_le (hP p (by simp)) (hg y (by simp)))) (Nat.mul_lt_mul_of_pos_left this (hg y (by simp)))
  exact this i hP hg.pos hg.len h h' hi

theorem volLoop_zero : ∀ (g : List Nat) (v : Nat), v = 0 ∨ 0 ∈ g → volLoop g v = ub ∨ volLoop g v = ok 0
  | [], v, h => by
    rcases h with rfl | h
    · exact Or.inr rfl
    · simp at h
  | x :: g, v, h => by
    simp only [volLoop]
    unfold ckInt
    split
    · simp only [ok_bind]
      refine volLoop_zero g _ ?_
      rcases h with rfl | h
      · simp
      · rcases List.mem_cons.1 h with h | h
        · simp [← h]
        · exact Or.inr h
    · exact Or.inl rfl

theorem blockSizes_zero : ∀ (P g : List Nat), g.length = P.length → 0 ∈ g → blockSizes P g = ub
  | [], [], _, h => by simp at h
  | p :: P, x :: g, hl, h => by
    simp only [List.length_cons, Nat.add_right_cancel_iff] at hl
    rcases Nat.eq_zero_or_pos x with rfl | hx
    · simp [blockSizes, blockSize, cdiv]
    · rcases List.mem_cons.1 h with h | h
      · omega
      · simp [blockSizes, ceil_eq p x hx, blockSizes_zero P g hl h]

/-- C74 refuted: a zero in the grid, which nothing checks, is a division by zero on every node -/
theorem C74_zero (m : Machine) (g : List Nat) (hl : g.length = m.size.length) (h : 0 ∈ g) (n : Nat) : ioNode m (some g) n = ub := by
  simp only [ioNode]
  rcases volLoop_zero g 1 (Or.inr h) with e | e
  · rw [show volume g = ub from e]; rfl
  · rw [show volume g = ok 0 from e, ok_bind, if_neg (by simp), blockSizes_zero _ _ hl h]; rfl

/-- C74: node 0, the master of QIO (`master_io_node`, lib/qdp_qdpio.cc:42-45), does its own I/O if it sits at the origin of the machine -/
theorem C74_master (m : Machine) (hm : m.Good) (hP : ∀ x ∈ m.size, 0 < x) (g : List Nat) (hg : Grid g m.size) (h0 : ∀ x ∈ m.coordFrom 0, x = 0) :
    ioNode m (some g) 0 = ok 0 := by
  have hn := nsites_pos hP
  rw [ioNode_eq hg hP hm hn]
  split
  · rfl
  · have : ∀ (c b : List Nat), (∀ x ∈ c, x = 0) → b.length = c.length → corners c b = c := by
      intro c
      induction c with
      | nil => intro b _ _; simp [corners]
      | cons x c ih =>
        intro b h hl
        cases b with
        | nil => simp at hl
        | cons y b =>
          have hx : x = 0 := h x (by simp)
          have := ih b (fun z hz => h z (by simp [hz])) (by simpa using hl)
          simp only [corners] at this
          simp [corners, hx, this]
    rw [this _ _ h0, (hm.1 0 hn).2]
    rw [(hm.1 0 hn).1.length_eq]
    exact ceils_length hg.len

/-! ### cases -/

/-- a machine of 5 by 2 nodes, numbered lexicographically -/
def grid52 : Machine := ⟨[5, 2], fun c => rank c [5, 2], fun n => digits n [5, 2]⟩
theorem grid52_good : grid52.Good := ⟨fun _ hn => ⟨digits_inRange hn, rank_digits hn⟩, fun _ hp => ⟨rank_lt hp, digits_rank hp⟩⟩

/-- four I/O nodes in the first direction are asked for, three are used -/
example : (ioNodes grid52 (some [4, 1])).card = 3 ∧ nsites [4, 1] = 4 := by
  refine ⟨?_, rfl⟩
  rw [C74_count grid52 grid52_good (by decide) [4, 1] ⟨rfl, by decide, by decide⟩]
  rfl
example : (List.range 10).map (fun n => ioNode grid52 (some [4, 1]) n) = [ok 0, ok 0, ok 2, ok 2, ok 4, ok 0, ok 0, ok 2, ok 2, ok 4] := by decide
example : ioNode grid52 (some [4, 1]) 0 = ok 0 := C74_master grid52 grid52_good (by decide) [4, 1] ⟨rfl, by decide, by decide⟩ (by decide)
example : ioNode grid52 (some [4, 0]) 7 = ub := C74_zero grid52 [4, 0] rfl (by decide) 7
/-- the grid divides the machine -/
example : (ioNodes grid52 (some [5, 2])).card = 10 := C74_asked_partial grid52 grid52_good (by decide) [5, 2] ⟨rfl, by decide, by decide⟩ (by
  intro i h h'
  have : i = 0 ∨ i = 1 := by simp at h; omega
  rcases this with rfl | rfl <;> exact Nat.dvd_refl _)

end Verif.IoNode
