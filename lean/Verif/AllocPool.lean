import Verif.Alloc
/-
C52: the pool allocator, lib/qdp_pool_allocator.cc (model in `Verif.Alloc`).
-/
namespace Verif.Alloc
open Verif Outcome

/-! ## Specification -/

/-- a call by the user: `alloc n answer` with the answer of the pool, 0 when exhausted; `free p` -/
inductive PEv where
  | alloc (n answer : W)
  | free (p : W)

/-- executions of an allocator whose pool is the block `pool` -/
inductive PRuns (A : W) (pool : Block) : List PEv → St → List Block → Prop
  | nil : PRuns A pool [] ⟨[], []⟩ []
  | got {h st live n u p st'} : PRuns A pool h st live → u ≠ 0 → Fresh st.raw ⟨u, (n + A).toNat⟩ → Inside ⟨u, (n + A).toNat⟩ pool →
      poolAllocate true A n u st = ok (p, st') → PRuns A pool (h ++ [.alloc n u]) st' (⟨p, n.toNat⟩ :: live)
  | full {h st live n p st'} : PRuns A pool h st live → poolAllocate true A n 0 st = ok (p, st') →
      PRuns A pool (h ++ [.alloc n 0]) st' (⟨p, n.toNat⟩ :: live)
  | freed {h st live p st'} : PRuns A pool h st live → poolFree true p st = ok st' → PRuns A pool (h ++ [.free p]) st' (live.filter (·.addr ≠ p))

/-- the sizes asked for in a history can be rounded up without wrapping around -/
def PSized (A : W) (h : List PEv) : Prop := ∀ n a, PEv.alloc n a ∈ h → n.toNat + A.toNat < 2 ^ 64

/-! ## Invariant -/

/-- an entry of the map: a null pointer, or a block cut from a block of the pool -/
def PEntry (k : Nat) (pool : Block) (e : Block × Block) : Prop :=
  (e.1.addr = 0 ∧ e.2.addr = 0) ∨ (e.2.addr ≠ 0 ∧ Cut k e.1 e.2 ∧ Inside e.2 pool)

/-- state and live blocks correspond entry by entry; at most one entry is null -/
structure PInv (k : Nat) (pool : Block) (st : St) (es : List (Block × Block)) : Prop where
  raw : st.raw = (es.filter (·.2.addr ≠ 0)).map (·.2)
  map : st.map = es.map (fun e => (e.1.addr, e.2.addr))
  entry : ∀ e ∈ es, PEntry k pool e
  apart : es.Pairwise (fun e f => (e.2.addr ≠ 0 ∧ f.2.addr ≠ 0 → Apart e.2 f.2) ∧ ¬ (e.2.addr = 0 ∧ f.2.addr = 0))

theorem addr_pos {a : W} (h : a ≠ 0) : 0 < a.toNat := by
  rcases Nat.eq_zero_or_pos a.toNat with h0 | h0
  · exact absurd (BitVec.eq_of_toNat_eq (y := 0#64) h0) h
  · exact h0

theorem PEntry.null_iff {k : Nat} {pool : Block} {e : Block × Block} (h : PEntry k pool e) : e.1.addr = 0 ↔ e.2.addr = 0 := by
  rcases h with ⟨h1, h2⟩ | ⟨h1, h2, -⟩
  · exact ⟨fun _ => h2, fun _ => h1⟩
  · refine ⟨fun h => absurd h2.inside.1 ?_, fun h => absurd h h1⟩
    rw [h]
    have := addr_pos h1
    show ¬ (_ ≤ 0)
    omega

theorem PInv.inj {k : Nat} {pool : Block} {st : St} {es : List (Block × Block)} (h : PInv k pool st es) : ∀ e ∈ es, ∀ f ∈ es,
    (e.1.addr = f.1.addr → e = f) ∧ (e.2.addr = f.2.addr → e = f) := by
  have key : es.Pairwise (fun e f => (e.1.addr = f.1.addr → e = f) ∧ (e.2.addr = f.2.addr → e = f)) := by
    refine List.Pairwise.imp_of_mem ?_ h.apart
    intro e f he hf ha
    have ne := (h.entry e he).null_iff
    have nf := (h.entry f hf).null_iff
    rcases h.entry e he with ⟨z1, z2⟩ | ⟨z1, ce, -⟩
    · exact ⟨fun heq => absurd ⟨z2, nf.1 (heq.symm.trans z1)⟩ ha.2, fun heq => absurd ⟨z2, heq.symm.trans z2⟩ ha.2⟩
    · rcases h.entry f hf with ⟨w1, w2⟩ | ⟨w1, cf, -⟩
      · exact ⟨fun heq => absurd (ne.1 (heq.trans w1)) z1, fun heq => absurd (heq.trans w2) z1⟩
      · have ha := ha.1 ⟨z1, w1⟩
        have i1 := ce.inside.1
        have i2 := cf.inside.1
        have l1 := ce.lt
        have l2 := cf.lt
        constructor
        · intro heq
          rw [heq] at i1 l1
          exact absurd ⟨i1, l1, i2, l2⟩ (ha f.1.addr.toNat)
        · intro heq
          refine absurd ⟨le_of_eq (congrArg BitVec.toNat heq), ?_, le_refl _, ?_⟩ (ha f.2.addr.toNat)
          · rw [← heq]; omega
          · omega
  intro e he f hf
  obtain ⟨i, hi, rfl⟩ := List.mem_iff_getElem.1 he
  obtain ⟨j, hj, rfl⟩ := List.mem_iff_getElem.1 hf
  rcases Nat.lt_trichotomy i j with h | rfl | h
  · exact List.pairwise_iff_getElem.1 key i j hi hj h
  · exact ⟨fun _ => rfl, fun _ => rfl⟩
  · have := List.pairwise_iff_getElem.1 key j i hj hi h
    exact ⟨fun h => (this.1 h.symm).symm, fun h => (this.2 h.symm).symm⟩

theorem PInv.mem_raw {k : Nat} {pool : Block} {st : St} {es : List (Block × Block)} (h : PInv k pool st es) {e : Block × Block} (he : e ∈ es)
    (h0 : e.2.addr ≠ 0) : e.2 ∈ st.raw := by
  rw [h.raw]
  exact List.mem_map_of_mem (f := fun x : Block × Block => x.2) (List.mem_filter.2 ⟨he, decide_eq_true h0⟩)

theorem PInv.allocate {k : Nat} (hk : k < 64) {pool : Block} {st : St} {es : List (Block × Block)} (h : PInv k pool st es) (n u : W) (hu : u ≠ 0)
    (hn : n.toNat + 2 ^ k < 2 ^ 64) (hf : Fresh st.raw ⟨u, (n + 1#64 <<< k).toNat⟩) (hp : Inside ⟨u, (n + 1#64 <<< k).toNat⟩ pool) :
    ∃ p, poolAllocate true (1#64 <<< k) n u st = ok (p, ⟨⟨u, (n + 1#64 <<< k).toNat⟩ :: st.raw, (p, u) :: st.map⟩) ∧
      PInv k pool ⟨⟨u, (n + 1#64 <<< k).toNat⟩ :: st.raw, (p, u) :: st.map⟩ ((⟨p, n.toNat⟩, ⟨u, (n + 1#64 <<< k).toNat⟩) :: es) := by
  have hs : (n + 1#64 <<< k).toNat = n.toNat + 2 ^ k := by rw [BitVec.toNat_add, align_nat k hk, Nat.mod_eq_of_lt hn]
  have ho : u.toNat + (n.toNat + 2 ^ k) ≤ 2 ^ 64 := by
    have := hf.1
    rw [Block.Ok, hs] at this
    exact this
  have ha := alignUp_nat k hk u (by omega)
  obtain ⟨r1, r2, r3⟩ := roundUp k u.toNat
  rw [← ha] at r1 r2 r3
  have hc : Cut k ⟨alignUp (1#64 <<< k) u, n.toNat⟩ ⟨u, (n + 1#64 <<< k).toNat⟩ := by
    rw [hs]
    exact ⟨r3, ⟨r1, by show (alignUp (1#64 <<< k) u).toNat + n.toNat ≤ u.toNat + (n.toNat + 2 ^ k); omega⟩,
      by show (alignUp (1#64 <<< k) u).toNat < u.toNat + (n.toNat + 2 ^ k); omega⟩
  have hpos := addr_pos hu
  have hnew : ∀ e ∈ es, e.1.addr ≠ alignUp (1#64 <<< k) u := by
    intro e he heq
    rcases h.entry e he with ⟨z1, -⟩ | ⟨z1, ce, -⟩
    · have z0 : (alignUp (1#64 <<< k) u).toNat = 0 := by rw [← heq, z1]; rfl
      omega
    · have i1 := ce.inside.1
      have l1 := ce.lt
      rw [heq] at i1 l1
      exact hf.2 e.2 (h.mem_raw he z1) _ ⟨hc.inside.1, hc.lt, i1, l1⟩
  refine ⟨alignUp (1#64 <<< k) u, ?_, ?_⟩
  · rw [poolAllocate, if_pos rfl, h.map]
    simp only [(find_map es _ (fun e he f hf => (h.inj e he f hf).1)).2 hnew, if_neg hu]
  · refine ⟨?_, by rw [h.map]; rfl, ?_, ?_⟩
    · rw [h.raw, List.filter_cons_of_pos (by simpa using hu)]
      rfl
    · intro e he
      rcases List.mem_cons.1 he with rfl | he
      · exact Or.inr ⟨hu, hc, hp⟩
      · exact h.entry e he
    · refine List.pairwise_cons.2 ⟨fun e he => ⟨fun hh => hf.2 e.2 (h.mem_raw he hh.2), fun hh => hu hh.1⟩, h.apart⟩

theorem alignUp_zero {k : Nat} (hk : k < 64) : alignUp (1#64 <<< k) 0 = 0 := by
  apply BitVec.eq_of_toNat_eq
  have hp : 2 ^ k < 2 ^ 64 := Nat.pow_lt_pow_right (by omega) hk
  have hp0 : 0 < 2 ^ k := Nat.two_pow_pos k
  rw [alignUp_nat k hk 0 (by show 0 + 2 ^ k ≤ 2 ^ 64; omega)]
  show (0 + (2 ^ k - 1)) / 2 ^ k * 2 ^ k = 0
  rw [Nat.div_eq_of_lt (by omega), Nat.zero_mul]

theorem PInv.exhausted {k : Nat} (hk : k < 64) {pool : Block} {st : St} {es : List (Block × Block)} (h : PInv k pool st es) (n : W) :
    ((∀ e ∈ es, e.1.addr ≠ 0) → poolAllocate true (1#64 <<< k) n 0 st = ok (0, ⟨st.raw, (0, 0) :: st.map⟩) ∧
      PInv k pool ⟨st.raw, (0, 0) :: st.map⟩ ((⟨0, n.toNat⟩, ⟨0, 0⟩) :: es)) ∧
    ((∃ e ∈ es, e.1.addr = 0) → poolAllocate true (1#64 <<< k) n 0 st = abort) := by
  have hfm := fun p => find_map es p (fun e he f hf => (h.inj e he f hf).1)
  constructor
  · intro hne
    constructor
    · rw [poolAllocate, if_pos rfl, alignUp_zero hk, h.map]
      simp only [(hfm 0).2 hne, if_true]
    · refine ⟨?_, by rw [h.map]; rfl, ?_, ?_⟩
      · rw [List.filter_cons_of_neg (by simp)]
        exact h.raw
      · intro e he
        rcases List.mem_cons.1 he with rfl | he
        · exact Or.inl ⟨rfl, rfl⟩
        · exact h.entry e he
      · exact List.pairwise_cons.2 ⟨fun e he => ⟨fun hh => absurd rfl hh.1, fun hh => hne e he ((h.entry e he).null_iff.2 hh.2)⟩, h.apart⟩
  · rintro ⟨e, he, h0⟩
    rw [poolAllocate, if_pos rfl, alignUp_zero hk, h.map]
    simp only [(hfm 0).1 e he h0]

theorem PInv.filter {k : Nat} {pool : Block} {st : St} {es : List (Block × Block)} (h : PInv k pool st es) (p : W) :
    PInv k pool ⟨((es.filter (·.1.addr ≠ p)).filter (·.2.addr ≠ 0)).map (·.2), erase st.map p⟩ (es.filter (·.1.addr ≠ p)) :=
  ⟨rfl, by rw [h.map, erase_map], fun e he => h.entry e (List.mem_of_mem_filter he), List.Pairwise.filter _ h.apart⟩

theorem PInv.free {k : Nat} {pool : Block} {st : St} {es : List (Block × Block)} (h : PInv k pool st es) (p : W) :
    poolFree true p st = ok ⟨((es.filter (·.1.addr ≠ p)).filter (·.2.addr ≠ 0)).map (·.2), erase st.map p⟩ := by
  have hfm := find_map es p (fun e he f hf => (h.inj e he f hf).1)
  by_cases hp : ∃ e ∈ es, e.1.addr = p
  · obtain ⟨e, he, hep⟩ := hp
    rw [poolFree, h.map, hfm.1 e he hep]
    simp only [if_true]
    have key : poolRelease st.raw e.2.addr = ok (((es.filter (·.1.addr ≠ p)).filter (·.2.addr ≠ 0)).map (·.2)) := by
      subst hep
      rw [poolRelease]
      by_cases h0 : e.2.addr = 0
      · rw [if_pos h0, h.raw]
        congr 2
        rw [List.filter_filter]
        apply List.filter_congr
        intro f hf
        by_cases hf0 : f.2.addr = 0
        · simp [hf0]
        · have : f.1.addr ≠ e.1.addr := fun x => hf0 ((h.inj f hf e he).1 x ▸ h0)
          simp [hf0, this]
      · rw [if_neg h0, release, if_pos ⟨e.2, h.mem_raw he h0, rfl⟩, h.raw, List.filter_map, List.filter_filter, List.filter_filter]
        congr 2
        apply List.filter_congr
        intro f hf
        have hj := h.inj f hf e he
        by_cases hfe : f = e
        · subst hfe; simp
        · have a1 : f.1.addr ≠ e.1.addr := fun x => hfe (hj.1 x)
          have a2 : f.2.addr ≠ e.2.addr := fun x => hfe (hj.2 x)
          simp [a1, a2]
    rw [key, ok_bind]
  · have hne : ∀ e ∈ es, e.1.addr ≠ p := fun e he heq => hp ⟨e, he, heq⟩
    rw [poolFree, h.map, hfm.2 hne]
    simp only [if_true]
    rw [poolRelease, if_pos rfl, ok_bind, h.raw]
    congr 3
    rw [List.filter_filter]
    apply List.filter_congr
    intro f hf
    simp [hne f hf]

/-- every execution keeps the invariant -/
theorem pruns_inv {k : Nat} (hk : k < 64) {pool : Block} {h : List PEv} {st : St} {live : List Block} (hr : PRuns (1#64 <<< k) pool h st live)
    (hs : PSized (1#64 <<< k) h) : ∃ es, PInv k pool st es ∧ live = es.map (·.1) := by
  induction hr with
  | nil => exact ⟨[], ⟨rfl, rfl, by simp, List.Pairwise.nil⟩, rfl⟩
  | @got h st live n u p st' hr hu hf hp ha ih =>
    obtain ⟨es, hi, rfl⟩ := ih (fun n a hm => hs n a (by simp [hm]))
    obtain ⟨q, e1, e2⟩ := hi.allocate hk n u hu (by have := hs n u (by simp); rwa [align_nat k hk] at this) hf hp
    rw [ha] at e1
    injection e1 with e1
    injection e1 with e1 e3
    subst e1 e3
    exact ⟨_, e2, rfl⟩
  | @full h st live n p st' hr ha ih =>
    obtain ⟨es, hi, rfl⟩ := ih (fun n a hm => hs n a (by simp [hm]))
    obtain ⟨x1, x2⟩ := hi.exhausted hk n
    by_cases hz : ∃ e ∈ es, e.1.addr = 0
    · rw [x2 hz] at ha
      exact absurd ha (by simp)
    · obtain ⟨e1, e2⟩ := x1 (fun e he heq => hz ⟨e, he, heq⟩)
      rw [ha] at e1
      injection e1 with e1
      injection e1 with e1 e3
      subst e1 e3
      exact ⟨_, e2, rfl⟩
  | @freed h st live p st' hr ha ih =>
    obtain ⟨es, hi, rfl⟩ := ih (fun n a hm => hs n a (by simp [hm]))
    rw [hi.free p] at ha
    injection ha with ha
    subst ha
    refine ⟨_, hi.filter p, ?_⟩
    rw [List.filter_map]
    rfl

/-! ## C52 -/

/-- **C52, live blocks.**  After any history with sizes below `2^64 - A`, whatever places the pool chose and whenever it was exhausted: the
pointers that are not null are aligned and distinct, their blocks lie inside the pool and do not overlap, and as many blocks of the pool are in
use as there are such pointers. -/
theorem C52_live_partial {k : Nat} (hk : k < 64) {pool : Block} {h : List PEv} {st : St} {live : List Block}
    (hr : PRuns (1#64 <<< k) pool h st live) (hs : PSized (1#64 <<< k) h) :
    (∀ b ∈ live, b.addr ≠ 0 → 2 ^ k ∣ b.addr.toNat ∧ Inside b pool ∧ ∃ r ∈ st.raw, Inside b r) ∧
      (live.filter (·.addr ≠ 0)).Pairwise Apart ∧ (live.map (·.addr)).Nodup ∧ st.raw.length = (live.filter (·.addr ≠ 0)).length := by
  obtain ⟨es, hi, rfl⟩ := pruns_inv hk hr hs
  have hfe : (es.filter (·.2.addr ≠ 0)) = es.filter (fun e => decide (e.1.addr ≠ 0)) := by
    apply List.filter_congr
    intro e he
    have := (hi.entry e he).null_iff
    rw [decide_eq_decide]
    exact not_congr this.symm
  refine ⟨?_, ?_, ?_, ?_⟩
  · intro b hb h0
    obtain ⟨e, he, rfl⟩ := List.mem_map.1 hb
    rcases hi.entry e he with ⟨z1, -⟩ | ⟨z1, ce, ip⟩
    · exact absurd z1 h0
    · refine ⟨ce.dvd, ?_, e.2, hi.mem_raw he z1, ce.inside⟩
      have := ce.inside
      unfold Inside at *
      omega
  · rw [List.filter_map, List.pairwise_map]
    have : (es.filter ((fun x : Block => decide (x.addr ≠ 0)) ∘ fun x => x.1)) = es.filter (·.2.addr ≠ 0) := hfe.symm
    rw [this]
    refine List.Pairwise.imp_of_mem ?_ (List.Pairwise.filter _ hi.apart)
    intro e f he hf ha i hx
    obtain ⟨me, ne⟩ := List.mem_filter.1 he
    obtain ⟨mf, nf⟩ := List.mem_filter.1 hf
    have ne : e.2.addr ≠ 0 := by simpa using ne
    have nf : f.2.addr ≠ 0 := by simpa using nf
    rcases hi.entry e me with ⟨-, z2⟩ | ⟨-, ce, -⟩
    · exact ne z2
    rcases hi.entry f mf with ⟨-, z2⟩ | ⟨-, cf, -⟩
    · exact nf z2
    have c1 := ce.inside
    have c2 := cf.inside
    unfold Inside at c1 c2
    exact ha.1 ⟨ne, nf⟩ i (by omega)
  · rw [List.Nodup, List.map_map, List.pairwise_map]
    refine List.Pairwise.imp_of_mem ?_ hi.apart
    intro e f he hf ha heq
    simp only [Function.comp_apply] at heq
    have := (hi.inj e he f hf).1 heq
    subst this
    rcases hi.entry e he with ⟨-, z2⟩ | ⟨z1, ce, -⟩
    · exact ha.2 ⟨z2, z2⟩
    · exact ha.1 ⟨z1, z1⟩ _ ⟨ce.inside.1, ce.lt, ce.inside.1, ce.lt⟩
  · rw [hi.raw, List.length_map, hfe, List.filter_map, List.length_map]
    rfl

/-- **C52, freeing** a pointer that is not null gives back exactly one block of the pool, the one the live block lies in. -/
theorem C52_free_partial {k : Nat} (hk : k < 64) {pool : Block} {h : List PEv} {st : St} {live : List Block}
    (hr : PRuns (1#64 <<< k) pool h st live) (hs : PSized (1#64 <<< k) h) (b : Block) (hb : b ∈ live) (h0 : b.addr ≠ 0) :
    ∃ st' r, poolFree true b.addr st = ok st' ∧ Inside b r ∧ st.raw.Perm (r :: st'.raw) := by
  obtain ⟨es, hi, rfl⟩ := pruns_inv hk hr hs
  obtain ⟨e, he, rfl⟩ := List.mem_map.1 hb
  have hz : e.2.addr ≠ 0 := fun x => h0 ((hi.entry e he).null_iff.2 x)
  have hin : Inside e.1 e.2 := by
    rcases hi.entry e he with ⟨z1, -⟩ | ⟨-, ce, -⟩
    · exact absurd z1 h0
    · exact ce.inside
  refine ⟨_, e.2, hi.free _, hin, ?_⟩
  rw [hi.raw]
  have hnd : es.Nodup := by
    refine List.Pairwise.imp_of_mem ?_ hi.apart
    intro a c ha _ hap heq
    subst heq
    rcases hi.entry a ha with ⟨-, z2⟩ | ⟨z1, ca, -⟩
    · exact hap.2 ⟨z2, z2⟩
    · exact hap.1 ⟨z1, z1⟩ _ ⟨ca.inside.1, ca.lt, ca.inside.1, ca.lt⟩
  have hf : (es.filter (·.1.addr ≠ e.1.addr)).filter (·.2.addr ≠ 0) = (es.filter (·.2.addr ≠ 0)).erase e := by
    rw [List.Nodup.erase_eq_filter (hnd.filter _), List.filter_filter, List.filter_filter]
    apply List.filter_congr
    intro f hf
    by_cases hfe : f = e
    · simp [hfe]
    · have : f.1.addr ≠ e.1.addr := fun x => hfe ((hi.inj f hf e he).1 x)
      simp [this, hfe]
  rw [hf]
  have hm : e ∈ es.filter (·.2.addr ≠ 0) := List.mem_filter.2 ⟨he, decide_eq_true hz⟩
  exact (List.perm_cons_erase hm).map (·.2)

/-- **C52 fails on exhaustion**: it is returned to the caller as the null pointer, without a message, and recorded as a block; while that
pointer is not freed the next exhaustion stops the program. -/
theorem C52_exhausted {k : Nat} (hk : k < 64) {pool : Block} {h : List PEv} {st : St} {live : List Block}
    (hr : PRuns (1#64 <<< k) pool h st live) (hs : PSized (1#64 <<< k) h) (n : W) :
    ((∀ b ∈ live, b.addr ≠ 0) → ∃ st', poolAllocate true (1#64 <<< k) n 0 st = ok (0, st') ∧
      ∀ m, poolAllocate true (1#64 <<< k) m 0 st' = abort) := by
  obtain ⟨es, hi, rfl⟩ := pruns_inv hk hr hs
  intro hne
  obtain ⟨e1, e2⟩ := (hi.exhausted hk n).1 (fun e he => hne e.1 (List.mem_map_of_mem he))
  exact ⟨_, e1, fun m => (e2.exhausted hk m).2 ⟨_, List.mem_cons_self, rfl⟩⟩

/-- **C52 fails for unknown pointers**: freeing one that is not live (foreign, or freed before) is accepted without a message. -/
theorem C52_unknown {k : Nat} (hk : k < 64) {pool : Block} {h : List PEv} {st : St} {live : List Block}
    (hr : PRuns (1#64 <<< k) pool h st live) (hs : PSized (1#64 <<< k) h) (p : W) (hp : ∀ b ∈ live, b.addr ≠ p) :
    poolFree true p st = ok st := by
  obtain ⟨es, hi, rfl⟩ := pruns_inv hk hr hs
  have : es.filter (·.1.addr ≠ p) = es := List.filter_eq_self.2 (fun e he => by simpa using hp e.1 (List.mem_map_of_mem he))
  rw [hi.free p, this, ← hi.raw, hi.map, erase_map, this, ← hi.map]

/-- **C52 fails for enormous sizes**: the request wraps around. -/
theorem C52_wrap (A n u : W) (hu : u ≠ 0) (hn : 2 ^ 64 ≤ n.toNat + A.toNat) : ∃ p st', poolAllocate true A n u ⟨[], []⟩ = ok (p, st') ∧
    ∀ r ∈ st'.raw, r.size < n.toNat := by
  refine ⟨alignUp A u, ⟨[⟨u, (n + A).toNat⟩], [(alignUp A u, u)]⟩, by rw [poolAllocate, if_pos rfl]; simp only [if_neg hu]; rfl, ?_⟩
  intro r hr
  rw [List.mem_singleton.1 hr]
  have h1 := n.isLt
  have h2 := A.isLt
  show (n + A).toNat < n.toNat
  rw [BitVec.toNat_add]
  omega

/-- the pool size wraps around for 2^44 MB or more: it is then the request modulo 2^64 -/
theorem C52_pool_size (mb : W) : (poolSize mb).toNat = mb.toNat * 2 ^ 20 ↔ mb.toNat < 2 ^ 44 := by
  have := mb.isLt
  rw [poolSize, BitVec.toNat_mul, BitVec.toNat_mul]
  show mb.toNat * 1024 % 2 ^ 64 * 1024 % 2 ^ 64 = _ ↔ _
  omega

/-- use before `init` is undefined -/
theorem C52_before_init (A n u p : W) (st : St) : poolAllocate false A n u st = ub ∧ poolFree false p st = ub := ⟨rfl, rfl⟩

/-! ## The hypotheses are met -/

/-- two blocks of 100 and 0 bytes from a default allocator, the first one freed again -/
example : ∃ st, Runs (1#64 <<< 4) [.alloc 100 (some 1001), .alloc 0 (some 2000), .free 1008] st [⟨2000, 0⟩] ∧
    Sized (1#64 <<< 4) [.alloc 100 (some 1001), .alloc 0 (some 2000), .free 1008] ∧ st.raw = [⟨2000, 16⟩] := by
  have r1 : Runs (1#64 <<< 4) ([] ++ [.alloc 100 (some 1001)]) _ [⟨1008, 100⟩] := .got (p := 1008) .nil (by
    refine ⟨by unfold Block.Ok; decide, by simp⟩) (by rw [allocate]; rfl)
  have r2 := Runs.got (n := 0) (u := 2000) (p := 2000) r1 (by
    refine ⟨by unfold Block.Ok; decide, ?_⟩
    intro c hc
    rw [List.mem_singleton.1 hc]
    intro i hi
    have h1 : 2000 ≤ i := hi.1
    have h2 : i < 1001 + 116 := hi.2.2.2
    omega) (by rw [allocate]; rfl)
  have r3 := Runs.freed (p := 1008) r2 (by rw [free]; rfl)
  refine ⟨_, r3, ?_, rfl⟩
  intro n a hm
  simp only [List.mem_cons, Ev.alloc.injEq, List.not_mem_nil, or_false, reduceCtorEq] at hm
  rcases hm with ⟨rfl, -⟩ | ⟨rfl, -⟩ <;> decide

/-- a pool allocator that is exhausted at the second request: a block of 100 bytes and a null pointer are live -/
example : ∃ st, PRuns (1#64 <<< 4) ⟨1000, 200⟩ [.alloc 100 1001, .alloc 100 0] st [⟨0, 100⟩, ⟨1008, 100⟩] ∧
    PSized (1#64 <<< 4) [.alloc 100 1001, .alloc 100 0] := by
  have r1 : PRuns (1#64 <<< 4) ⟨1000, 200⟩ ([] ++ [.alloc 100 1001]) _ [⟨1008, 100⟩] := .got (p := 1008) .nil (by decide)
    ⟨by unfold Block.Ok; decide, by simp⟩ (by unfold Inside; decide) (by rw [poolAllocate]; rfl)
  have r2 := PRuns.full (n := 100) (p := 0) r1 (by rw [poolAllocate]; rfl)
  refine ⟨_, r2, ?_⟩
  intro n a hm
  simp only [List.mem_cons, PEv.alloc.injEq, List.not_mem_nil, or_false] at hm
  rcases hm with ⟨rfl, -⟩ | ⟨rfl, -⟩ <;> decide

end Verif.Alloc
