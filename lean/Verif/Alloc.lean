import Verif.Basic
import Mathlib.Data.List.Perm.Basic
import Mathlib.Tactic.Ring
import Mathlib.Tactic.LinearCombination
/-
The memory allocators: lib/qdp_default_allocator.cc and lib/qdp_pool_allocator.cc.

Addresses are 64-bit words.  The underlying allocator (`new`, `tbb::fixed_pool`) is a list of live raw blocks; where it puts a new block is
an input (an answer may be any place that does not overlap a live block).  `std::map` is an association list.  One thread.
-/
namespace Verif.Alloc
open Verif Outcome

/-- addresses and sizes (`unsigned long`, `size_t`) -/
abbrev W := BitVec 64

/-- a block of memory: address and number of bytes -/
structure Block where
  addr : W
  size : Nat
deriving DecidableEq

/-! ## Model -/

/-- state of an allocator: the raw blocks that are live in the underlying allocator and the map from aligned to unaligned addresses -/
structure St where
  raw : List Block
  map : List (W × W)

/-- `( (unsigned long)u + (A-1) ) & ~(A - 1)`, lib/qdp_default_allocator.cc:47, lib/qdp_pool_allocator.cc:76-77 -/
def alignUp (A u : W) : W := (u + (A - 1)) &&& ~~~(A - 1)

/-- `std::map::find` -/
def find (m : List (W × W)) (p : W) : Option W := (m.find? (·.1 = p)).map (·.2)
/-- `std::map::erase` -/
def erase (m : List (W × W)) (p : W) : List (W × W) := m.filter (·.1 ≠ p)

/-- how a call of `allocate` ends if it does not stop the program -/
inductive Res where
  | ptr (p : W)
  | thrown
deriving DecidableEq

/-- `QDPDefaultAllocator::allocate`, lib/qdp_default_allocator.cc:20-69; `answer` is what `new` gives: an address, or `bad_alloc` -/
def allocate (A : W) (n : W) (answer : Option W) (st : St) : Outcome (Res × St) :=
  let bytes : W := n + A
  match answer with
  | none => ok (.thrown, st)
  | some u =>
    let aligned := alignUp A u
    let raw := ⟨u, bytes.toNat⟩ :: st.raw
    match find st.map aligned with
    | some _ => abort
    | none => ok (.ptr aligned, ⟨raw, (aligned, u) :: st.map⟩)

/-- `delete [] u`: undefined unless a live block starts there -/
def release (raw : List Block) (u : W) : Outcome (List Block) :=
  if ∃ b ∈ raw, b.addr = u then ok (raw.filter (·.addr ≠ u)) else ub

/-- `QDPDefaultAllocator::free`, lib/qdp_default_allocator.cc:73-99 -/
def free (p : W) (st : St) : Outcome St :=
  match find st.map p with
  | some u => do
    let raw ← release st.raw u
    ok ⟨raw, erase st.map p⟩
  | none => abort

/-- `QDPPoolAllocator::allocate`, lib/qdp_pool_allocator.cc:65-94; the pool answers with an address, 0 when it is exhausted.  `pool` tells
whether `init` was called (a null `_LargePool` is undefined). -/
def poolAllocate (pool : Bool) (A : W) (n : W) (answer : W) (st : St) : Outcome (W × St) :=
  if pool then
    let bytes : W := n + A
    let aligned := alignUp A answer
    let raw := if answer = 0 then st.raw else ⟨answer, bytes.toNat⟩ :: st.raw
    match find st.map aligned with
    | some _ => abort
    | none => ok (aligned, ⟨raw, (aligned, answer) :: st.map⟩)
  else ub

/-- `tbb::fixed_pool::free`: nothing happens for a null pointer -/
def poolRelease (raw : List Block) (u : W) : Outcome (List Block) := if u = 0 then ok raw else release raw u

/-- `QDPPoolAllocator::free`, lib/qdp_pool_allocator.cc:96-123; `operator[]` inserts a null entry for an unknown address -/
def poolFree (pool : Bool) (p : W) (st : St) : Outcome St :=
  let d : W := match find st.map p with | some u => u | none => 0
  if pool then do
    let raw ← poolRelease st.raw d
    ok ⟨raw, erase st.map p⟩
  else ub

/-- the size computed by `QDPPoolAllocator::init`, lib/qdp_pool_allocator.cc:46 -/
def poolSize (mb : W) : W := mb * 1024 * 1024

/-! ## Specification -/

/-- an address range that does not wrap around -/
def Block.Ok (b : Block) : Prop := b.addr.toNat + b.size ≤ 2 ^ 64
/-- no byte in common -/
def Apart (a b : Block) : Prop := ∀ i, ¬ (a.addr.toNat ≤ i ∧ i < a.addr.toNat + a.size ∧ b.addr.toNat ≤ i ∧ i < b.addr.toNat + b.size)
/-- every byte of `a` is one of `b` -/
def Inside (a b : Block) : Prop := b.addr.toNat ≤ a.addr.toNat ∧ a.addr.toNat + a.size ≤ b.addr.toNat + b.size

/-- what the underlying allocator may answer: a place that does not wrap and does not overlap a live block -/
def Fresh (raw : List Block) (b : Block) : Prop := b.Ok ∧ ∀ c ∈ raw, Apart b c

/-- a call by the user: `alloc n answer` with the answer of `new`; `free p` -/
inductive Ev where
  | alloc (n : W) (answer : Option W)
  | free (p : W)

/-- executions: from the state and the user's list of live blocks (most recent first), a history leads to a state, a list of live blocks -/
inductive Runs (A : W) : List Ev → St → List Block → Prop
  | nil : Runs A [] ⟨[], []⟩ []
  | got {h st live n u p st'} : Runs A h st live → Fresh st.raw ⟨u, (n + A).toNat⟩ → allocate A n (some u) st = ok (.ptr p, st') →
      Runs A (h ++ [.alloc n (some u)]) st' (⟨p, n.toNat⟩ :: live)
  | thrown {h st live n st'} : Runs A h st live → allocate A n none st = ok (.thrown, st') → Runs A (h ++ [.alloc n none]) st' live
  | freed {h st live p st'} : Runs A h st live → free p st = ok st' → Runs A (h ++ [.free p]) st' (live.filter (·.addr ≠ p))

/-- the sizes asked for in a history can be rounded up without wrapping around -/
def Sized (A : W) (h : List Ev) : Prop := ∀ n a, Ev.alloc n a ∈ h → n.toNat + A.toNat < 2 ^ 64

/-! ## Alignment -/

theorem mask (k : Nat) (hk : k < 64) (x : W) : (x &&& ~~~((1#64 <<< k) - 1)).toNat = x.toNat / 2 ^ k * 2 ^ k := by
  have e : x &&& ~~~((1#64 <<< k) - 1) = (x >>> k) <<< k := by
    have h1 : (1#64 <<< k) - 1 = BitVec.ofNat 64 (2 ^ k - 1) := by
      apply BitVec.eq_of_toNat_eq
      have hp : 2 ^ k < 2 ^ 64 := Nat.pow_lt_pow_right (by omega) hk
      have hp0 : 0 < 2 ^ k := Nat.two_pow_pos k
      rw [BitVec.toNat_sub, BitVec.toNat_shiftLeft, BitVec.toNat_ofNat, BitVec.toNat_ofNat, Nat.shiftLeft_eq, Nat.mod_eq_of_lt (a := 1) (by omega), Nat.one_mul,
        Nat.mod_eq_of_lt hp]
      change (2 ^ 64 - 1 + 2 ^ k) % 2 ^ 64 = _
      rw [Nat.mod_eq_of_lt (a := 2 ^ k - 1) (by omega)]
      omega
    apply BitVec.eq_of_getLsbD_eq
    intro i hi
    rw [h1]
    simp only [BitVec.getLsbD_and, BitVec.getLsbD_not, BitVec.getLsbD_ofNat, Nat.testBit_two_pow_sub_one, BitVec.getLsbD_shiftLeft, BitVec.getLsbD_ushiftRight, hi,
      decide_true, Bool.true_and]
    by_cases hik : i < k
    · simp [hik]
    · simp [hik, show k + (i - k) = i by omega]
  rw [e, BitVec.toNat_shiftLeft, BitVec.toNat_ushiftRight, Nat.shiftLeft_eq, Nat.shiftRight_eq_div_pow, Nat.mod_eq_of_lt]
  exact lt_of_le_of_lt (Nat.div_mul_le_self _ _) x.isLt

/-- rounding up: the first multiple of the alignment at or above the address -/
theorem alignUp_nat (k : Nat) (hk : k < 64) (u : W) (hu : u.toNat + 2 ^ k ≤ 2 ^ 64) :
    (alignUp (1#64 <<< k) u).toNat = (u.toNat + (2 ^ k - 1)) / 2 ^ k * 2 ^ k := by
  have hp : 2 ^ k < 2 ^ 64 := Nat.pow_lt_pow_right (by omega) hk
  have hp0 : 0 < 2 ^ k := Nat.two_pow_pos k
  have hA : (1#64 <<< k).toNat = 2 ^ k := by
    rw [BitVec.toNat_shiftLeft, BitVec.toNat_ofNat, Nat.shiftLeft_eq, Nat.mod_eq_of_lt (a := 1) (by omega), Nat.one_mul, Nat.mod_eq_of_lt hp]
  rw [alignUp, mask k hk, BitVec.toNat_add, BitVec.toNat_sub, hA]
  change (u.toNat + (2 ^ 64 - 1 + 2 ^ k) % 2 ^ 64) % 2 ^ 64 / 2 ^ k * 2 ^ k = _
  rw [show (2 ^ 64 - 1 + 2 ^ k) % 2 ^ 64 = 2 ^ k - 1 by omega, Nat.mod_eq_of_lt (by omega)]

theorem roundUp (k u : Nat) : u ≤ (u + (2 ^ k - 1)) / 2 ^ k * 2 ^ k ∧ (u + (2 ^ k - 1)) / 2 ^ k * 2 ^ k < u + 2 ^ k ∧
    2 ^ k ∣ (u + (2 ^ k - 1)) / 2 ^ k * 2 ^ k := by
  have hp0 : 0 < 2 ^ k := Nat.two_pow_pos k
  have h1 := Nat.div_add_mod (u + (2 ^ k - 1)) (2 ^ k)
  have h2 := Nat.mod_lt (u + (2 ^ k - 1)) hp0
  rw [Nat.mul_comm] at h1
  refine ⟨by omega, by omega, Dvd.intro_left _ rfl⟩

theorem align_nat (k : Nat) (hk : k < 64) : (1#64 <<< k).toNat = 2 ^ k := by
  have hp : 2 ^ k < 2 ^ 64 := Nat.pow_lt_pow_right (by omega) hk
  rw [BitVec.toNat_shiftLeft, BitVec.toNat_ofNat, Nat.shiftLeft_eq, Nat.mod_eq_of_lt (a := 1) (by omega), Nat.one_mul, Nat.mod_eq_of_lt hp]

/-! ## Invariant -/

/-- a block given to the user and the raw block it was cut from -/
structure Cut (k : Nat) (b r : Block) : Prop where
  dvd : 2 ^ k ∣ b.addr.toNat
  inside : Inside b r
  lt : b.addr.toNat < r.addr.toNat + r.size

/-- state and live blocks correspond entry by entry -/
structure Inv (k : Nat) (st : St) (es : List (Block × Block)) : Prop where
  raw : st.raw = es.map (·.2)
  map : st.map = es.map (fun e => (e.1.addr, e.2.addr))
  cut : ∀ e ∈ es, Cut k e.1 e.2
  apart : es.Pairwise (fun e f => Apart e.2 f.2)

theorem Apart.symm {a b : Block} (h : Apart a b) : Apart b a := fun i hi => h i ⟨hi.2.2.1, hi.2.2.2, hi.1, hi.2.1⟩

/-- entries with the same address are the same -/
theorem Inv.inj {k : Nat} {st : St} {es : List (Block × Block)} (h : Inv k st es) : ∀ e ∈ es, ∀ f ∈ es,
    (e.1.addr = f.1.addr → e = f) ∧ (e.2.addr = f.2.addr → e = f) := by
  have key : es.Pairwise (fun e f => (e.1.addr = f.1.addr → e = f) ∧ (e.2.addr = f.2.addr → e = f)) := by
    refine List.Pairwise.imp_of_mem ?_ h.apart
    intro e f he hf ha
    have ce := h.cut e he
    have cf := h.cut f hf
    have i1 := ce.inside.1
    have i2 := cf.inside.1
    have l1 := ce.lt
    have l2 := cf.lt
    constructor
    · intro heq
      rw [heq] at i1 l1
      exact absurd ⟨i1, l1, i2, l2⟩ (ha f.1.addr.toNat)
    · intro heq
      refine absurd ⟨le_of_eq (congrArg BitVec.toNat heq), ?_, le_refl _, ?_⟩ (ha f.2.addr.toNat)
      · rw [← heq]; omega
      · omega
  intro e he f hf
  obtain ⟨i, hi, rfl⟩ := List.mem_iff_getElem.1 he
  obtain ⟨j, hj, rfl⟩ := List.mem_iff_getElem.1 hf
  rcases Nat.lt_trichotomy i j with h | rfl | h
  · exact List.pairwise_iff_getElem.1 key i j hi hj h
  · exact ⟨fun _ => rfl, fun _ => rfl⟩
  · have := List.pairwise_iff_getElem.1 key j i hj hi h
    exact ⟨fun h => (this.1 h.symm).symm, fun h => (this.2 h.symm).symm⟩

theorem find_map (es : List (Block × Block)) (p : W) (hinj : ∀ e ∈ es, ∀ f ∈ es, e.1.addr = f.1.addr → e = f) :
    (∀ e ∈ es, e.1.addr = p → find (es.map (fun e => (e.1.addr, e.2.addr))) p = some e.2.addr) ∧
    ((∀ e ∈ es, e.1.addr ≠ p) → find (es.map (fun e => (e.1.addr, e.2.addr))) p = none) := by
  rw [find, List.find?_map]
  constructor
  · intro e he hp
    cases h : es.find? ((fun x : W × W => decide (x.1 = p)) ∘ fun e => (e.1.addr, e.2.addr)) with
    | none => exact absurd (List.find?_eq_none.1 h e he) (by simpa using hp)
    | some f =>
      have hf := List.mem_of_find?_eq_some h
      have hfp := List.find?_some h
      have : f.1.addr = p := by simpa using hfp
      rw [hinj f hf e he (this.trans hp.symm)]
      rfl
  · intro hne
    rw [List.find?_eq_none.2 (fun e he => by simpa using hne e he)]
    rfl

theorem erase_map (es : List (Block × Block)) (p : W) : erase (es.map (fun e => (e.1.addr, e.2.addr))) p =
    (es.filter (·.1.addr ≠ p)).map (fun e => (e.1.addr, e.2.addr)) := by
  rw [erase, List.filter_map]
  rfl

theorem Inv.allocate {k : Nat} (hk : k < 64) {st : St} {es : List (Block × Block)} (h : Inv k st es) (n u : W)
    (hn : n.toNat + 2 ^ k < 2 ^ 64) (hf : Fresh st.raw ⟨u, (n + 1#64 <<< k).toNat⟩) :
    ∃ p, allocate (1#64 <<< k) n (some u) st = ok (.ptr p, ⟨⟨u, (n + 1#64 <<< k).toNat⟩ :: st.raw, (p, u) :: st.map⟩) ∧
      Inv k ⟨⟨u, (n + 1#64 <<< k).toNat⟩ :: st.raw, (p, u) :: st.map⟩ ((⟨p, n.toNat⟩, ⟨u, (n + 1#64 <<< k).toNat⟩) :: es) := by
  have hs : (n + 1#64 <<< k).toNat = n.toNat + 2 ^ k := by rw [BitVec.toNat_add, align_nat k hk, Nat.mod_eq_of_lt hn]
  have ho : u.toNat + (n.toNat + 2 ^ k) ≤ 2 ^ 64 := by
    have := hf.1
    rw [Block.Ok, hs] at this
    exact this
  have ha := alignUp_nat k hk u (by omega)
  obtain ⟨r1, r2, r3⟩ := roundUp k u.toNat
  rw [← ha] at r1 r2 r3
  have hc : Cut k ⟨alignUp (1#64 <<< k) u, n.toNat⟩ ⟨u, (n + 1#64 <<< k).toNat⟩ := by
    rw [hs]
    exact ⟨r3, ⟨r1, by show (alignUp (1#64 <<< k) u).toNat + n.toNat ≤ u.toNat + (n.toNat + 2 ^ k); omega⟩,
      by show (alignUp (1#64 <<< k) u).toNat < u.toNat + (n.toNat + 2 ^ k); omega⟩
  have hnew : ∀ e ∈ es, e.1.addr ≠ alignUp (1#64 <<< k) u := by
    intro e he heq
    have ce := h.cut e he
    have i1 := ce.inside.1
    have l1 := ce.lt
    rw [heq] at i1 l1
    exact hf.2 e.2 (by rw [h.raw]; exact List.mem_map_of_mem he) _ ⟨hc.inside.1, hc.lt, i1, l1⟩
  refine ⟨alignUp (1#64 <<< k) u, ?_, ?_⟩
  · rw [Alloc.allocate, h.map, (find_map es _ (fun e he f hf => (h.inj e he f hf).1)).2 hnew]
  · refine ⟨by rw [h.raw]; rfl, by rw [h.map]; rfl, ?_, ?_⟩
    · intro e he
      rcases List.mem_cons.1 he with rfl | he
      · exact hc
      · exact h.cut e he
    · refine List.pairwise_cons.2 ⟨fun e he => ?_, h.apart⟩
      exact hf.2 e.2 (by rw [h.raw]; exact List.mem_map_of_mem he)

theorem Inv.filter {k : Nat} {st : St} {es : List (Block × Block)} (h : Inv k st es) (p : W) :
    Inv k ⟨(es.filter (·.1.addr ≠ p)).map (·.2), erase st.map p⟩ (es.filter (·.1.addr ≠ p)) := by
  refine ⟨rfl, by rw [h.map, erase_map], fun e he => h.cut e (List.mem_of_mem_filter he), List.Pairwise.filter _ h.apart⟩

theorem Inv.release {k : Nat} {st : St} {es : List (Block × Block)} (h : Inv k st es) {e : Block × Block} (he : e ∈ es) :
    release st.raw e.2.addr = ok ((es.filter (·.1.addr ≠ e.1.addr)).map (·.2)) := by
  rw [Alloc.release, if_pos ⟨e.2, by rw [h.raw]; exact List.mem_map_of_mem he, rfl⟩, h.raw, List.filter_map]
  congr 2
  apply List.filter_congr
  intro f hf
  have := h.inj f hf e he
  simp only [Function.comp_apply, decide_not, Bool.not_eq_eq_eq_not, Bool.not_not, decide_eq_decide]
  exact ⟨fun x => by rw [this.2 x], fun x => by rw [this.1 x]⟩

theorem Inv.free {k : Nat} {st : St} {es : List (Block × Block)} (h : Inv k st es) {e : Block × Block} (he : e ∈ es) :
    free e.1.addr st = ok ⟨(es.filter (·.1.addr ≠ e.1.addr)).map (·.2), erase st.map e.1.addr⟩ := by
  rw [Alloc.free, h.map, (find_map es _ (fun e he f hf => (h.inj e he f hf).1)).1 e he rfl]
  simp only
  rw [h.release he, ok_bind]

theorem Inv.unknown {k : Nat} {st : St} {es : List (Block × Block)} (h : Inv k st es) {p : W} (hp : ∀ e ∈ es, e.1.addr ≠ p) :
    Alloc.free p st = abort := by
  rw [Alloc.free, h.map, (find_map es _ (fun e he f hf => (h.inj e he f hf).1)).2 hp]

/-- every execution keeps the invariant -/
theorem runs_inv {k : Nat} (hk : k < 64) {h : List Ev} {st : St} {live : List Block} (hr : Runs (1#64 <<< k) h st live)
    (hs : Sized (1#64 <<< k) h) : ∃ es, Inv k st es ∧ live = es.map (·.1) := by
  induction hr with
  | nil => exact ⟨[], ⟨rfl, rfl, by simp, List.Pairwise.nil⟩, rfl⟩
  | @got h st live n u p st' hr hf ha ih =>
    obtain ⟨es, hi, rfl⟩ := ih (fun n a hm => hs n a (by simp [hm]))
    obtain ⟨q, e1, e2⟩ := hi.allocate hk n u (by have := hs n (some u) (by simp); rwa [align_nat k hk] at this) hf
    rw [ha] at e1
    injection e1 with e1
    injection e1 with e1 e3
    injection e1 with e1
    subst e1 e3
    exact ⟨_, e2, rfl⟩
  | @thrown h st live n st' hr ha ih =>
    obtain ⟨es, hi, rfl⟩ := ih (fun n a hm => hs n a (by simp [hm]))
    rw [Alloc.allocate] at ha
    injection ha with ha
    injection ha with _ ha
    subst ha
    exact ⟨es, hi, rfl⟩
  | @freed h st live p st' hr ha ih =>
    obtain ⟨es, hi, rfl⟩ := ih (fun n a hm => hs n a (by simp [hm]))
    by_cases hp : ∃ e ∈ es, e.1.addr = p
    · obtain ⟨e, he, rfl⟩ := hp
      rw [hi.free he] at ha
      injection ha with ha
      subst ha
      refine ⟨_, hi.filter e.1.addr, ?_⟩
      rw [List.filter_map]
      rfl
    · rw [hi.unknown (fun e he heq => hp ⟨e, he, heq⟩)] at ha
      exact absurd ha (by simp)

/-! ## C51 -/

/-- **C51, live blocks.**  After any history of calls with sizes below `2^64 - A`, whatever places `new` chose: the live pointers are aligned
and distinct, the live blocks lie inside live raw blocks and do not overlap, and there are as many raw blocks as live blocks (no leak). -/
theorem C51_live_partial {k : Nat} (hk : k < 64) {h : List Ev} {st : St} {live : List Block} (hr : Runs (1#64 <<< k) h st live)
    (hs : Sized (1#64 <<< k) h) :
    (∀ b ∈ live, 2 ^ k ∣ b.addr.toNat ∧ ∃ r ∈ st.raw, Inside b r) ∧ live.Pairwise Apart ∧ (live.map (·.addr)).Nodup ∧
      st.raw.length = live.length := by
  obtain ⟨es, hi, rfl⟩ := runs_inv hk hr hs
  refine ⟨?_, ?_, ?_, by rw [hi.raw, List.length_map, List.length_map]⟩
  · intro b hb
    obtain ⟨e, he, rfl⟩ := List.mem_map.1 hb
    exact ⟨(hi.cut e he).dvd, e.2, by rw [hi.raw]; exact List.mem_map_of_mem he, (hi.cut e he).inside⟩
  · rw [List.pairwise_map]
    refine List.Pairwise.imp_of_mem ?_ hi.apart
    intro e f he hf ha i hx
    have c1 := (hi.cut e he).inside
    have c2 := (hi.cut f hf).inside
    unfold Inside at c1 c2
    exact ha i (by omega)
  · rw [List.Nodup, List.map_map, List.pairwise_map]
    refine List.Pairwise.imp_of_mem ?_ hi.apart
    intro e f he hf ha heq
    have ce := hi.cut e he
    have cf := hi.cut f hf
    have i1 := ce.inside.1
    have l1 := ce.lt
    simp only [Function.comp_apply] at heq
    rw [heq] at i1 l1
    exact ha _ ⟨i1, l1, cf.inside.1, cf.lt⟩

/-- **C51, requests are served**: for every place `new` may choose, `allocate` returns a pointer (the insertion into the map succeeds), and a
`bad_alloc` is passed on without a change. -/
theorem C51_allocate_partial {k : Nat} (hk : k < 64) {h : List Ev} {st : St} {live : List Block} (hr : Runs (1#64 <<< k) h st live)
    (hs : Sized (1#64 <<< k) h) (n : W) (hn : n.toNat + 2 ^ k < 2 ^ 64) :
    (∀ u, Fresh st.raw ⟨u, (n + 1#64 <<< k).toNat⟩ → ∃ p st', allocate (1#64 <<< k) n (some u) st = ok (.ptr p, st')) ∧
      allocate (1#64 <<< k) n none st = ok (.thrown, st) := by
  obtain ⟨es, hi, rfl⟩ := runs_inv hk hr hs
  exact ⟨fun u hf => let ⟨p, e, _⟩ := hi.allocate hk n u hn hf; ⟨p, _, e⟩, rfl⟩

/-- **C51, freeing a live pointer** gives back exactly one raw block, the one the live block lies in. -/
theorem C51_free_partial {k : Nat} (hk : k < 64) {h : List Ev} {st : St} {live : List Block} (hr : Runs (1#64 <<< k) h st live)
    (hs : Sized (1#64 <<< k) h) (b : Block) (hb : b ∈ live) :
    ∃ st' r, free b.addr st = ok st' ∧ Inside b r ∧ st.raw.Perm (r :: st'.raw) := by
  obtain ⟨es, hi, rfl⟩ := runs_inv hk hr hs
  obtain ⟨e, he, rfl⟩ := List.mem_map.1 hb
  refine ⟨_, e.2, hi.free he, (hi.cut e he).inside, ?_⟩
  rw [hi.raw]
  have hnd : es.Nodup := by
    refine List.Pairwise.imp_of_mem ?_ hi.apart
    intro a c ha _ hap heq
    subst heq
    have ca := hi.cut a ha
    exact hap _ ⟨ca.inside.1, ca.lt, ca.inside.1, ca.lt⟩
  have hf : es.filter (·.1.addr ≠ e.1.addr) = es.erase e := by
    rw [List.Nodup.erase_eq_filter hnd]
    apply List.filter_congr
    intro f hf
    by_cases hfe : f = e
    · simp [hfe]
    · have : f.1.addr ≠ e.1.addr := fun x => hfe ((hi.inj f hf e he).1 x)
      simp [this, hfe]
  rw [hf]
  exact (List.perm_cons_erase he).map (·.2)

/-- **C51, any other pointer** is rejected: one never handed out, one already freed, the null pointer. -/
theorem C51_unknown_partial {k : Nat} (hk : k < 64) {h : List Ev} {st : St} {live : List Block} (hr : Runs (1#64 <<< k) h st live)
    (hs : Sized (1#64 <<< k) h) (p : W) (hp : ∀ b ∈ live, b.addr ≠ p) : free p st = abort := by
  obtain ⟨es, hi, rfl⟩ := runs_inv hk hr hs
  exact hi.unknown (fun e he => hp e.1 (List.mem_map_of_mem he))

/-- when everything is freed, everything is given back -/
theorem C51_all_freed_partial {k : Nat} (hk : k < 64) {h : List Ev} {st : St} (hr : Runs (1#64 <<< k) h st []) (hs : Sized (1#64 <<< k) h) :
    st.raw = [] ∧ st.map = [] := by
  obtain ⟨es, hi, he⟩ := runs_inv hk hr hs
  have : es = [] := List.map_eq_nil_iff.1 he.symm
  subst this
  exact ⟨hi.raw, hi.map⟩

/-- **C51 fails for enormous sizes**: `n_bytes + QDP_ALIGNMENT_SIZE` wraps around, and `allocate` answers a request for `n` bytes with a
pointer into a raw block that is shorter. -/
theorem C51_wrap (A n u : W) (hn : 2 ^ 64 ≤ n.toNat + A.toNat) : ∃ p st', allocate A n (some u) ⟨[], []⟩ = ok (.ptr p, st') ∧
    ∀ r ∈ st'.raw, r.size < n.toNat := by
  refine ⟨_, _, rfl, ?_⟩
  intro r hr
  rw [List.mem_singleton.1 hr]
  have h1 := n.isLt
  have h2 := A.isLt
  show (n + A).toNat < n.toNat
  rw [BitVec.toNat_add]
  omega

end Verif.Alloc
