import Verif.Su3Thm
import Verif.BlasProps
import Verif.Sums
import Mathlib.Algebra.BigOperators.Group.List.Basic
import Mathlib.Algebra.Group.Prod
import Mathlib.Logic.Relation
/-
`norm2`, `innerProduct` and `innerProductReal` of fermion fields: include/scalarsite_generic/qdp_scalarsite_generic_blas.h:2222-2612 and the loops
below them.

A field is a function of the site and the number of the word in the spinor (24 of them).  Arithmetic is exact; the conversions between REAL and DOUBLE
are left out.  A function that contains a parallel loop is the set of its outcomes.
-/
set_option linter.unusedSectionVars false
namespace Verif.Reduce
open Verif Outcome Verif.Subset Verif.Sums Verif.GlobalSum Verif.Site Verif.Su3

/-! ## model -/

/-- the outcomes an execution may have -/
abbrev Poss (α : Type) := Outcome α → Prop

def only {α : Type} (x : Outcome α) : Poss α := fun o => o = x

/-- one after the other -/
def Poss.bind {α β : Type} (p : Poss α) (f : α → Poss β) : Poss β := fun o => (∃ a, p (ok a) ∧ f a o) ∨ (p ub ∧ o = ub) ∨ (p abort ∧ o = abort)

section omp
variable {M : Type} [AddCommGroup M]

/-- a loop with `omp parallel for reduction(+:…)`: for every thread that has not yet added its copy to the variable, the iterations it has left
and its copy -/
structure St (M : Type) where
  threads : List (Option (List Nat × M))
  res : M

/-- `f` is the term of an iteration.  A thread does its next iteration, or adds its copy to the variable. -/
inductive Step (f : Nat → Outcome M) : St M → St M → Prop
  | iter {s : St M} {t k : Nat} {ks : List Nat} {a v : M} : s.threads[t]? = some (some (k :: ks, a)) → f k = ok v →
      Step f s ⟨s.threads.set t (some (ks, a + v)), s.res⟩
  | join {s : St M} {t : Nat} {a : M} : s.threads[t]? = some (some ([], a)) → Step f s ⟨s.threads.set t none, s.res + a⟩

/-- an iteration with undefined behaviour comes next -/
def Fault (f : Nat → Outcome M) (s : St M) : Prop := ∃ (t k : Nat) (ks : List Nat) (a : M), s.threads[t]? = some (some (k :: ks, a)) ∧ ∀ v, f k ≠ ok v

def Done (s : St M) : Prop := ∀ x ∈ s.threads, x = none

def start (T : Nat) (parts : Nat → List Nat) : St M := ⟨(List.range T).map fun t => some (parts t, 0), 0⟩

/-- `n` iterations, given to threads in some way, in some order, the copies added in some order; the variable was 0 before -/
def loop (f : Nat → Outcome M) (n : Nat) : Poss M := fun o =>
  ∃ T parts s, 0 < T ∧ Distribution n T parts ∧ Relation.ReflTransGen (Step f) (start T parts) s ∧
    ((Fault f s ∧ o = ub) ∨ (Done s ∧ o = ok s.res))

end omp

section
variable {K : Type} [CommRing K]

/-- `24*n_3vec` in int -/
def times24 (n : Int) : Outcome Int := if -2 ^ 31 ≤ 24 * n ∧ 24 * n < 2 ^ 31 then ok (24 * n) else ub

/-- include/scalarsite_generic/generic_blas_local_sumsq.h:16-37; `p` is the array `In` -/
def sumsq (p : Nat → Outcome K) (n : Int) : Poss K :=
  (only (times24 n)).bind fun len =>
    if n > 0 then loop (fun c => do let i1 ← p c; ok (i1 * i1)) len.toNat else only (ok 0)

/-- the loop of include/scalarsite_generic/generic_blas_local_vcdot.h:38-46 -/
def dotTerm (p q : Nat → Outcome K) (m : Nat) : Outcome (K × K) := do
  let v1r ← p (2 * m)
  let v1i ← p (2 * m + 1)
  let v2r ← q (2 * m)
  let v2i ← q (2 * m + 1)
  ok (v1r * v2r + v1i * v2i, v1r * v2i - v1i * v2r)

/-- include/scalarsite_generic/generic_blas_local_vcdot.h:19-50 -/
def vcdot (p q : Nat → Outcome K) (n : Int) : Poss (K × K) :=
  if n > 0 then (only (times24 n)).bind fun len => loop (dotTerm p q) ((len.toNat + 1) / 2) else only (ok 0)

/-- the loop of include/scalarsite_generic/generic_blas_local_vcdot_real.h:38-46 -/
def dotTermReal (p q : Nat → Outcome K) (m : Nat) : Outcome K := do
  let v1r ← p (2 * m)
  let v1i ← p (2 * m + 1)
  let v2r ← q (2 * m)
  let v2i ← q (2 * m + 1)
  ok (v1r * v2r + v1i * v2i)

/-- include/scalarsite_generic/generic_blas_local_vcdot_real.h:19-50 -/
def vcdotReal (p q : Nat → Outcome K) (n : Int) : Poss K :=
  if n > 0 then (only (times24 n)).bind fun len => loop (dotTermReal p q) ((len.toNat + 1) / 2) else only (ok 0)

/-- the array that begins at a site of a field of `N` sites: `&(s1.elem(i).elem(0).elem(0).real())` -/
def ptr (F : Nat → Nat → K) (N : Nat) (i : Int) (c : Nat) : Outcome K :=
  if 0 ≤ i ∧ 24 * i.toNat + c < 24 * N then ok (F ((24 * i.toNat + c) / 24) ((24 * i.toNat + c) % 24)) else ub

/-- the loop over the table of a subset, include/scalarsite_generic/qdp_scalarsite_generic_blas.h:2255-2260, 2371-2381, 2473-2483 -/
def overTable {M : Type} [AddCommGroup M] (call : Int → Poss M) : List Int → M → Poss M
  | [], lsum => only (ok lsum)
  | i :: tab, lsum => (call i).bind fun ltmp => overTable call tab (lsum + ltmp)

/-- `norm2(s1, s)` before the sum over the nodes, include/scalarsite_generic/qdp_scalarsite_generic_blas.h:2223-2266 -/
def norm2Sub (F : Nat → Nat → K) (N : Nat) (s : Sub) : Poss K :=
  if s.ordRep then sumsq (ptr F N s.start) (s.stop - s.start + 1) else overTable (fun i => sumsq (ptr F N i) 1) s.table 0

/-- `norm2(s1)`, include/scalarsite_generic/qdp_scalarsite_generic_blas.h:2269-2287; `all` is the subset of all sites -/
def norm2All (F : Nat → Nat → K) (N : Nat) (all : Sub) : Poss K := sumsq (ptr F N all.start) (all.stop - all.start + 1)

/-- `innerProduct(v1, v2, s)`, include/scalarsite_generic/qdp_scalarsite_generic_blas.h:2328-2394 -/
def innerSub (F G : Nat → Nat → K) (N : Nat) (s : Sub) : Poss (K × K) :=
  if s.ordRep then vcdot (ptr F N s.start) (ptr G N s.start) (s.stop - s.start + 1)
  else overTable (fun i => vcdot (ptr F N i) (ptr G N i) 1) s.table 0

/-- `innerProduct(v1, v2)`, include/scalarsite_generic/qdp_scalarsite_generic_blas.h:2291-2326 -/
def innerAll (F G : Nat → Nat → K) (N : Nat) (all : Sub) : Poss (K × K) :=
  vcdot (ptr F N all.start) (ptr G N all.start) (all.stop - all.start + 1)

/-- `innerProductReal(v1, v2, s)`, include/scalarsite_generic/qdp_scalarsite_generic_blas.h:2435-2488 -/
def innerRealSub (F G : Nat → Nat → K) (N : Nat) (s : Sub) : Poss K :=
  if s.ordRep then vcdotReal (ptr F N s.start) (ptr G N s.start) (s.stop - s.start + 1)
  else overTable (fun i => vcdotReal (ptr F N i) (ptr G N i) 1) s.table 0

/-- `innerProductReal(v1, v2)`, include/scalarsite_generic/qdp_scalarsite_generic_blas.h:2398-2432 -/
def innerRealAll (F G : Nat → Nat → K) (N : Nat) (all : Sub) : Poss K :=
  vcdotReal (ptr F N all.start) (ptr G N all.start) (all.stop - all.start + 1)

/-- `norm2` of an array of fields, include/scalarsite_generic/qdp_scalarsite_generic_blas.h:2491-2516 -/
def norm2Arr (N : Nat) (all : Sub) : List (Nat → Nat → K) → K → Poss K
  | [], ltmp => only (ok ltmp)
  | F :: s1, ltmp => (norm2All F N all).bind fun lltmp => norm2Arr N all s1 (ltmp + lltmp)

/-- the loops over two arrays, include/scalarsite_generic/qdp_scalarsite_generic_blas.h:2538-2552, 2584-2596; reading an element that the second array
does not have is undefined -/
def arrLoop {M : Type} [AddCommGroup M] (call : (Nat → Nat → K) → (Nat → Nat → K) → Poss M) : List (Nat → Nat → K) → List (Nat → Nat → K) → M → Poss M
  | [], _, ip => only (ok ip)
  | _ :: _, [], _ => only ub
  | F :: v1, G :: v2, ip => (call F G).bind fun iip => arrLoop call v1 v2 (ip + iip)

/-- `innerProduct` of arrays of fields, include/scalarsite_generic/qdp_scalarsite_generic_blas.h:2519-2563 -/
def innerArr (N : Nat) (all : Sub) (v1 v2 : List (Nat → Nat → K)) : Poss (K × K) := arrLoop (fun F G => innerAll F G N all) v1 v2 0

/-- `innerProductReal` of arrays of fields, include/scalarsite_generic/qdp_scalarsite_generic_blas.h:2567-2609 -/
def innerRealArr (N : Nat) (all : Sub) (v1 v2 : List (Nat → Nat → K)) : Poss K := arrLoop (fun F G => innerRealAll F G N all) v1 v2 0

end

/-! ## specification -/

/-- the type of the sites of a fermion field -/
abbrev spinor : Ty := .vec .spin 3 (.vec .color 2 .rc)

/-! ## the loop -/

theorem only_bind {α β : Type} (a : α) (f : α → Poss β) : (only (ok a)).bind f = f a := by
  funext o
  simp [Poss.bind, only]

theorem only_bind_ub {α β : Type} (f : α → Poss β) : (only ub : Poss α).bind f = only ub := by
  funext o
  simp [Poss.bind, only]

section omp
variable {M : Type} [AddCommGroup M]

/-- what a thread will have added in the end -/
def weight (g : Nat → M) : Option (List Nat × M) → M
  | none => 0
  | some (ks, a) => a + (ks.map g).sum

structure Inv (g : Nat → M) (n : Nat) (s : St M) : Prop where
  sum : s.res + (s.threads.map (weight g)).sum = ∑ k ∈ Finset.range n, g k
  lt : ∀ ks a, some (ks, a) ∈ s.threads → ∀ k ∈ ks, k < n

theorem sum_set_weight (g : Nat → M) {l : List (Option (List Nat × M))} {t : Nat} {x y : Option (List Nat × M)} (h : l[t]? = some x) :
    ((l.set t y).map (weight g)).sum + weight g x = (l.map (weight g)).sum + weight g y := by
  induction l generalizing t with
  | nil => simp at h
  | cons z l ih =>
    cases t with
    | zero =>
      simp only [List.getElem?_cons_zero, Option.some.injEq] at h
      subst h
      simp only [List.set_cons_zero, List.map_cons, List.sum_cons]
      abel
    | succ t =>
      simp only [List.getElem?_cons_succ] at h
      simp only [List.set_cons_succ, List.map_cons, List.sum_cons]
      have := ih h
      rw [add_assoc, this, add_assoc]

theorem Inv.step {f : Nat → Outcome M} {g : Nat → M} {n : Nat} (hf : ∀ k, k < n → f k = ok (g k)) {s s' : St M} (h : Inv g n s) (hs : Step f s s') : Inv g n s' := by
  cases hs with
  | @iter t k ks a v h1 h2 =>
    have hm := List.mem_of_getElem? h1
    have hk := h.lt _ _ hm k (List.mem_cons_self ..)
    rw [hf k hk] at h2
    injection h2 with h2
    subst h2
    refine ⟨?_, ?_⟩
    · have e := sum_set_weight g (y := some (ks, a + g k)) h1
      have e' : weight g (some (k :: ks, a)) = weight g (some (ks, a + g k)) := by simp [weight, add_assoc]
      rw [e'] at e
      simp only
      rw [add_right_cancel e]
      exact h.sum
    · intro ks' a' hmem k' hk'
      rcases List.mem_or_eq_of_mem_set hmem with h3 | h3
      · exact h.lt _ _ h3 k' hk'
      · injection h3 with h3
        injection h3 with h3 h4
        subst h3
        exact h.lt _ _ hm k' (List.mem_cons_of_mem _ hk')
  | @join t a h1 =>
    refine ⟨?_, ?_⟩
    · have e := sum_set_weight g (y := none) h1
      simp only [weight, List.map_nil, List.sum_nil, add_zero] at e
      simp only
      rw [add_assoc, add_comm a, e]
      exact h.sum
    · intro ks' a' hmem k' hk'
      rcases List.mem_or_eq_of_mem_set hmem with h3 | h3
      · exact h.lt _ _ h3 k' hk'
      · exact absurd h3 (by simp)

theorem Inv.start {g : Nat → M} {n T : Nat} {parts : Nat → List Nat} (hd : Distribution n T parts) : Inv g n (start T parts) := by
  refine ⟨?_, ?_⟩
  · have hp := (hd.map g).sum_eq
    rw [list_sum_range] at hp
    rw [← hp, sum_flatMap]
    simp only [Reduce.start, List.map_map, zero_add]
    congr 1
    refine List.map_congr_left fun t _ => ?_
    simp [weight]
  · intro ks a hmem k hk
    simp only [Reduce.start, List.mem_map] at hmem
    obtain ⟨t, ht, e⟩ := hmem
    injection e with e
    injection e with e1 e2
    subst e1
    exact parts_lt hd (List.mem_range.1 ht) k hk

theorem Inv.done {g : Nat → M} {n : Nat} {s : St M} (h : Inv g n s) (hd : Done s) : s.res = ∑ k ∈ Finset.range n, g k := by
  rw [← h.sum]
  have : (s.threads.map (weight g)).sum = 0 := by
    refine List.sum_eq_zero fun x hx => ?_
    obtain ⟨y, hy, rfl⟩ := List.mem_map.1 hx
    rw [hd y hy]
    rfl
  rw [this, add_zero]

/-- one thread can run to the end -/
theorem alone {f : Nat → Outcome M} {g : Nat → M} : ∀ (ks : List Nat) (a r : M), (∀ k ∈ ks, f k = ok (g k)) →
    Relation.ReflTransGen (Step f) ⟨[some (ks, a)], r⟩ ⟨[none], r + (a + (ks.map g).sum)⟩
  | [], a, r, _ => by
      refine Relation.ReflTransGen.single ?_
      have := @Step.join M _ f ⟨[some ([], a)], r⟩ 0 a rfl
      simpa using this
  | k :: ks, a, r, h => by
      have h1 := @Step.iter M _ f ⟨[some (k :: ks, a)], r⟩ 0 k ks a (g k) rfl (h k (List.mem_cons_self ..))
      refine Relation.ReflTransGen.head h1 ?_
      have h2 := alone ks (a + g k) r fun k hk => h k (List.mem_cons_of_mem _ hk)
      simpa [add_assoc] using h2

/-- the loop gives the sum of its terms, for every number of threads and every schedule -/
theorem loop_eq {f : Nat → Outcome M} {g : Nat → M} {n : Nat} (hf : ∀ k, k < n → f k = ok (g k)) : loop f n = only (ok (∑ k ∈ Finset.range n, g k)) := by
  funext o
  apply propext
  constructor
  · rintro ⟨T, parts, s, hT, hd, hr, h⟩
    have hinv : Inv g n s := by
      clear h
      induction hr with
      | refl => exact Inv.start hd
      | tail _ hs ih => exact ih.step hf hs
    rcases h with ⟨⟨t, k, ks, a, h1, h2⟩, _⟩ | ⟨h1, h2⟩
    · exact absurd (hf k (hinv.lt _ _ (List.mem_of_getElem? h1) k (List.mem_cons_self ..))) (h2 _)
    · rw [h2, hinv.done h1]
      rfl
  · rintro rfl
    refine ⟨1, fun _ => List.range n, ⟨[none], ∑ k ∈ Finset.range n, g k⟩, by decide, ?_, ?_, Or.inr ⟨by simp [Done], rfl⟩⟩
    · simp [Distribution]
    · have := alone (f := f) (g := g) (List.range n) 0 0 fun k hk => hf k (List.mem_range.1 hk)
      simpa [list_sum_range, start] using this

/-- and an execution never gets stuck -/
theorem progress {f : Nat → Outcome M} {s : St M} : Done s ∨ Fault f s ∨ ∃ s', Step f s s' := by
  by_cases hd : Done s
  · exact Or.inl hd
  · right
    simp only [Done, not_forall] at hd
    obtain ⟨x, hx, hn⟩ := hd
    obtain ⟨t, ht⟩ := List.mem_iff_getElem?.1 hx
    rcases x with _ | ⟨ks, a⟩
    · exact absurd rfl hn
    · cases ks with
      | nil => exact Or.inr ⟨_, Step.join ht⟩
      | cons k ks =>
        by_cases hf : ∃ v, f k = ok v
        · obtain ⟨v, hv⟩ := hf
          exact Or.inr ⟨_, Step.iter ht hv⟩
        · exact Or.inl ⟨t, k, ks, a, ht, fun v hv => hf ⟨v, hv⟩⟩

end omp

/-! ## the fields -/

section
variable {K : Type} [CommRing K]

theorem ptr_eq (F : Nat → Nat → K) {N i n c : Nat} (h : i + n ≤ N) (hc : c < 24 * n) : ptr F N i c = ok (F (i + c / 24) (c % 24)) := by
  unfold ptr
  rw [if_pos ⟨by omega, by simp; omega⟩]
  simp only [Int.toNat_natCast]
  rw [show (24 * i + c) / 24 = i + c / 24 by omega, show (24 * i + c) % 24 = c % 24 by omega]

theorem times24_eq {n : Nat} (h : 24 * n < 2 ^ 31) : times24 n = ok ((24 * n : Nat) : Int) := by
  unfold times24
  rw [if_pos (by omega)]
  simp

/-- words of consecutive sites -/
theorem sum_words {M : Type} [AddCommMonoid M] (w : Nat) (hw : 0 < w) (t : Nat → Nat → M) (n : Nat) :
    ∑ c ∈ Finset.range (w * n), t (c / w) (c % w) = ∑ i ∈ Finset.range n, ∑ k ∈ Finset.range w, t i k := by
  induction n with
  | zero => simp
  | succ n ih =>
    rw [Nat.mul_succ, Finset.sum_range_add, ih, Finset.sum_range_succ]
    congr 1
    refine Finset.sum_congr rfl fun k hk => ?_
    have hk := Finset.mem_range.1 hk
    rw [Nat.mul_add_div hw, Nat.div_eq_of_lt hk, Nat.mul_add_mod, Nat.mod_eq_of_lt hk, Nat.add_zero]

theorem norm2_words (x : Nat → K) : ∑ k ∈ Finset.range 24, x k * x k = norm2 spinor (obj spinor x) := by
  simp [Finset.sum_range_succ, norm2, obj, accum, size, add, Fin.foldl_succ_last]
  ring

theorem innerReal_words (x y : Nat → K) :
    ∑ m ∈ Finset.range 12, (x (2 * m) * y (2 * m) + x (2 * m + 1) * y (2 * m + 1)) = lipReal (Inner.self spinor) (obj spinor x) (obj spinor y) := by
  simp [Finset.sum_range_succ, lipReal, Inner.self, obj, accum, size, add, Fin.foldl_succ_last]
  ring

theorem inner_words (x y : Nat → K) :
    ∑ m ∈ Finset.range 12, ((x (2 * m) * y (2 * m) + x (2 * m + 1) * y (2 * m + 1), x (2 * m) * y (2 * m + 1) - x (2 * m + 1) * y (2 * m)) : K × K) =
      ((lip (Inner.self spinor) (obj spinor x) (obj spinor y)).re, (lip (Inner.self spinor) (obj spinor x) (obj spinor y)).im) := by
  simp [Finset.sum_range_succ, lip, Inner.self, obj, accum, size, add, Fin.foldl_succ_last]
  constructor <;> ring

/-- the numbers the three functions add up for a site -/
def siteNorm2 (F : Nat → Nat → K) (i : Nat) : K := norm2 spinor (obj spinor (F i))
def siteInner (F G : Nat → Nat → K) (i : Nat) : K × K :=
  ((lip (Inner.self spinor) (obj spinor (F i)) (obj spinor (G i))).re, (lip (Inner.self spinor) (obj spinor (F i)) (obj spinor (G i))).im)
def siteInnerReal (F G : Nat → Nat → K) (i : Nat) : K := lipReal (Inner.self spinor) (obj spinor (F i)) (obj spinor (G i))

theorem sumsq_eq (F : Nat → Nat → K) {N i n : Nat} (h : i + n ≤ N) (h24 : 24 * n < 2 ^ 31) :
    sumsq (ptr F N i) n = only (ok (∑ j ∈ Finset.range n, siteNorm2 F (i + j))) := by
  unfold sumsq
  rw [times24_eq h24, only_bind]
  by_cases hn : (n : Int) > 0
  · rw [if_pos hn, loop_eq (g := fun c => F (i + c / 24) (c % 24) * F (i + c / 24) (c % 24))]
    · rw [Int.toNat_natCast, sum_words 24 (by decide) (fun j k => F (i + j) k * F (i + j) k)]
      simp only [norm2_words]
      rfl
    · intro c hc
      rw [Int.toNat_natCast] at hc
      rw [ptr_eq F h hc]
      rfl
  · have : n = 0 := by omega
    subst this
    simp

theorem vcdot_eq (F G : Nat → Nat → K) {N i n : Nat} (h : i + n ≤ N) (h24 : 24 * n < 2 ^ 31) :
    vcdot (ptr F N i) (ptr G N i) n = only (ok (∑ j ∈ Finset.range n, siteInner F G (i + j))) := by
  unfold vcdot
  by_cases hn : (n : Int) > 0
  · rw [if_pos hn, times24_eq h24, only_bind, Int.toNat_natCast, show (24 * n + 1) / 2 = 12 * n by omega,
      loop_eq (g := fun m => ((F (i + m / 12) (2 * (m % 12)) * G (i + m / 12) (2 * (m % 12)) + F (i + m / 12) (2 * (m % 12) + 1) * G (i + m / 12) (2 * (m % 12) + 1),
        F (i + m / 12) (2 * (m % 12)) * G (i + m / 12) (2 * (m % 12) + 1) - F (i + m / 12) (2 * (m % 12) + 1) * G (i + m / 12) (2 * (m % 12))) : K × K))]
    · rw [sum_words 12 (by decide) (fun j k => ((F (i + j) (2 * k) * G (i + j) (2 * k) + F (i + j) (2 * k + 1) * G (i + j) (2 * k + 1),
        F (i + j) (2 * k) * G (i + j) (2 * k + 1) - F (i + j) (2 * k + 1) * G (i + j) (2 * k)) : K × K))]
      simp only [inner_words]
      rfl
    · intro m hm
      unfold dotTerm
      rw [ptr_eq F h (c := 2 * m) (by omega), ptr_eq F h (c := 2 * m + 1) (by omega), ptr_eq G h (c := 2 * m) (by omega), ptr_eq G h (c := 2 * m + 1) (by omega),
        show 2 * m / 24 = m / 12 by omega, show (2 * m + 1) / 24 = m / 12 by omega, show 2 * m % 24 = 2 * (m % 12) by omega,
        show (2 * m + 1) % 24 = 2 * (m % 12) + 1 by omega]
      rfl
  · have : n = 0 := by omega
    subst this
    simp

theorem vcdotReal_eq (F G : Nat → Nat → K) {N i n : Nat} (h : i + n ≤ N) (h24 : 24 * n < 2 ^ 31) :
    vcdotReal (ptr F N i) (ptr G N i) n = only (ok (∑ j ∈ Finset.range n, siteInnerReal F G (i + j))) := by
  unfold vcdotReal
  by_cases hn : (n : Int) > 0
  · rw [if_pos hn, times24_eq h24, only_bind, Int.toNat_natCast, show (24 * n + 1) / 2 = 12 * n by omega,
      loop_eq (g := fun m => F (i + m / 12) (2 * (m % 12)) * G (i + m / 12) (2 * (m % 12)) + F (i + m / 12) (2 * (m % 12) + 1) * G (i + m / 12) (2 * (m % 12) + 1))]
    · rw [sum_words 12 (by decide) (fun j k => F (i + j) (2 * k) * G (i + j) (2 * k) + F (i + j) (2 * k + 1) * G (i + j) (2 * k + 1))]
      simp only [innerReal_words]
      rfl
    · intro m hm
      unfold dotTermReal
      rw [ptr_eq F h (c := 2 * m) (by omega), ptr_eq F h (c := 2 * m + 1) (by omega), ptr_eq G h (c := 2 * m) (by omega), ptr_eq G h (c := 2 * m + 1) (by omega),
        show 2 * m / 24 = m / 12 by omega, show (2 * m + 1) / 24 = m / 12 by omega, show 2 * m % 24 = 2 * (m % 12) by omega,
        show (2 * m + 1) % 24 = 2 * (m % 12) + 1 by omega]
      rfl
  · have : n = 0 := by omega
    subst this
    simp

end

section
variable {M : Type} [AddCommGroup M]

theorem overTable_eq (call : Int → Poss M) (g : Nat → M) (N : Nat) (hcall : ∀ i, i < N → call (i : Nat) = only (ok (g i))) :
    ∀ (tab : List Nat) (a : M), (∀ i ∈ tab, i < N) → overTable call (tab.map Int.ofNat) a = only (ok (a + (tab.map g).sum))
  | [], a, _ => by simp [overTable]
  | i :: tab, a, h => by
      rw [List.map_cons, overTable, show call (Int.ofNat i) = _ from hcall i (h i (List.mem_cons_self ..)), only_bind,
        overTable_eq call g N hcall tab _ fun j hj => h j (List.mem_cons_of_mem _ hj)]
      simp [add_assoc]

/-- all three functions: by the whole range of an ordered subset, site by site through the table of another one -/
theorem sub_eq (call : Int → Int → Poss M) (g : Nat → M) {col : List Nat} {cb : Nat} {s : Sub} (hsub : makeSub col cb = ok s)
    (hcall : ∀ i n : Nat, i + n ≤ col.length → n = 1 ∨ n = (sitesFrom cb col 0).length → call i n = only (ok (∑ j ∈ Finset.range n, g (i + j)))) :
    (if s.ordRep then call s.start (s.stop - s.start + 1) else overTable (fun i => call i 1) s.table 0) =
      only (ok ((sitesFrom cb col 0).map g).sum) := by
  have htab := Blas.form_of_makeSub hsub
  obtain ⟨s', h', ht, _, h0, h1⟩ := makeSub_eq col cb
  rw [hsub] at h'
  injection h' with h'
  subst h'
  have hlt : ∀ i ∈ sitesFrom cb col 0, i < col.length := by
    intro i hi
    obtain ⟨m, hm, hc⟩ := (mem_sitesFrom cb _ 0 i).1 hi
    have := (List.getElem?_eq_some_iff.1 hc).1
    omega
  by_cases ho : s.ordRep = true
  · rw [if_pos ho]
    unfold Blas.Form.of at htab
    rw [if_pos ho] at htab
    simp only [Blas.Form.table] at htab
    have hne : s.table ≠ [] := by
      intro hc
      rw [(h0 hc).1] at ho
      simp at ho
    obtain ⟨i1, i2, _⟩ := h1 hne
    have hall := i1.1 ho
    obtain ⟨hst, hsp⟩ := i2 ho
    have hpos : 0 < s.table.length := List.length_pos_iff.2 hne
    have hlast : s.stop = s.start + ((s.table.length - 1 : Nat) : Int) := by
      rw [hsp, List.getLast_eq_getElem, hall _ (by omega), hst]
    have hs0 : 0 ≤ s.start := by
      rw [hst, List.head_eq_getElem]
      have hm : ∀ v ∈ s.table, 0 ≤ v := by
        intro v hv
        rw [ht] at hv
        obtain ⟨x, _, hx⟩ := List.mem_map.1 hv
        rw [← hx]
        exact Int.natCast_nonneg x
      exact hm _ (List.getElem_mem hpos)
    have hn : s.stop - s.start + 1 = ((s.table.length : Nat) : Int) := by omega
    rw [hn] at htab ⊢
    rw [Int.toNat_natCast] at htab
    obtain ⟨a, ha⟩ : ∃ a : Nat, s.start = a := ⟨s.start.toNat, by omega⟩
    rw [ha] at htab ⊢
    rw [Int.toNat_natCast] at htab
    have hlen : s.table.length = (sitesFrom cb col 0).length := by rw [← htab]; simp
    have hle : a + s.table.length ≤ col.length := by
      have := hlt (a + (s.table.length - 1)) (by rw [← htab, List.mem_range'_1]; omega)
      omega
    rw [hcall a s.table.length hle (Or.inr hlen), ← htab, List.range'_eq_map_range, List.map_map, list_sum_range]
    rfl
  · rw [if_neg ho, ht, overTable_eq (fun i => call i 1) g col.length _ _ _ hlt, zero_add]
    intro i hi
    have := hcall i 1 (by omega) (Or.inl rfl)
    simpa using this

end

/-! ## properties -/

section
variable {K : Type} [CommRing K]

/-- C69: on every subset `norm2` has exactly one outcome, the sum of the general `localNorm2` over its sites.  Missing: subsets of 89478486 sites or more
(`C69_overflow`). -/
theorem C69_norm2_partial (F : Nat → Nat → K) {col : List Nat} {cb : Nat} {s : Sub} (hsub : makeSub col cb = ok s)
    (h24 : 24 * (sitesFrom cb col 0).length < 2 ^ 31) :
    norm2Sub F col.length s = only (ok ((sitesFrom cb col 0).map fun i => norm2 spinor (obj spinor (F i))).sum) :=
  sub_eq (fun i n => sumsq (ptr F col.length i) n) (siteNorm2 F) hsub fun i n h hn => sumsq_eq F h (by omega)

/-- C69: `innerProduct` -/
theorem C69_inner_partial (F G : Nat → Nat → K) {col : List Nat} {cb : Nat} {s : Sub} (hsub : makeSub col cb = ok s)
    (h24 : 24 * (sitesFrom cb col 0).length < 2 ^ 31) :
    innerSub F G col.length s =
      only (ok ((sitesFrom cb col 0).map fun i => ((lip (Inner.self spinor) (obj spinor (F i)) (obj spinor (G i))).re,
        (lip (Inner.self spinor) (obj spinor (F i)) (obj spinor (G i))).im)).sum) :=
  sub_eq (fun i n => vcdot (ptr F col.length i) (ptr G col.length i) n) (siteInner F G) hsub fun i n h hn => vcdot_eq F G h (by omega)

/-- C69: `innerProductReal` -/
theorem C69_innerReal_partial (F G : Nat → Nat → K) {col : List Nat} {cb : Nat} {s : Sub} (hsub : makeSub col cb = ok s)
    (h24 : 24 * (sitesFrom cb col 0).length < 2 ^ 31) :
    innerRealSub F G col.length s =
      only (ok ((sitesFrom cb col 0).map fun i => lipReal (Inner.self spinor) (obj spinor (F i)) (obj spinor (G i))).sum) :=
  sub_eq (fun i n => vcdotReal (ptr F col.length i) (ptr G col.length i) n) (siteInnerReal F G) hsub fun i n h hn => vcdotReal_eq F G h (by omega)

/-- the subset `all` -/
theorem all_range {N : Nat} (hN : 0 < N) {all : Sub} (h : makeSub (List.replicate N 0) 0 = ok all) :
    all.start = (0 : Nat) ∧ all.stop - all.start + 1 = N := by
  have hs : ∀ (N l : Nat), sitesFrom 0 (List.replicate N 0) l = List.range' l N := by
    intro N
    induction N with
    | zero => intro l; rfl
    | succ N ih => intro l; rw [List.replicate_succ, sitesFrom, if_pos rfl, ih, List.range'_succ]
  obtain ⟨s', h', ht, _, h0, h1⟩ := makeSub_eq (List.replicate N 0) 0
  rw [h] at h'
  injection h' with h'
  subst h'
  rw [hs] at ht
  have hne : all.table ≠ [] := by
    rw [ht]
    cases N with
    | zero => omega
    | succ N => simp [List.range'_succ]
  obtain ⟨i1, i2, _⟩ := h1 hne
  have hlen : all.table.length = N := by rw [ht]; simp
  have hget : ∀ (k : Nat) (hk : k < all.table.length), all.table[k] = (k : Int) := by
    intro k hk
    simp only [ht, List.getElem_map, List.getElem_range']
    simp
  have hfirst : all.table.head hne = 0 := by rw [List.head_eq_getElem, hget]; rfl
  have hord : all.ordRep = true := i1.2 fun k hk => by rw [hget, hfirst]; simp
  obtain ⟨hst, hsp⟩ := i2 hord
  rw [hfirst] at hst
  rw [List.getLast_eq_getElem, hget] at hsp
  constructor
  · exact hst
  · rw [hst, hsp]
    omega

/-- C69: the versions without a subset -/
theorem C69_all_partial (F G : Nat → Nat → K) {N : Nat} (hN : 0 < N) (h24 : 24 * N < 2 ^ 31) {all : Sub} (h : makeSub (List.replicate N 0) 0 = ok all) :
    norm2All F N all = only (ok (∑ i ∈ Finset.range N, norm2 spinor (obj spinor (F i)))) ∧
    innerAll F G N all = only (ok (∑ i ∈ Finset.range N, ((lip (Inner.self spinor) (obj spinor (F i)) (obj spinor (G i))).re,
      (lip (Inner.self spinor) (obj spinor (F i)) (obj spinor (G i))).im))) ∧
    innerRealAll F G N all = only (ok (∑ i ∈ Finset.range N, lipReal (Inner.self spinor) (obj spinor (F i)) (obj spinor (G i)))) := by
  obtain ⟨h1, h2⟩ := all_range hN h
  unfold norm2All innerAll innerRealAll
  rw [h2, h1, sumsq_eq F (by omega) h24, vcdot_eq F G (by omega) h24, vcdotReal_eq F G (by omega) h24]
  simp only [Nat.zero_add]
  exact ⟨rfl, rfl, rfl⟩

/-- C69: arrays of fields, if the second array is at least as long as the first -/
theorem C69_arrays_partial {N : Nat} (hN : 0 < N) (h24 : 24 * N < 2 ^ 31) {all : Sub} (h : makeSub (List.replicate N 0) 0 = ok all) :
    (∀ (v : List (Nat → Nat → K)) (a : K), norm2Arr N all v a = only (ok (a + (v.map fun F => ∑ i ∈ Finset.range N, siteNorm2 F i).sum))) ∧
    (∀ v w : List (Nat → Nat → K), v.length ≤ w.length →
      innerArr N all v w = only (ok (List.zipWith (fun F G => ∑ i ∈ Finset.range N, siteInner F G i) v w).sum) ∧
      innerRealArr N all v w = only (ok (List.zipWith (fun F G => ∑ i ∈ Finset.range N, siteInnerReal F G i) v w).sum)) := by
  have key : ∀ {M : Type} [AddCommGroup M] (call : (Nat → Nat → K) → (Nat → Nat → K) → Poss M) (g : (Nat → Nat → K) → (Nat → Nat → K) → M),
      (∀ F G, call F G = only (ok (g F G))) → ∀ (v w : List (Nat → Nat → K)) (a : M), v.length ≤ w.length →
        arrLoop call v w a = only (ok (a + (List.zipWith g v w).sum)) := by
    intro M _ call g hg v
    induction v with
    | nil => intro w a _; simp [arrLoop]
    | cons F v ih =>
      intro w a hl
      cases w with
      | nil => simp at hl
      | cons G w =>
        rw [arrLoop, hg, only_bind, ih w _ (by simpa using hl)]
        simp [add_assoc]
  refine ⟨?_, ?_⟩
  · intro v
    induction v with
    | nil => intro a; simp [norm2Arr]
    | cons F v ih =>
      intro a
      rw [norm2Arr, (C69_all_partial F F hN h24 h).1, only_bind, ih]
      simp only [List.map_cons, List.sum_cons, ← add_assoc]
      rfl
  · intro v w hl
    constructor
    · unfold innerArr
      rw [key _ (fun F G => ∑ i ∈ Finset.range N, siteInner F G i) (fun F G => (C69_all_partial F G hN h24 h).2.1) v w 0 hl, zero_add]
    · unfold innerRealArr
      rw [key _ (fun F G => ∑ i ∈ Finset.range N, siteInnerReal F G i) (fun F G => (C69_all_partial F G hN h24 h).2.2) v w 0 hl, zero_add]

/-- C69 refuted for arrays of different length: undefined whenever the second array is the shorter one, however the fields look -/
theorem C69_shorter {N : Nat} (hN : 0 < N) (h24 : 24 * N < 2 ^ 31) {all : Sub} (h : makeSub (List.replicate N 0) 0 = ok all) (v w : List (Nat → Nat → K))
    (hl : w.length < v.length) : innerArr N all v w = only ub ∧ innerRealArr N all v w = only ub := by
  have key : ∀ {M : Type} [AddCommGroup M] (call : (Nat → Nat → K) → (Nat → Nat → K) → Poss M) (g : (Nat → Nat → K) → (Nat → Nat → K) → M),
      (∀ F G, call F G = only (ok (g F G))) → ∀ (v w : List (Nat → Nat → K)) (a : M), w.length < v.length → arrLoop call v w a = only ub := by
    intro M _ call g hg v
    induction v with
    | nil => intro w a h; simp at h
    | cons F v ih =>
      intro w a hl
      cases w with
      | nil => rfl
      | cons G w => rw [arrLoop, hg, only_bind, ih w _ (by simpa using hl)]
  exact ⟨key _ _ (fun F G => (C69_all_partial F G hN h24 h).2.1) v w 0 hl, key _ _ (fun F G => (C69_all_partial F G hN h24 h).2.2) v w 0 hl⟩

/-- C69 refuted for large subsets: the number of words is computed in int -/
theorem C69_overflow (F G : Nat → Nat → K) {N : Nat} {all : Sub} (h : makeSub (List.replicate N 0) 0 = ok all) (hbig : 89478486 ≤ N) :
    norm2All F N all = only ub ∧ innerAll F G N all = only ub ∧ innerRealAll F G N all = only ub := by
  obtain ⟨h1, h2⟩ := all_range (by omega) h
  have h3 : times24 (N : Int) = ub := by
    unfold times24
    rw [if_neg (by omega)]
  have hN : (N : Int) > 0 := by omega
  unfold norm2All innerAll innerRealAll sumsq vcdot vcdotReal
  rw [h2, h3, if_pos hN, if_pos hN, only_bind_ub, only_bind_ub, only_bind_ub]
  exact ⟨rfl, rfl, rfl⟩

/-- sums over the nodes -/
theorem nodes_sum {M : Type} [AddCommGroup M] (g : ParLayout.Geom) (hg : g.Good) (fn : List Nat → Int) (nsub : Nat)
    (hlegal : ∀ c, Layout.InRange c g.L → 0 ≤ fn c ∧ fn c < nsub) (f : Nat → Nat → M) (Φ : List Nat → M)
    (hv : ∀ n i c, n < g.nodes → i < g.sites → g.siteCoords n i = ok c → f n i = Φ c)
    (k : Nat) (S : Nat → SetObj) (hS : ∀ n, n < g.nodes → setMake g n fn nsub = ok (S n)) :
    (∀ n, n < g.nodes → (S n).latColor.length = g.sites) ∧
    ∑ n ∈ Finset.range g.nodes, ((sitesFrom k (S n).latColor 0).map (f n)).sum =
      ∑ r ∈ Finset.range (Layout.nsites g.L), if fn (Layout.digits r g.L) = k then Φ (Layout.digits r g.L) else 0 := by
  have hset : ∀ n, n < g.nodes → (S n).latColor.length = g.sites ∧
      ∀ i (hi : i < (S n).latColor.length), ColourAt g n fn i (S n).latColor[i] := by
    intro n hn
    obtain ⟨s, h1, h2, _, h4, _⟩ := C04_make g hg n hn fn nsub hlegal
    rw [hS n hn] at h1
    injection h1 with h1
    subst h1
    exact ⟨h2, fun i hi => (h4 i hi).1⟩
  refine ⟨fun n hn => (hset n hn).1, ?_⟩
  rw [← C50_nodes g hg (fun n i => if (S n).latColor.getD i 0 = k then f n i else 0) (fun c => if fn c = k then Φ c else 0)]
  · refine Finset.sum_congr rfl fun n hn => ?_
    have hn' := Finset.mem_range.1 hn
    rw [total_sitesFrom, (hset n hn').1]
    simp
  · intro n i c hn hi hc
    have hlen := (hset n hn).1
    obtain ⟨c', hc', hcol⟩ := (hset n hn).2 i (by omega)
    rw [hc] at hc'
    injection hc' with hc'
    subst hc'
    have hg' : (S n).latColor.getD i 0 = (S n).latColor[i]'(by omega) := by
      rw [List.getD_eq_getElem?_getD, List.getElem?_eq_getElem (by omega), Option.getD_some]
    rw [hg', hv n i c hn hi hc]
    by_cases h : fn c = k
    · rw [if_pos h, if_pos (by omega)]
    · rw [if_neg h, if_neg (by omega)]

/-- C69: so on a program of any number of nodes the numbers that the nodes hand to the global sum add up to the sum over the lattice sites that the
colour function puts into `k` -/
theorem C69_nodes_partial (g : ParLayout.Geom) (hg : g.Good) (h24 : 24 * g.sites < 2 ^ 31) (fn : List Nat → Int) (nsub : Nat)
    (hlegal : ∀ c, Layout.InRange c g.L → 0 ≤ fn c ∧ fn c < nsub) (Φ Ψ : List Nat → Nat → K) (F G : Nat → Nat → Nat → K)
    (hF : ∀ n i c, n < g.nodes → i < g.sites → g.siteCoords n i = ok c → F n i = Φ c ∧ G n i = Ψ c)
    (k : Nat) (S : Nat → SetObj) (hS : ∀ n, n < g.nodes → setMake g n fn nsub = ok (S n))
    (sub : Nat → Sub) (hsub : ∀ n, n < g.nodes → makeSub (S n).latColor k = ok (sub n)) :
    ∃ (d e : Nat → K) (p : Nat → K × K),
      (∀ n, n < g.nodes → norm2Sub (F n) g.sites (sub n) = only (ok (d n)) ∧ innerSub (F n) (G n) g.sites (sub n) = only (ok (p n)) ∧
        innerRealSub (F n) (G n) g.sites (sub n) = only (ok (e n))) ∧
      (∑ n ∈ Finset.range g.nodes, d n = ∑ r ∈ Finset.range (Layout.nsites g.L),
        if fn (Layout.digits r g.L) = k then norm2 spinor (obj spinor (Φ (Layout.digits r g.L))) else 0) ∧
      (∑ n ∈ Finset.range g.nodes, p n = ∑ r ∈ Finset.range (Layout.nsites g.L),
        if fn (Layout.digits r g.L) = k then ((lip (Inner.self spinor) (obj spinor (Φ (Layout.digits r g.L))) (obj spinor (Ψ (Layout.digits r g.L)))).re,
          (lip (Inner.self spinor) (obj spinor (Φ (Layout.digits r g.L))) (obj spinor (Ψ (Layout.digits r g.L)))).im) else 0) ∧
      (∑ n ∈ Finset.range g.nodes, e n = ∑ r ∈ Finset.range (Layout.nsites g.L),
        if fn (Layout.digits r g.L) = k then lipReal (Inner.self spinor) (obj spinor (Φ (Layout.digits r g.L))) (obj spinor (Ψ (Layout.digits r g.L))) else 0) := by
  have h1 := nodes_sum g hg fn nsub hlegal (fun n => siteNorm2 (F n)) (fun c => norm2 spinor (obj spinor (Φ c)))
    (fun n i c hn hi hc => by simp only [siteNorm2, (hF n i c hn hi hc).1]) k S hS
  have h2 := nodes_sum g hg fn nsub hlegal (fun n => siteInner (F n) (G n)) (fun c => ((lip (Inner.self spinor) (obj spinor (Φ c)) (obj spinor (Ψ c))).re,
    (lip (Inner.self spinor) (obj spinor (Φ c)) (obj spinor (Ψ c))).im))
    (fun n i c hn hi hc => by simp only [siteInner, (hF n i c hn hi hc).1, (hF n i c hn hi hc).2]) k S hS
  have h3 := nodes_sum g hg fn nsub hlegal (fun n => siteInnerReal (F n) (G n)) (fun c => lipReal (Inner.self spinor) (obj spinor (Φ c)) (obj spinor (Ψ c)))
    (fun n i c hn hi hc => by simp only [siteInnerReal, (hF n i c hn hi hc).1, (hF n i c hn hi hc).2]) k S hS
  refine ⟨_, _, _, fun n hn => ?_, h1.2, h2.2, h3.2⟩
  have hlen := h1.1 n hn
  have hle := Blas.sitesFrom_length_le k (S n).latColor
  rw [← hlen]
  exact ⟨C69_norm2_partial (F n) (hsub n hn) (by omega), C69_inner_partial (F n) (G n) (hsub n hn) (by omega), C69_innerReal_partial (F n) (G n) (hsub n hn) (by omega)⟩

/-- a subset with holes and one without -/
example : ∃ s, makeSub [0, 1, 0] 0 = ok s ∧ s.ordRep = false ∧ 24 * (sitesFrom 0 [0, 1, 0] 0).length < 2 ^ 31 := ⟨_, rfl, by decide, by decide⟩
example : ∃ s, makeSub [0, 1, 1] 1 = ok s ∧ s.ordRep = true := ⟨_, rfl, by decide⟩
/-- two threads that share three iterations -/
example : Distribution 3 2 (fun t => if t = 0 then [2, 0] else [1]) := by unfold Distribution; decide

end
end Verif.Reduce
