import Verif.Dispatch
import Verif.GlobalSum
import Verif.SubsetProps
import Mathlib.Algebra.BigOperators.Group.Finset.Sigma
import Mathlib.Algebra.BigOperators.Group.List.Basic
/-
Sums over lattice fields: include/qdp_scalar_specific.h (single node) and include/qdp_parscalar_specific.h (many nodes).
The values of a field on a node are a list; reading outside it is undefined.  A work-sharing loop is an arbitrary distribution of its
iterations over the threads, and critical sections are entered in an arbitrary order.
-/
namespace Verif.Sums
open Verif Outcome Verif.Layout Verif.ParLayout Verif.Subset Verif.Dispatch Verif.GlobalSum

variable {M : Type}

/-! ## model -/

section model
variable [Add M] [Zero M]

/-- the loop of one thread with its own accumulator, include/qdp_scalar_specific.h:549-557 (subset), include/qdp_parscalar_specific.h:741-749;
the loops over all sites (scalar 599-605, parscalar 795-800) are the same with `tab[j] = j` -/
def threadSum (F : List M) (tab : List Nat) : List Nat → M → Outcome M
  | [], acc => ok acc
  | j :: js, acc => do
    let i ← rd tab j
    let v ← rd F i
    threadSum F tab js (acc + v)

/-- `sum` on a single node, include/qdp_scalar_specific.h:533-573 and 583-620: thread `t` runs the iterations `parts t`; the threads enter
the critical section in the given order -/
def sumScalar (F : List M) (tab : List Nat) (parts : Nat → List Nat) : List Nat → M → Outcome M
  | [], d => ok d
  | t :: ts, d => do
    let x ← threadSum F tab (parts t) 0
    sumScalar F tab parts ts (d + x)

/-- the part of `sum` before the global sum in the many-node version, include/qdp_parscalar_specific.h:724-759 and 780-810: a thread adds its
result only if its number is below the number of sites -/
def sumPar (F : List M) (tab : List Nat) (parts : Nat → List Nat) : List Nat → M → Outcome M
  | [], d => ok d
  | t :: ts, d => do
    let x ← threadSum F tab (parts t) 0
    sumPar F tab parts ts (if t < tab.length then d + x else d)

/-- `row[j] += v` -/
def bump (row : List M) (j : Nat) (v : M) : Outcome (List M) := do
  let x ← rd row j
  ok (row.set j (x + v))

/-- the loop of `sumMultiKernel`, include/qdp_scalar_specific.h:726-735, and of the many-node `sumMulti`,
include/qdp_parscalar_specific.h:889-893: add the sites, in the order of the list, to the entry of their colour -/
def kernel (F : List M) (col : List Nat) : List Nat → List M → Outcome (List M)
  | [], row => ok row
  | i :: is, row => do
    let j ← rd col i
    let v ← rd F i
    let row' ← bump row j v
    kernel F col is row'

/-- `dest[k] += pdest[thread][k]` for the threads from 1 on, include/qdp_scalar_specific.h:770-774 -/
def addRows (k : Nat) : List (List M) → M → Outcome M
  | [], d => ok d
  | r :: rs, d => do
    let x ← rd r k
    addRows k rs (d + x)

/-- entry `k` of the result, include/qdp_scalar_specific.h:766-774 -/
def combine (rows : List (List M)) (k : Nat) : Outcome M :=
  match rows with
  | [] => ub
  | r :: rs => do
    let x ← rd r k
    addRows k rs x

/-- `sumMulti` on a single node, include/qdp_scalar_specific.h:739-791: `n` sites, `T` threads; every thread writes only its own row -/
def sumMultiScalar (F : List M) (col : List Nat) (nsub n T : Nat) : Outcome (List M) := do
  let rs ← dispatch n T
  let rows ← mapO (fun r => kernel F col (share r) (List.replicate nsub 0)) rs
  mapO (combine rows) (List.range nsub)

/-- `sumMulti` on one of many nodes before the global sum, include/qdp_parscalar_specific.h:872-893 -/
def sumMultiPar (F : List M) (col : List Nat) (nsub n : Nat) : Outcome (List M) := kernel F col (List.range n) (List.replicate nsub 0)

end model

/-! ## specification -/

/-- `parts` is a distribution of `n` iterations over `T` threads -/
def Distribution (n T : Nat) (parts : Nat → List Nat) : Prop := ((List.range T).flatMap parts).Perm (List.range n)

/-- the sum of the field over the sites of a list -/
def total [AddCommMonoid M] (F : List M) (tab : List Nat) : M := (tab.map fun i => F.getD i 0).sum

/-- the sum of the field over the sites of colour `k` -/
def colourTotal [AddCommMonoid M] (F : List M) (col : List Nat) (k n : Nat) : M := ∑ i ∈ Finset.range n, if col.getD i 0 = k then F.getD i 0 else 0

/-! ## lemmas -/

section lemmas
variable [AddCommMonoid M]

theorem rd_getD {α : Type} {xs : List α} {i : Nat} (h : i < xs.length) (d : α) : rd xs i = ok (xs.getD i d) := by
  rw [rd_of_lt h, List.getD_eq_getElem?_getD, List.getElem?_eq_getElem h, Option.getD_some]

theorem threadSum_eq (F : List M) (tab : List Nat) (ht : ∀ i ∈ tab, i < F.length) : ∀ (part : List Nat) (acc : M), (∀ j ∈ part, j < tab.length) →
    threadSum F tab part acc = ok (acc + (part.map fun j => F.getD (tab.getD j 0) 0).sum) := by
  intro part
  induction part with
  | nil => intro acc _; simp [threadSum]
  | cons j js ih =>
    intro acc hp
    have hj := hp j (by simp)
    have hi : tab.getD j 0 < F.length := by
      apply ht
      rw [List.getD_eq_getElem?_getD, List.getElem?_eq_getElem hj, Option.getD_some]
      exact List.getElem_mem hj
    simp only [threadSum]
    rw [rd_getD hj 0, ok_bind, rd_getD hi 0, ok_bind, ih _ fun j' h' => hp j' (by simp [h']), List.map_cons, List.sum_cons, add_assoc]

theorem parts_lt {n T : Nat} {parts : Nat → List Nat} (hd : Distribution n T parts) {t : Nat} (ht : t < T) : ∀ j ∈ parts t, j < n := by
  intro j hj
  exact List.mem_range.1 (hd.mem_iff.1 (List.mem_flatMap.2 ⟨t, List.mem_range.2 ht, hj⟩))

theorem sumScalar_eq (F : List M) (tab : List Nat) (ht : ∀ i ∈ tab, i < F.length) (parts : Nat → List Nat) : ∀ (order : List Nat) (d : M),
    (∀ t ∈ order, ∀ j ∈ parts t, j < tab.length) →
    sumScalar F tab parts order d = ok (d + ((order.flatMap parts).map fun j => F.getD (tab.getD j 0) 0).sum) := by
  intro order
  induction order with
  | nil => intro d _; simp [sumScalar]
  | cons t ts ih =>
    intro d h
    simp only [sumScalar]
    rw [threadSum_eq F tab ht (parts t) 0 (h t (by simp)), ok_bind, ih _ fun t' h' => h t' (by simp [h'])]
    simp only [List.flatMap_cons, List.map_append, List.sum_append, zero_add, add_assoc]

theorem sumPar_eq (F : List M) (tab : List Nat) (ht : ∀ i ∈ tab, i < F.length) (parts : Nat → List Nat) : ∀ (order : List Nat) (d : M),
    (∀ t ∈ order, ∀ j ∈ parts t, j < tab.length) →
    sumPar F tab parts order d =
      ok (d + ((order.flatMap fun t => if t < tab.length then parts t else []).map fun j => F.getD (tab.getD j 0) 0).sum) := by
  intro order
  induction order with
  | nil => intro d _; simp [sumPar]
  | cons t ts ih =>
    intro d h
    simp only [sumPar]
    rw [threadSum_eq F tab ht (parts t) 0 (h t (by simp)), ok_bind, ih _ fun t' h' => h t' (by simp [h'])]
    simp only [List.flatMap_cons, List.map_append, List.sum_append, zero_add]
    split
    · rw [add_assoc]
    · simp

theorem map_range_getD {α : Type} (tab : List Nat) (f : Nat → α) : (List.range tab.length).map (fun j => f (tab.getD j 0)) = tab.map f := by
  apply List.ext_getElem (by simp)
  intro i h1 h2
  have hi : i < tab.length := by simpa using h1
  simp [List.getElem?_eq_getElem hi]

theorem kernel_eq (F : List M) (col : List Nat) (nsub : Nat) (hc : ∀ i, i < F.length → col.getD i 0 < nsub) (hl : col.length = F.length) :
    ∀ (is : List Nat) (row : List M), row.length = nsub → (∀ i ∈ is, i < F.length) →
    ∃ row', kernel F col is row = ok row' ∧ row'.length = nsub ∧
      ∀ k, k < nsub → row'.getD k 0 = row.getD k 0 + (is.map fun i => if col.getD i 0 = k then F.getD i 0 else 0).sum := by
  intro is
  induction is with
  | nil => intro row hr _; exact ⟨row, rfl, hr, by simp⟩
  | cons i is ih =>
    intro row hr hi
    have h0 := hi i (by simp)
    have hcol := hc i h0
    obtain ⟨row', e, hr', hv⟩ := ih (row.set (col.getD i 0) (row.getD (col.getD i 0) 0 + F.getD i 0)) (by simpa using hr) fun i' h' => hi i' (by simp [h'])
    refine ⟨row', ?_, hr', fun k hk => ?_⟩
    · simp only [kernel]
      rw [rd_getD (by omega) 0, ok_bind, rd_getD h0 0, ok_bind]
      unfold bump
      rw [rd_getD (by omega) 0, ok_bind, ok_bind]
      exact e
    · rw [hv k hk, List.map_cons, List.sum_cons, ← add_assoc]
      congr 1
      by_cases hk' : col.getD i 0 = k
      · rw [if_pos hk', hk', List.getD_eq_getElem?_getD, List.getElem?_set_self (by omega), Option.getD_some]
      · rw [if_neg hk', add_zero, List.getD_eq_getElem?_getD, List.getElem?_set_ne hk', ← List.getD_eq_getElem?_getD]

theorem addRows_eq (k : Nat) : ∀ (rows : List (List M)) (d : M), (∀ r ∈ rows, k < r.length) →
    addRows k rows d = ok (d + (rows.map fun r => r.getD k 0).sum) := by
  intro rows
  induction rows with
  | nil => intro d _; simp [addRows]
  | cons r rs ih =>
    intro d h
    simp only [addRows]
    rw [rd_getD (h r (by simp)) 0, ok_bind, ih _ fun r' h' => h r' (by simp [h']), List.map_cons, List.sum_cons, add_assoc]

theorem combine_eq (k : Nat) (rows : List (List M)) (hne : rows ≠ []) (h : ∀ r ∈ rows, k < r.length) :
    combine rows k = ok ((rows.map fun r => r.getD k 0).sum) := by
  cases rows with
  | nil => exact absurd rfl hne
  | cons r rs =>
    simp only [combine]
    rw [rd_getD (h r (by simp)) 0, ok_bind, addRows_eq k rs _ fun r' h' => h r' (by simp [h']), List.map_cons, List.sum_cons]

theorem sum_flatMap {α : Type} (g : α → M) (parts : Nat → List α) : ∀ l : List Nat,
    ((l.flatMap parts).map g).sum = (l.map fun t => ((parts t).map g).sum).sum := by
  intro l
  induction l with
  | nil => rfl
  | cons t ts ih => simp [ih]

end lemmas

/-! ## properties -/

section props
variable [AddCommMonoid M]

/-- C50: on a single node `sum(f, subset)` is the sum of `f` over the subset for every number of threads, every distribution of the
iterations and every order of the critical sections -/
theorem C50_sum (F : List M) (tab : List Nat) (ht : ∀ i ∈ tab, i < F.length) {T : Nat} {parts : Nat → List Nat} {order : List Nat}
    (hd : Distribution tab.length T parts) (ho : order.Perm (List.range T)) : sumScalar F tab parts order 0 = ok (total F tab) := by
  rw [sumScalar_eq F tab ht parts order 0 fun t hmem => parts_lt hd (List.mem_range.1 (ho.mem_iff.1 hmem)), zero_add]
  have hp : (order.flatMap parts).Perm (List.range tab.length) := (ho.flatMap_right parts).trans hd
  rw [(hp.map fun j => F.getD (tab.getD j 0) 0).sum_eq, map_range_getD tab fun i => F.getD i 0]
  rfl

/-- C50, many nodes: the same on every node provided that no thread whose number reaches the number of sites was given an iteration -/
theorem C50_par_partial (F : List M) (tab : List Nat) (ht : ∀ i ∈ tab, i < F.length) {T : Nat} {parts : Nat → List Nat} {order : List Nat}
    (hd : Distribution tab.length T parts) (ho : order.Perm (List.range T)) (hgate : ∀ t, t < T → tab.length ≤ t → parts t = []) :
    sumPar F tab parts order 0 = ok (total F tab) := by
  rw [sumPar_eq F tab ht parts order 0 fun t hmem => parts_lt hd (List.mem_range.1 (ho.mem_iff.1 hmem)), zero_add]
  have e : (order.flatMap fun t => if t < tab.length then parts t else []) = order.flatMap parts := by
    unfold List.flatMap
    congr 1
    apply List.map_congr_left
    intro t hmem
    split
    · rfl
    · exact (hgate t (List.mem_range.1 (ho.mem_iff.1 hmem)) (by omega)).symm
  rw [e]
  have hp : (order.flatMap parts).Perm (List.range tab.length) := (ho.flatMap_right parts).trans hd
  rw [(hp.map fun j => F.getD (tab.getD j 0) 0).sum_eq, map_range_getD tab fun i => F.getD i 0]
  rfl

/-- C50, many nodes: in general what is lost is exactly the share of the threads whose number reaches the number of sites -/
theorem C50_gate (F : List M) (tab : List Nat) (ht : ∀ i ∈ tab, i < F.length) {T : Nat} {parts : Nat → List Nat} {order : List Nat}
    (hd : Distribution tab.length T parts) (ho : order.Perm (List.range T)) :
    ∃ got lost, sumPar F tab parts order 0 = ok got ∧ got + lost = total F tab ∧
      lost = (((List.range T).flatMap fun t => if tab.length ≤ t then parts t else []).map fun j => F.getD (tab.getD j 0) 0).sum := by
  refine ⟨_, _, sumPar_eq F tab ht parts order 0 fun t hmem => parts_lt hd (List.mem_range.1 (ho.mem_iff.1 hmem)), ?_, rfl⟩
  rw [zero_add, ((ho.flatMap_right _).map _).sum_eq, sum_flatMap, sum_flatMap, ← List.sum_map_add]
  have hp : (((List.range T).flatMap parts).map fun j => F.getD (tab.getD j 0) 0).sum = total F tab := by
    rw [(hd.map fun j => F.getD (tab.getD j 0) 0).sum_eq, map_range_getD tab fun i => F.getD i 0]
    rfl
  rw [← hp, sum_flatMap]
  congr 1
  apply List.map_congr_left
  intro t _
  by_cases h : t < tab.length
  · rw [if_pos h, if_neg (by omega)]; simp
  · rw [if_neg h, if_pos (by omega)]; simp

/-- C50: `sumMulti` on a single node, any number of threads: entry `k` is the sum over the sites of colour `k` -/
theorem C50_multi (F : List M) (col : List Nat) (nsub T : Nat) (hT : 0 < T) (hl : col.length = F.length) (hc : ∀ i, i < F.length → col.getD i 0 < nsub)
    (hov : F.length * active F.length T < 2 ^ 31) :
    sumMultiScalar F col nsub F.length T = ok ((List.range nsub).map fun k => colourTotal F col k F.length) := by
  obtain ⟨rs, hrs, hlen, hflat, hrest⟩ := C47_cover hT hov
  unfold sumMultiScalar
  rw [hrs, ok_bind]
  have hrow : ∀ r ∈ rs, ∃ row', kernel F col (share r) (List.replicate nsub 0) = ok row' ∧ row'.length = nsub ∧
      ∀ k, k < nsub → row'.getD k 0 = ((share r).map fun i => if col.getD i 0 = k then F.getD i 0 else 0).sum := by
    intro r hr
    obtain ⟨row', h1, h2, h3⟩ := kernel_eq F col nsub hc hl (share r) (List.replicate nsub 0) (by simp) fun i hi => by
      have : i ∈ rs.flatMap share := List.mem_flatMap.2 ⟨r, hr, hi⟩
      rw [hflat] at this
      exact List.mem_range.1 this
    refine ⟨row', h1, h2, fun k hk => ?_⟩
    rw [h3 k hk]
    simp [hk]
  have hrows : ∃ rows, mapO (fun r => kernel F col (share r) (List.replicate nsub 0)) rs = ok rows ∧ rows.length = rs.length ∧ (∀ row ∈ rows, row.length = nsub) ∧
      ∀ k, k < nsub → rows.map (fun row => row.getD k 0) = rs.map fun r => ((share r).map fun i => if col.getD i 0 = k then F.getD i 0 else 0).sum := by
    clear hrs hlen hflat hrest
    induction rs with
    | nil => exact ⟨[], rfl, rfl, by simp, by simp⟩
    | cons r rs ih =>
      obtain ⟨row', e1, e2, e3⟩ := hrow r (by simp)
      obtain ⟨rows, f1, f2, f3, f4⟩ := ih fun r' h' => hrow r' (by simp [h'])
      refine ⟨row' :: rows, ?_, by simp [f2], ?_, fun k hk => ?_⟩
      · simp only [mapO, e1, f1, ok_bind, pure_def]
      · intro row hrow'
        rcases List.mem_cons.1 hrow' with h | h
        · rw [h, e2]
        · exact f3 row h
      · rw [List.map_cons, List.map_cons, e3 k hk, f4 k hk]
  obtain ⟨rows, g1, g2, g3, g4⟩ := hrows
  rw [g1, ok_bind]
  apply mapO_ok
  intro k hk
  have hk' := List.mem_range.1 hk
  rw [combine_eq k rows (by intro h0; rw [h0] at g2; simp at g2; omega) fun r hr => by rw [g3 r hr]; exact hk', g4 k hk']
  congr 1
  have : (rs.map fun r => ((share r).map fun i => if col.getD i 0 = k then F.getD i 0 else 0).sum).sum =
      ((rs.flatMap share).map fun i => if col.getD i 0 = k then F.getD i 0 else 0).sum := by
    generalize rs = l
    induction l with
    | nil => rfl
    | cons t ts ih => rw [List.map_cons, List.sum_cons, List.flatMap_cons, List.map_append, List.sum_append, ih]
  rw [this, hflat, list_sum_range]
  rfl

/-- C50: the same for the part of a node in the many-node version -/
theorem C50_multi_par (F : List M) (col : List Nat) (nsub : Nat) (hl : col.length = F.length) (hc : ∀ i, i < F.length → col.getD i 0 < nsub) :
    ∃ row, sumMultiPar F col nsub F.length = ok row ∧ row.length = nsub ∧ ∀ k, k < nsub → row.getD k 0 = colourTotal F col k F.length := by
  obtain ⟨row, h1, h2, h3⟩ := kernel_eq F col nsub hc hl (List.range F.length) (List.replicate nsub 0) (by simp) fun i hi => List.mem_range.1 hi
  refine ⟨row, h1, h2, fun k hk => ?_⟩
  rw [h3 k hk, list_sum_range]
  simp [hk, colourTotal]

theorem total_sitesFrom (k : Nat) (f : Nat → M) : ∀ (col : List Nat) (l : Nat),
    ((sitesFrom k col l).map f).sum = ∑ i ∈ Finset.range col.length, if col.getD i 0 = k then f (l + i) else 0 := by
  intro col
  induction col with
  | nil => intro l; simp [sitesFrom]
  | cons c cs ih =>
    intro l
    rw [List.length_cons, Finset.sum_range_succ']
    have e : (∑ i ∈ Finset.range cs.length, if (c :: cs).getD (i + 1) 0 = k then f (l + (i + 1)) else 0) =
        ∑ i ∈ Finset.range cs.length, if cs.getD i 0 = k then f (l + 1 + i) else 0 := by
      refine Finset.sum_congr rfl fun i _ => ?_
      rw [List.getD_cons_succ, show l + (i + 1) = l + 1 + i by omega]
    rw [e, ← ih (l + 1)]
    simp only [sitesFrom, List.getD_cons_zero, Nat.add_zero]
    split
    · rw [List.map_cons, List.sum_cons, add_comm]
    · simp

/-- C50: entry `k` of `sumMulti` is `sum` over subset `k` -/
theorem C50_subset (F : List M) (col : List Nat) (k : Nat) (hl : col.length = F.length) : total F (sitesFrom k col 0) = colourTotal F col k F.length := by
  unfold total colourTotal
  rw [total_sitesFrom k (fun i => F.getD i 0) col 0, hl]
  simp

/-- C50: and the entries add up to the sum over the whole lattice -/
theorem C50_partition (F : List M) (col : List Nat) (nsub : Nat) (hc : ∀ i, i < F.length → col.getD i 0 < nsub) :
    ∑ k ∈ Finset.range nsub, colourTotal F col k F.length = total F (List.range F.length) := by
  unfold colourTotal total
  rw [Finset.sum_comm, list_sum_range]
  refine Finset.sum_congr rfl fun i hi => ?_
  rw [Finset.sum_ite_eq, if_pos (Finset.mem_range.2 (hc i (Finset.mem_range.1 hi)))]

/-- C50: adding up the nodes gives the sum over the lattice, whatever the distribution of the sites -/
theorem C50_nodes (g : Geom) (hg : g.Good) (f : Nat → Nat → M) (Φ : List Nat → M)
    (hf : ∀ n i c, n < g.nodes → i < g.sites → g.siteCoords n i = ok c → f n i = Φ c) :
    ∑ n ∈ Finset.range g.nodes, ∑ i ∈ Finset.range g.sites, f n i = ∑ r ∈ Finset.range (nsites g.L), Φ (digits r g.L) := by
  rw [← Finset.sum_product']
  symm
  have hown : ∀ r, r < nsites g.L → ∃ n i, g.nodeNumber (digits r g.L) = ok n ∧ n < g.nodes ∧ g.linearSiteIndex (digits r g.L) = ok i ∧ i < g.sites ∧
      g.siteCoords n i = ok (digits r g.L) := fun r hr => hg.1 _ (digits_inRange hr)
  let key : Nat → Nat × Nat := fun r => match g.nodeNumber (digits r g.L), g.linearSiteIndex (digits r g.L) with
    | ok n, ok i => (n, i)
    | _, _ => (0, 0)
  have hkey : ∀ r, r < nsites g.L → (key r).1 < g.nodes ∧ (key r).2 < g.sites ∧ g.siteCoords (key r).1 (key r).2 = ok (digits r g.L) := by
    intro r hr
    obtain ⟨n, i, h1, h2, h3, h4, h5⟩ := hown r hr
    have : key r = (n, i) := by simp only [key, h1, h3]
    rw [this]
    exact ⟨h2, h4, h5⟩
  refine Finset.sum_bij (fun r _ => key r) ?_ ?_ ?_ ?_
  · intro r hr
    obtain ⟨h1, h2, _⟩ := hkey r (Finset.mem_range.1 hr)
    exact Finset.mem_product.2 ⟨Finset.mem_range.2 h1, Finset.mem_range.2 h2⟩
  · intro r hr r' hr' he
    obtain ⟨_, _, h3⟩ := hkey r (Finset.mem_range.1 hr)
    obtain ⟨_, _, h3'⟩ := hkey r' (Finset.mem_range.1 hr')
    rw [he, h3'] at h3
    injection h3 with h3
    rw [← rank_digits (Finset.mem_range.1 hr), ← rank_digits (Finset.mem_range.1 hr'), h3]
  · intro p hp
    obtain ⟨h1, h2⟩ := Finset.mem_product.1 hp
    obtain ⟨c, c1, c2, c3, c4⟩ := hg.2 p.1 p.2 (Finset.mem_range.1 h1) (Finset.mem_range.1 h2)
    refine ⟨rank c g.L, Finset.mem_range.2 (rank_lt c2), ?_⟩
    simp only [key, digits_rank c2, c3, c4]
  · intro r hr
    obtain ⟨h1, h2, h3⟩ := hkey r (Finset.mem_range.1 hr)
    exact (hf _ _ _ h1 h2 h3).symm

/-- C50: so on a program of any number of nodes, each with any schedule that keeps the gate open, `sum(f, subset k)` is the sum over the
lattice sites that the colour function puts into `k` -/
theorem C50_whole_partial (g : Geom) (hg : g.Good) (fn : List Nat → Int) (nsub : Nat) (hlegal : ∀ c, InRange c g.L → 0 ≤ fn c ∧ fn c < nsub)
    (Φ : List Nat → M) (F : Nat → List M) (hF : ∀ n, n < g.nodes → (F n).length = g.sites)
    (hv : ∀ n i c, n < g.nodes → i < g.sites → g.siteCoords n i = ok c → (F n).getD i 0 = Φ c)
    (k : Nat) (S : Nat → SetObj) (hS : ∀ n, n < g.nodes → setMake g n fn nsub = ok (S n))
    (T : Nat → Nat) (parts : Nat → Nat → List Nat) (order : Nat → List Nat)
    (hd : ∀ n, n < g.nodes → Distribution (sitesFrom k (S n).latColor 0).length (T n) (parts n))
    (ho : ∀ n, n < g.nodes → (order n).Perm (List.range (T n)))
    (hgate : ∀ n, n < g.nodes → ∀ t, t < T n → (sitesFrom k (S n).latColor 0).length ≤ t → parts n t = []) :
    ∃ d : Nat → M, (∀ n, n < g.nodes → sumPar (F n) (sitesFrom k (S n).latColor 0) (parts n) (order n) 0 = ok (d n)) ∧
      ∑ n ∈ Finset.range g.nodes, d n = ∑ r ∈ Finset.range (nsites g.L), if fn (digits r g.L) = k then Φ (digits r g.L) else 0 := by
  have hset : ∀ n, n < g.nodes → (S n).latColor.length = g.sites ∧
      ∀ i (hi : i < (S n).latColor.length), ColourAt g n fn i (S n).latColor[i] := by
    intro n hn
    obtain ⟨s, h1, h2, _, h4, _⟩ := C04_make g hg n hn fn nsub hlegal
    rw [hS n hn] at h1
    injection h1 with h1
    subst h1
    exact ⟨h2, fun i hi => (h4 i hi).1⟩
  refine ⟨fun n => total (F n) (sitesFrom k (S n).latColor 0), fun n hn => ?_, ?_⟩
  · refine C50_par_partial (F n) _ (fun i hi => ?_) (hd n hn) (ho n hn) (hgate n hn)
    obtain ⟨m, hm, hc⟩ := (mem_sitesFrom k _ 0 i).1 hi
    rw [hF n hn, ← (hset n hn).1]
    have := (List.getElem?_eq_some_iff.1 hc).1
    omega
  · rw [← C50_nodes g hg (fun n i => if (S n).latColor.getD i 0 = k then (F n).getD i 0 else 0)
      (fun c => if fn c = k then Φ c else 0)]
    · refine Finset.sum_congr rfl fun n hn => ?_
      have hn' := Finset.mem_range.1 hn
      beta_reduce
      rw [C50_subset (F n) _ k (by rw [hF n hn', (hset n hn').1]), colourTotal, hF n hn']
    · intro n i c hn hi hc
      have hlen := (hset n hn).1
      obtain ⟨c', hc', hcol⟩ := (hset n hn).2 i (by omega)
      rw [hc] at hc'
      injection hc' with hc'
      subst hc'
      have hg' : (S n).latColor.getD i 0 = (S n).latColor[i]'(by omega) := by
        rw [List.getD_eq_getElem?_getD, List.getElem?_eq_getElem (by omega), Option.getD_some]
      rw [hg', hv n i c hn hi hc]
      by_cases h : fn c = k
      · rw [if_pos h, if_pos (by omega)]
      · rw [if_neg h, if_neg (by omega)]

end props

/-- C50: with two threads and one site, if the second thread gets the only iteration then the many-node code loses the site; OpenMP leaves the
distribution to the implementation -/
theorem C50_lost (v : Int) (hv : v ≠ 0) : Distribution 1 2 (fun t => if t = 1 then [0] else []) ∧
    sumPar [v] [0] (fun t => if t = 1 then [0] else []) [0, 1] 0 = ok 0 ∧ total [v] [0] = v ∧ v ≠ 0 := by
  refine ⟨?_, ?_, ?_, hv⟩
  · exact List.Perm.refl _
  · simp [sumPar, threadSum, rd]
  · simp [total]

/-- non-trivial cases -/
example : Distribution 5 3 (fun t => [[3], [0, 4], [1, 2]].getD t []) := by unfold Distribution; decide
example : sumScalar [10, 20, 30, 40, 50, 60] [0, 2, 3, 4, 5] (fun t => [[3], [0, 4], [1, 2]].getD t []) [2, 0, 1] (0 : Nat) = ok 190 := by decide
example : sumMultiScalar [1, 2, 3, 4, 5, 6, 7] [0, 1, 2, 0, 1, 2, 0] 3 7 (4 : Nat) = ok [12, 7, 9] := by decide
example : sumMultiPar [1, 2, 3, 4, 5, 6, 7] [0, 1, 2, 0, 1, 2, 0] 3 7 = ok [12, 7, 9] := by decide

end Verif.Sums
