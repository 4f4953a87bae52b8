import Verif.Sums
import Verif.Multi
import Verif.LatticeIOProps
import Mathlib.Analysis.InnerProductSpace.PiL2
/-
C102: reductions over arrays of fields: `norm2`, `innerProduct` and `innerProductReal` of `multi1d<OLattice>`, `sumMulti` of `multi1d<OLattice>`;
include/qdp_scalar_specific.h (single node) and include/qdp_parscalar_specific.h (many nodes).

As in Verif.Sums: a work-sharing loop is an arbitrary distribution of its iterations over the threads, critical sections are entered in
an arbitrary order.  There is one parallel region for every member of the array, so distribution and order may differ between members.
-/
namespace Verif.ArrSums
open Verif Outcome Verif.Layout Verif.ParLayout Verif.Subset Verif.Dispatch Verif.GlobalSum Verif.Sums
open Verif.LatticeIO (foldO foldO_range_id)

variable {A B M : Type}

/-! ## model -/

section model
variable [Add M] [Zero M]

/-- the loop of one thread with its own accumulator, for two fields: include/qdp_parscalar_specific.h:1203-1211 (`innerProduct`), 1334-1342
(`innerProductReal`), include/qdp_scalar_specific.h:1117-1125, 1240-1248; `loc` is `localInnerProduct` or `localInnerProductReal`.
`norm2` (include/qdp_parscalar_specific.h:1073-1081, include/qdp_scalar_specific.h:993-1001) is the loop with both fields the same and
`loc x x = localNorm2 x`. -/
def threadDot (loc : A → B → M) (F : List A) (G : List B) (tab : List Nat) : List Nat → M → Outcome M
  | [], acc => ok acc
  | j :: js, acc => do
    let i ← rd tab j
    let x ← rd F i
    let y ← rd G i
    threadDot loc F G tab js (acc + loc x y)

/-- the parallel region of a single node, include/qdp_scalar_specific.h:991-1007, 1115-1130, 1238-1253 -/
def regionScalar (loc : A → B → M) (F : List A) (G : List B) (tab : List Nat) (parts : Nat → List Nat) : List Nat → M → Outcome M
  | [], d => ok d
  | t :: ts, d => do
    let x ← threadDot loc F G tab (parts t) 0
    regionScalar loc F G tab parts ts (d + x)

/-- the parallel region of one of many nodes, include/qdp_parscalar_specific.h:1071-1091, 1201-1221, 1332-1352: a thread adds its result
only if its number is below the number of sites -/
def regionPar (loc : A → B → M) (F : List A) (G : List B) (tab : List Nat) (parts : Nat → List Nat) : List Nat → M → Outcome M
  | [], d => ok d
  | t :: ts, d => do
    let x ← threadDot loc F G tab (parts t) 0
    regionPar loc F G tab parts ts (if t < tab.length then d + x else d)

/-- how the iterations of the region of a member are distributed, and in which order the threads add their results -/
structure Sched where
  T : Nat
  parts : Nat → List Nat
  order : List Nat

/-- the loop over the members from `n` on, single node, include/qdp_scalar_specific.h:987-1008, 1111-1131, 1233-1254; the size of the second
array is not looked at -/
def arrScalar (loc : A → B → M) (tab : List Nat) (s2 : List (List B)) (sch : Nat → Sched) : Nat → List (List A) → M → Outcome M
  | _, [], d => ok d
  | n, F :: s1, d => do
    let G ← rd s2 n
    let d' ← regionScalar loc F G tab (sch n).parts (sch n).order d
    arrScalar loc tab s2 sch (n + 1) s1 d'

/-- the same on one of many nodes, before the global sum, include/qdp_parscalar_specific.h:1067-1092, 1196-1222, 1327-1353 -/
def arrPar (loc : A → B → M) (tab : List Nat) (s2 : List (List B)) (sch : Nat → Sched) : Nat → List (List A) → M → Outcome M
  | _, [], d => ok d
  | n, F :: s1, d => do
    let G ← rd s2 n
    let d' ← regionPar loc F G tab (sch n).parts (sch n).order d
    arrPar loc tab s2 sch (n + 1) s1 d'

/-- `zero_rep(dest(j,i))` for all j, i, include/qdp_parscalar_specific.h:965-967, include/qdp_scalar_specific.h:887-889: `size1` is the
number of subsets, `size2` the number of members (include/qdp_multi.h:644, 673-674, 709) -/
def zeroAll (n2 n1 : Nat) (dest : List M) : Outcome (List M) :=
  foldO (fun d i => foldO (fun d j => if Multi.idx2 n1 j i < d.length then ok (d.set (Multi.idx2 n1 j i) 0) else ub) d (List.range n2)) dest (List.range n1)

/-- the loop over the sites of member `k`, include/qdp_parscalar_specific.h:976-980, include/qdp_scalar_specific.h:899-903 -/
def addSites (F : List M) (col : List Nat) (n1 k : Nat) : List Nat → List M → Outcome (List M)
  | [], d => ok d
  | i :: is, d => do
    let j ← rd col i
    let v ← rd F i
    let d' ← bump d (Multi.idx2 n1 k j) v
    addSites F col n1 k is d'

/-- the loop over the members, include/qdp_parscalar_specific.h:972-981, include/qdp_scalar_specific.h:895-904 -/
def addMembers (col : List Nat) (n1 n : Nat) : Nat → List (List M) → List M → Outcome (List M)
  | _, [], d => ok d
  | k, F :: s1, d => do
    let d' ← addSites F col n1 k (List.range n) d
    addMembers col n1 n (k + 1) s1 d'

/-- `sumMulti(multi1d<OLattice>, Set)`, include/qdp_parscalar_specific.h:953-993 up to the global sum, include/qdp_scalar_specific.h:877-912: `n`
sites, `n1` subsets.  The new array has any contents, `junk`. -/
def sumMultiArr (s1 : List (List M)) (col : List Nat) (n1 n : Nat) (junk : List M) : Outcome (List M) := do
  let d ← zeroAll s1.length n1 junk
  addMembers col n1 n 0 s1 d

/-- `globalSumArray(multi2d)`, include/qdp_parscalar_specific.h:106-121: the array as one row of numbers, added over the nodes position by
position; `rows` are the arrays of the nodes.  The message passing library adds (C49 is about the one that is in the repository). -/
def globalSumArr (nodes : Nat) (len : Nat) (rows : Nat → List M) : List M :=
  (List.range len).map fun p => ((List.range nodes).map fun n => (rows n).getD p 0).foldr (· + ·) 0

end model

/-! ## specification -/

/-- every iteration is done once, every thread adds its result once -/
def Sched.Fair (s : Sched) (n : Nat) : Prop := Distribution n s.T s.parts ∧ s.order.Perm (List.range s.T)

/-- no iteration is given to a thread whose number reaches the number of iterations -/
def Sched.Gated (s : Sched) (n : Nat) : Prop := ∀ t, t < s.T → n ≤ t → s.parts t = []

/-- the sum over the members and over the sites of a list -/
def dotSum [AddCommMonoid M] (loc : A → B → M) (a : A) (b : B) (s1 : List (List A)) (s2 : List (List B)) (tab : List Nat) : M :=
  ∑ n ∈ Finset.range s1.length, (tab.map fun i => loc ((s1.getD n []).getD i a) ((s2.getD n []).getD i b)).sum

/-! ## lemmas -/

section lemmas
variable [AddCommMonoid M]

theorem getD_zipWith (loc : A → B → M) (a : A) (b : B) : ∀ (F : List A) (G : List B) (i : Nat), i < F.length → i < G.length →
    (List.zipWith loc F G).getD i 0 = loc (F.getD i a) (G.getD i b) := by
  intro F G i hF hG
  simp [List.getElem?_eq_getElem hF, List.getElem?_eq_getElem hG, List.getElem?_zipWith]

/-- reading two fields and combining is reading the combined field -/
theorem threadDot_eq (loc : A → B → M) {F : List A} {G : List B} {tab : List Nat} (hF : ∀ i ∈ tab, i < F.length)
    (hG : ∀ i ∈ tab, i < G.length) : ∀ (part : List Nat) (acc : M),
    threadDot loc F G tab part acc = threadSum (List.zipWith loc F G) tab part acc := by
  intro part
  induction part with
  | nil => intro acc; rfl
  | cons j js ih =>
    intro acc
    simp only [threadDot, threadSum]
    by_cases hj : j < tab.length
    · rw [rd_of_lt hj, ok_bind, ok_bind]
      have h1 := hF _ (List.getElem_mem hj)
      have h2 := hG _ (List.getElem_mem hj)
      rw [rd_of_lt h1, ok_bind, rd_of_lt h2, ok_bind, rd_of_lt (by simp [h1, h2]), ok_bind, List.getElem_zipWith, ih]
    · simp [rd, List.getElem?_eq_none (Nat.le_of_not_lt hj)]

theorem regionScalar_eq (loc : A → B → M) {F : List A} {G : List B} {tab : List Nat} (hF : ∀ i ∈ tab, i < F.length)
    (hG : ∀ i ∈ tab, i < G.length) (parts : Nat → List Nat) : ∀ (order : List Nat) (d : M),
    regionScalar loc F G tab parts order d = sumScalar (List.zipWith loc F G) tab parts order d := by
  intro order
  induction order with
  | nil => intro d; rfl
  | cons t ts ih =>
    intro d
    simp only [regionScalar, sumScalar, threadDot_eq loc hF hG]
    congr 1
    funext x
    exact ih _

theorem regionPar_eq (loc : A → B → M) {F : List A} {G : List B} {tab : List Nat} (hF : ∀ i ∈ tab, i < F.length)
    (hG : ∀ i ∈ tab, i < G.length) (parts : Nat → List Nat) : ∀ (order : List Nat) (d : M),
    regionPar loc F G tab parts order d = sumPar (List.zipWith loc F G) tab parts order d := by
  intro order
  induction order with
  | nil => intro d; rfl
  | cons t ts ih =>
    intro d
    simp only [regionPar, sumPar, threadDot_eq loc hF hG]
    congr 1
    funext x
    exact ih _

theorem total_zip (loc : A → B → M) (a : A) (b : B) {F : List A} {G : List B} {tab : List Nat} (hF : ∀ i ∈ tab, i < F.length)
    (hG : ∀ i ∈ tab, i < G.length) : total (List.zipWith loc F G) tab = (tab.map fun i => loc (F.getD i a) (G.getD i b)).sum := by
  unfold total
  congr 1
  exact List.map_congr_left fun i hi => getD_zipWith loc a b F G i (hF i hi) (hG i hi)

/-- the accumulator may start anywhere -/
theorem sumScalar_start (F : List M) (tab : List Nat) (ht : ∀ i ∈ tab, i < F.length) {s : Sched} (hs : s.Fair tab.length) (d : M) :
    sumScalar F tab s.parts s.order d = ok (d + total F tab) := by
  have h0 := C50_sum F tab ht hs.1 hs.2
  have hp : ∀ t ∈ s.order, ∀ j ∈ s.parts t, j < tab.length := fun t hm => parts_lt hs.1 (List.mem_range.1 (hs.2.mem_iff.1 hm))
  rw [sumScalar_eq F tab ht s.parts s.order _ hp, zero_add] at h0
  rw [sumScalar_eq F tab ht s.parts s.order _ hp]
  injection h0 with h0
  rw [h0]

theorem sumPar_start (F : List M) (tab : List Nat) (ht : ∀ i ∈ tab, i < F.length) {s : Sched} (hs : s.Fair tab.length) (hg : s.Gated tab.length)
    (d : M) : sumPar F tab s.parts s.order d = ok (d + total F tab) := by
  have h0 := C50_par_partial F tab ht hs.1 hs.2 hg
  have hp : ∀ t ∈ s.order, ∀ j ∈ s.parts t, j < tab.length := fun t hm => parts_lt hs.1 (List.mem_range.1 (hs.2.mem_iff.1 hm))
  rw [sumPar_eq F tab ht s.parts s.order _ hp, zero_add] at h0
  rw [sumPar_eq F tab ht s.parts s.order _ hp]
  injection h0 with h0
  rw [h0]

theorem arrScalar_run (loc : A → B → M) (a : A) (b : B) (tab : List Nat) (s2 : List (List B)) (sch : Nat → Sched) : ∀ (s1 : List (List A)) (n : Nat) (d : M),
    n + s1.length ≤ s2.length → (∀ F ∈ s1, ∀ i ∈ tab, i < F.length) → (∀ G ∈ s2, ∀ i ∈ tab, i < G.length) → (∀ m, (sch m).Fair tab.length) →
    arrScalar loc tab s2 sch n s1 d = ok (d + ∑ m ∈ Finset.range s1.length,
      (tab.map fun i => loc ((s1.getD m []).getD i a) ((s2.getD (n + m) []).getD i b)).sum) := by
  intro s1
  induction s1 with
  | nil => intro n d _ _ _ _; simp [arrScalar]
  | cons F s1 ih =>
    intro n d hn h1 h2 hs
    have hlt : n < s2.length := by simp at hn; omega
    have hF := h1 F (by simp)
    have hG := h2 _ (List.getElem_mem hlt)
    have hz : ∀ i ∈ tab, i < (List.zipWith loc F s2[n]).length := fun i hi => by simp [hF i hi, hG i hi]
    simp only [arrScalar]
    rw [rd_of_lt hlt, ok_bind, regionScalar_eq loc hF hG, sumScalar_start _ _ hz (hs n), ok_bind,
      ih (n + 1) _ (by simp at hn; omega) (fun F' h' => h1 F' (by simp [h'])) h2 hs, List.length_cons, Finset.sum_range_succ',
      total_zip loc a b hF hG, add_assoc]
    congr 2
    rw [add_comm]
    congr 1
    · refine Finset.sum_congr rfl fun m _ => ?_
      rw [List.getD_cons_succ, show n + 1 + m = n + (m + 1) by omega]
    · rw [List.getD_cons_zero, Nat.add_zero, show s2.getD n [] = s2[n] by simp [List.getElem?_eq_getElem hlt]]

theorem arrPar_run (loc : A → B → M) (a : A) (b : B) (tab : List Nat) (s2 : List (List B)) (sch : Nat → Sched) : ∀ (s1 : List (List A)) (n : Nat) (d : M),
    n + s1.length ≤ s2.length → (∀ F ∈ s1, ∀ i ∈ tab, i < F.length) → (∀ G ∈ s2, ∀ i ∈ tab, i < G.length) → (∀ m, (sch m).Fair tab.length) →
    (∀ m, (sch m).Gated tab.length) →
    arrPar loc tab s2 sch n s1 d = ok (d + ∑ m ∈ Finset.range s1.length,
      (tab.map fun i => loc ((s1.getD m []).getD i a) ((s2.getD (n + m) []).getD i b)).sum) := by
  intro s1
  induction s1 with
  | nil => intro n d _ _ _ _ _; simp [arrPar]
  | cons F s1 ih =>
    intro n d hn h1 h2 hs hg
    have hlt : n < s2.length := by simp at hn; omega
    have hF := h1 F (by simp)
    have hG := h2 _ (List.getElem_mem hlt)
    have hz : ∀ i ∈ tab, i < (List.zipWith loc F s2[n]).length := fun i hi => by simp [hF i hi, hG i hi]
    simp only [arrPar]
    rw [rd_of_lt hlt, ok_bind, regionPar_eq loc hF hG, sumPar_start _ _ hz (hs n) (hg n), ok_bind,
      ih (n + 1) _ (by simp at hn; omega) (fun F' h' => h1 F' (by simp [h'])) h2 hs hg, List.length_cons, Finset.sum_range_succ',
      total_zip loc a b hF hG, add_assoc]
    congr 2
    rw [add_comm]
    congr 1
    · refine Finset.sum_congr rfl fun m _ => ?_
      rw [List.getD_cons_succ, show n + 1 + m = n + (m + 1) by omega]
    · rw [List.getD_cons_zero, Nat.add_zero, show s2.getD n [] = s2[n] by simp [List.getElem?_eq_getElem hlt]]

end lemmas

/-! ## properties -/

section props
variable [AddCommMonoid M]

/-- C102. On a single node `norm2`, `innerProduct` and `innerProductReal` of arrays of fields are the sums over the members and over the
sites of the subset, for every number of threads, every distribution of the iterations and every order of the critical sections, each of
which may be another one for every member.  The second array may be longer; what it has more is not read. -/
theorem C102_single (loc : A → B → M) (a : A) (b : B) (tab : List Nat) (s1 : List (List A)) (s2 : List (List B)) (sch : Nat → Sched)
    (hlen : s1.length ≤ s2.length) (h1 : ∀ F ∈ s1, ∀ i ∈ tab, i < F.length) (h2 : ∀ G ∈ s2, ∀ i ∈ tab, i < G.length)
    (hs : ∀ m, (sch m).Fair tab.length) : arrScalar loc tab s2 sch 0 s1 0 = ok (dotSum loc a b s1 s2 tab) := by
  rw [arrScalar_run loc a b tab s2 sch s1 0 0 (by omega) h1 h2 hs, zero_add]
  simp only [Nat.zero_add]
  rfl

/-- C102, one of many nodes: the same if no thread whose number reaches the number of sites is given an iteration -/
theorem C102_node_partial (loc : A → B → M) (a : A) (b : B) (tab : List Nat) (s1 : List (List A)) (s2 : List (List B)) (sch : Nat → Sched)
    (hlen : s1.length ≤ s2.length) (h1 : ∀ F ∈ s1, ∀ i ∈ tab, i < F.length) (h2 : ∀ G ∈ s2, ∀ i ∈ tab, i < G.length)
    (hs : ∀ m, (sch m).Fair tab.length) (hg : ∀ m, (sch m).Gated tab.length) :
    arrPar loc tab s2 sch 0 s1 0 = ok (dotSum loc a b s1 s2 tab) := by
  rw [arrPar_run loc a b tab s2 sch s1 0 0 (by omega) h1 h2 hs hg, zero_add]
  simp only [Nat.zero_add]
  rfl

/-- C102. If the second array is shorter than the first the code reads behind its end: the sizes are not compared. -/
theorem C102_short (loc : A → B → M) (tab : List Nat) (s1 : List (List A)) (s2 : List (List B)) (sch : Nat → Sched)
    (hlen : s2.length < s1.length) (h1 : ∀ F ∈ s1, ∀ i ∈ tab, i < F.length) (h2 : ∀ G ∈ s2, ∀ i ∈ tab, i < G.length)
    (hs : ∀ m, (sch m).Fair tab.length) : arrScalar loc tab s2 sch 0 s1 0 = ub ∧ arrPar loc tab s2 sch 0 s1 0 = ub := by
  have key : ∀ (s1 : List (List A)) (n : Nat) (d : M), n ≤ s2.length → s2.length < n + s1.length → (∀ F ∈ s1, ∀ i ∈ tab, i < F.length) →
      arrScalar loc tab s2 sch n s1 d = ub ∧ arrPar loc tab s2 sch n s1 d = ub := by
    intro s1
    induction s1 with
    | nil => intro n d h h' _; simp at h'; omega
    | cons F s1 ih =>
      intro n d hn hn' h1
      by_cases hlt : n < s2.length
      · have hF := h1 F (by simp)
        have hG := h2 _ (List.getElem_mem hlt)
        have hz : ∀ i ∈ tab, i < (List.zipWith loc F s2[n]).length := fun i hi => by simp [hF i hi, hG i hi]
        have hp : ∀ t ∈ (sch n).order, ∀ j ∈ (sch n).parts t, j < tab.length :=
          fun t hm => parts_lt (hs n).1 (List.mem_range.1 ((hs n).2.mem_iff.1 hm))
        simp only [arrScalar, arrPar]
        rw [rd_of_lt hlt, ok_bind, ok_bind, regionScalar_eq loc hF hG, regionPar_eq loc hF hG, sumScalar_eq _ tab hz _ _ _ hp,
          sumPar_eq _ tab hz _ _ _ hp, ok_bind, ok_bind]
        exact ⟨(ih (n + 1) _ hlt (by simp at hn'; omega) fun F' h' => h1 F' (by simp [h'])).1,
          (ih (n + 1) _ hlt (by simp at hn'; omega) fun F' h' => h1 F' (by simp [h'])).2⟩
      · have : rd s2 n = ub := by simp [rd, List.getElem?_eq_none (Nat.le_of_not_lt hlt)]
        simp only [arrScalar, arrPar, this]
        exact ⟨rfl, rfl⟩
  exact key s1 0 0 (Nat.zero_le _) (by omega) h1

/-- C102. On any number of nodes, with any schedules that keep the gate open, the numbers of the nodes add up to the sum over the members
and over the lattice sites that the colour function puts into subset `k`. -/
theorem C102_whole_partial (g : Geom) (hg : g.Good) (fn : List Nat → Int) (nsub : Nat) (hlegal : ∀ c, InRange c g.L → 0 ≤ fn c ∧ fn c < nsub)
    (loc : A → B → M) (a : A) (b : B) (N : Nat) (Φ : Nat → List Nat → A) (Ψ : Nat → List Nat → B) (s1 : Nat → List (List A)) (s2 : Nat → List (List B))
    (hl : ∀ n, n < g.nodes → (s1 n).length = N ∧ N ≤ (s2 n).length)
    (h1 : ∀ n, n < g.nodes → ∀ F ∈ s1 n, F.length = g.sites) (h2 : ∀ n, n < g.nodes → ∀ G ∈ s2 n, G.length = g.sites)
    (hv : ∀ n i c, n < g.nodes → i < g.sites → g.siteCoords n i = ok c → ∀ m, m < N →
      ((s1 n).getD m []).getD i a = Φ m c ∧ ((s2 n).getD m []).getD i b = Ψ m c)
    (k : Nat) (S : Nat → SetObj) (hS : ∀ n, n < g.nodes → setMake g n fn nsub = ok (S n)) (sch : Nat → Nat → Sched)
    (hs : ∀ n, n < g.nodes → ∀ m, (sch n m).Fair (sitesFrom k (S n).latColor 0).length)
    (hgate : ∀ n, n < g.nodes → ∀ m, (sch n m).Gated (sitesFrom k (S n).latColor 0).length) :
    ∃ d : Nat → M, (∀ n, n < g.nodes → arrPar loc (sitesFrom k (S n).latColor 0) (s2 n) (sch n) 0 (s1 n) 0 = ok (d n)) ∧
      ∑ n ∈ Finset.range g.nodes, d n = ∑ m ∈ Finset.range N, ∑ r ∈ Finset.range (nsites g.L),
        if fn (digits r g.L) = k then loc (Φ m (digits r g.L)) (Ψ m (digits r g.L)) else 0 := by
  have hset : ∀ n, n < g.nodes → (S n).latColor.length = g.sites ∧
      ∀ i (hi : i < (S n).latColor.length), ColourAt g n fn i (S n).latColor[i] := by
    intro n hn
    obtain ⟨s, h1, h2, _, h4, _⟩ := C04_make g hg n hn fn nsub hlegal
    rw [hS n hn] at h1
    injection h1 with h1
    subst h1
    exact ⟨h2, fun i hi => (h4 i hi).1⟩
  have htab : ∀ n, n < g.nodes → ∀ i ∈ sitesFrom k (S n).latColor 0, i < g.sites := by
    intro n hn i hi
    obtain ⟨m, hm, hc⟩ := (mem_sitesFrom k _ 0 i).1 hi
    rw [← (hset n hn).1]
    have := (List.getElem?_eq_some_iff.1 hc).1
    omega
  refine ⟨fun n => dotSum loc a b (s1 n) (s2 n) (sitesFrom k (S n).latColor 0), fun n hn => ?_, ?_⟩
  · exact C102_node_partial loc a b _ _ _ _ (by rw [(hl n hn).1]; exact (hl n hn).2) (fun F hF i hi => by rw [h1 n hn F hF]; exact htab n hn i hi)
      (fun G hG i hi => by rw [h2 n hn G hG]; exact htab n hn i hi) (hs n hn) (hgate n hn)
  · unfold dotSum
    have e : ∀ n ∈ Finset.range g.nodes, (∑ m ∈ Finset.range (s1 n).length,
        ((sitesFrom k (S n).latColor 0).map fun i => loc (((s1 n).getD m []).getD i a) (((s2 n).getD m []).getD i b)).sum) =
        ∑ m ∈ Finset.range N, ∑ i ∈ Finset.range g.sites,
          if (S n).latColor.getD i 0 = k then loc (((s1 n).getD m []).getD i a) (((s2 n).getD m []).getD i b) else 0 := by
      intro n hn
      have hn' := Finset.mem_range.1 hn
      rw [(hl n hn').1]
      refine Finset.sum_congr rfl fun m _ => ?_
      rw [total_sitesFrom k (fun i => loc (((s1 n).getD m []).getD i a) (((s2 n).getD m []).getD i b)) _ 0, (hset n hn').1]
      simp only [Nat.zero_add]
    rw [Finset.sum_congr rfl e, Finset.sum_comm]
    refine Finset.sum_congr rfl fun m hm => ?_
    refine C50_nodes g hg (fun n i => if (S n).latColor.getD i 0 = k then loc (((s1 n).getD m []).getD i a) (((s2 n).getD m []).getD i b) else 0)
      (fun c => if fn c = k then loc (Φ m c) (Ψ m c) else 0) ?_
    intro n i c hn hi hc
    have hlen := (hset n hn).1
    obtain ⟨c', hc', hcol⟩ := (hset n hn).2 i (by omega)
    rw [hc] at hc'
    injection hc' with hc'
    subst hc'
    have hg' : (S n).latColor.getD i 0 = (S n).latColor[i]'(by omega) := by
      rw [List.getD_eq_getElem?_getD, List.getElem?_eq_getElem (by omega), Option.getD_some]
    obtain ⟨v1, v2⟩ := hv n i c hn hi hc m (Finset.mem_range.1 hm)
    rw [hg', v1, v2]
    by_cases h : fn c = k
    · rw [if_pos h, if_pos (by omega)]
    · rw [if_neg h, if_neg (by omega)]

/-! ### sumMulti -/

theorem idx2_inj {n1 j i j' i' : Nat} (hi : i < n1) (hi' : i' < n1) (h : Multi.idx2 n1 j i = Multi.idx2 n1 j' i') : j = j' ∧ i = i' := by
  unfold Multi.idx2 at h
  have h1 : (i + n1 * j) % n1 = (i' + n1 * j') % n1 := by rw [h]
  rw [Nat.add_mul_mod_self_left, Nat.add_mul_mod_self_left, Nat.mod_eq_of_lt hi, Nat.mod_eq_of_lt hi'] at h1
  subst h1
  refine ⟨?_, rfl⟩
  have : n1 * j = n1 * j' := by omega
  exact Nat.eq_of_mul_eq_mul_left (by omega) this

theorem idx2_lt {n1 n2 j i : Nat} (hi : i < n1) (hj : j < n2) : Multi.idx2 n1 j i < n2 * n1 := by
  unfold Multi.idx2
  have : n1 * (j + 1) ≤ n1 * n2 := Nat.mul_le_mul_left _ hj
  rw [Nat.mul_comm n2 n1]
  have e : n1 * (j + 1) = n1 * j + n1 := by ring
  omega

theorem zeroAll_ok (n2 n1 : Nat) (junk : List M) (hl : junk.length = n2 * n1) :
    ∃ d, zeroAll n2 n1 junk = ok d ∧ d.length = n2 * n1 ∧ ∀ j, j < n2 → ∀ i, i < n1 → d.getD (Multi.idx2 n1 j i) 0 = 0 := by
  obtain ⟨d, h1, h2, h3⟩ := foldO_range_id (f := fun d i => foldO (fun (d : List M) j => if Multi.idx2 n1 j i < d.length then ok (d.set (Multi.idx2 n1 j i) 0)
    else ub) d (List.range n2)) (fun i d => d.length = n2 * n1 ∧ ∀ i', i' < i → i' < n1 → ∀ j, j < n2 → d.getD (Multi.idx2 n1 j i') 0 = 0) (s := junk) n1
    ⟨hl, fun i' h => absurd h (by omega)⟩ (by
      intro i d hi ⟨hd, hz⟩
      obtain ⟨d', g1, g2, g3, g4⟩ := foldO_range_id (f := fun (d : List M) j => if Multi.idx2 n1 j i < d.length then ok (d.set (Multi.idx2 n1 j i) 0)
        else ub) (fun j d' => d'.length = n2 * n1 ∧ (∀ j', j' < j → d'.getD (Multi.idx2 n1 j' i) 0 = 0) ∧
          ∀ i', i' < i → i' < n1 → ∀ j, j < n2 → d'.getD (Multi.idx2 n1 j i') 0 = 0) (s := d) n2 ⟨hd, fun j' h => absurd h (by omega), hz⟩ (by
          intro j e hj ⟨he, hz1, hz2⟩
          have hlt := idx2_lt hi hj
          refine ⟨e.set (Multi.idx2 n1 j i) 0, by rw [if_pos (by omega)], by simp [he], fun j' hj' => ?_, fun i' hi' hn j' hj' => ?_⟩
          · by_cases hjj : j' = j
            · subst hjj
              rw [List.getD_eq_getElem?_getD, List.getElem?_set_self (by omega), Option.getD_some]
            · rw [List.getD_eq_getElem?_getD, List.getElem?_set_ne (fun h => hjj (idx2_inj hi hi h).1.symm), ← List.getD_eq_getElem?_getD]
              exact hz1 j' (by omega)
          · rw [List.getD_eq_getElem?_getD, List.getElem?_set_ne (fun h => by have := (idx2_inj hi hn h).2; omega), ← List.getD_eq_getElem?_getD]
            exact hz2 i' hi' hn j' hj')
      refine ⟨d', g1, g2, fun i' hi' hn j hj => ?_⟩
      by_cases hii : i' = i
      · subst hii; exact g3 j hj
      · exact g4 i' (by omega) hn j hj)
  exact ⟨d, h1, h2, fun j hj i hi => h3 i hi hi j hj⟩

theorem addSites_ok (F : List M) (col : List Nat) (n1 n2 k : Nat) (hk : k < n2) (hc : ∀ i, i < F.length → col.getD i 0 < n1) (hcl : col.length = F.length) :
    ∀ (is : List Nat) (d : List M), d.length = n2 * n1 → (∀ i ∈ is, i < F.length) →
    ∃ d', addSites F col n1 k is d = ok d' ∧ d'.length = n2 * n1 ∧
      (∀ j, j < n1 → d'.getD (Multi.idx2 n1 k j) 0 = d.getD (Multi.idx2 n1 k j) 0 + (is.map fun i => if col.getD i 0 = j then F.getD i 0 else 0).sum) ∧
      ∀ k', k' ≠ k → ∀ j, j < n1 → d'.getD (Multi.idx2 n1 k' j) 0 = d.getD (Multi.idx2 n1 k' j) 0 := by
  intro is
  induction is with
  | nil => intro d hd _; exact ⟨d, rfl, hd, by simp, fun _ _ _ _ => rfl⟩
  | cons i is ih =>
    intro d hd hi
    have h0 := hi i (by simp)
    have hcol := hc i h0
    have hlt := idx2_lt hcol hk
    obtain ⟨d', e1, e2, e3, e4⟩ := ih (d.set (Multi.idx2 n1 k (col.getD i 0)) (d.getD (Multi.idx2 n1 k (col.getD i 0)) 0 + F.getD i 0)) (by simpa using hd)
      fun i' h' => hi i' (by simp [h'])
    refine ⟨d', ?_, e2, fun j hj => ?_, fun k' hk' j hj => ?_⟩
    · simp only [addSites]
      rw [rd_getD (by omega) 0, ok_bind, rd_getD h0 0, ok_bind]
      unfold bump
      rw [rd_getD (by omega) 0, ok_bind, ok_bind]
      exact e1
    · rw [e3 j hj, List.map_cons, List.sum_cons, ← add_assoc]
      congr 1
      by_cases hj' : col.getD i 0 = j
      · rw [if_pos hj', hj', List.getD_eq_getElem?_getD, List.getElem?_set_self (by rw [← hj']; omega), Option.getD_some]
      · rw [if_neg hj', add_zero, List.getD_eq_getElem?_getD, List.getElem?_set_ne (fun h => hj' (idx2_inj hcol hj h).2), ← List.getD_eq_getElem?_getD]
    · rw [e4 k' hk' j hj, List.getD_eq_getElem?_getD, List.getElem?_set_ne (fun h => hk' (idx2_inj hcol hj h).1.symm), ← List.getD_eq_getElem?_getD]

theorem addMembers_ok (col : List Nat) (n1 n2 n : Nat) (hc : ∀ i, i < n → col.getD i 0 < n1) (hcl : col.length = n) :
    ∀ (s1 : List (List M)) (k : Nat) (d : List M), k + s1.length ≤ n2 → d.length = n2 * n1 → (∀ F ∈ s1, F.length = n) →
    ∃ d', addMembers col n1 n k s1 d = ok d' ∧ d'.length = n2 * n1 ∧
      (∀ m, m < s1.length → ∀ j, j < n1 → d'.getD (Multi.idx2 n1 (k + m) j) 0 = d.getD (Multi.idx2 n1 (k + m) j) 0 + colourTotal (s1.getD m []) col j n) ∧
      ∀ k', k' < k → ∀ j, j < n1 → d'.getD (Multi.idx2 n1 k' j) 0 = d.getD (Multi.idx2 n1 k' j) 0 := by
  intro s1
  induction s1 with
  | nil => intro k d _ hd _; exact ⟨d, rfl, hd, fun m h => absurd h (by simp), fun _ _ _ _ => rfl⟩
  | cons F s1 ih =>
    intro k d hk hd hF
    have hFl := hF F (by simp)
    obtain ⟨d1, e1, e2, e3, e4⟩ := addSites_ok F col n1 n2 k (by simp at hk; omega) (fun i hi => hc i (by omega)) (by omega) (List.range n) d hd
      fun i hi => by rw [hFl]; exact List.mem_range.1 hi
    obtain ⟨d2, f1, f2, f3, f4⟩ := ih (k + 1) d1 (by simp at hk; omega) e2 fun F' h' => hF F' (by simp [h'])
    refine ⟨d2, by simp only [addMembers, e1, ok_bind, f1], f2, fun m hm j hj => ?_, fun k' hk' j hj => ?_⟩
    · cases m with
      | zero =>
        rw [Nat.add_zero, f4 k (by omega) j hj, e3 j hj, list_sum_range, List.getD_cons_zero]
        rfl
      | succ m =>
        rw [show k + (m + 1) = k + 1 + m by omega, f3 m (by simp at hm; omega) j hj, e4 _ (by omega) j hj, List.getD_cons_succ]
    · rw [f4 k' (by omega) j hj, e4 k' (by omega) j hj]

/-- C102. `sumMulti` of an array of fields: entry `(k, j)` of the table is the sum of field `k` over the sites of colour `j` of this node,
whatever the new table contains before. -/
theorem C102_sumMulti (s1 : List (List M)) (col : List Nat) (n1 n : Nat) (junk : List M) (hl : junk.length = s1.length * n1) (hcl : col.length = n)
    (hc : ∀ i, i < n → col.getD i 0 < n1) (hF : ∀ F ∈ s1, F.length = n) :
    ∃ d, sumMultiArr s1 col n1 n junk = ok d ∧ d.length = s1.length * n1 ∧
      ∀ k, k < s1.length → ∀ j, j < n1 → d.getD (Multi.idx2 n1 k j) 0 = colourTotal (s1.getD k []) col j n := by
  obtain ⟨d0, e1, e2, e3⟩ := zeroAll_ok s1.length n1 junk hl
  obtain ⟨d, f1, f2, f3, _⟩ := addMembers_ok col n1 s1.length n hc hcl s1 0 d0 (by omega) e2 hF
  refine ⟨d, by simp only [sumMultiArr, e1, ok_bind, f1], f2, fun k hk j hj => ?_⟩
  have := f3 k hk j hj
  rw [Nat.zero_add] at this
  rw [this, e3 k hk j hj, zero_add]

/-- C102. On any number of nodes: after the global sum entry `(m, k)` is the sum of field `m` over the lattice sites of colour `k`. -/
theorem C102_sumMulti_whole (g : Geom) (hg : g.Good) (fn : List Nat → Int) (nsub : Nat) (hlegal : ∀ c, InRange c g.L → 0 ≤ fn c ∧ fn c < nsub)
    (N : Nat) (Φ : Nat → List Nat → M) (s1 : Nat → List (List M)) (hl : ∀ n, n < g.nodes → (s1 n).length = N)
    (h1 : ∀ n, n < g.nodes → ∀ F ∈ s1 n, F.length = g.sites)
    (hv : ∀ n i c, n < g.nodes → i < g.sites → g.siteCoords n i = ok c → ∀ m, m < N → ((s1 n).getD m []).getD i 0 = Φ m c)
    (S : Nat → SetObj) (hS : ∀ n, n < g.nodes → setMake g n fn nsub = ok (S n)) (junk : Nat → List M) (hj : ∀ n, n < g.nodes → (junk n).length = N * nsub) :
    ∃ d : Nat → List M, (∀ n, n < g.nodes → sumMultiArr (s1 n) (S n).latColor nsub g.sites (junk n) = ok (d n)) ∧
      ∀ m, m < N → ∀ k, k < nsub → (globalSumArr g.nodes (N * nsub) d).getD (Multi.idx2 nsub m k) 0 =
        ∑ r ∈ Finset.range (nsites g.L), if fn (digits r g.L) = k then Φ m (digits r g.L) else 0 := by
  have hset : ∀ n, n < g.nodes → (S n).latColor.length = g.sites ∧ (∀ i, i < g.sites → (S n).latColor.getD i 0 < nsub) ∧
      ∀ i (hi : i < (S n).latColor.length), ColourAt g n fn i (S n).latColor[i] := by
    intro n hn
    obtain ⟨s, h1, h2, _, h4, _⟩ := C04_make g hg n hn fn nsub hlegal
    rw [hS n hn] at h1
    injection h1 with h1
    subst h1
    refine ⟨h2, fun i hi => ?_, fun i hi => (h4 i hi).1⟩
    obtain ⟨⟨c, hc, hcol⟩, hlt⟩ := h4 i (by omega)
    rw [List.getD_eq_getElem?_getD, List.getElem?_eq_getElem (by omega), Option.getD_some]
    exact hlt
  have hex : ∀ n, ∃ d, n < g.nodes → sumMultiArr (s1 n) (S n).latColor nsub g.sites (junk n) = ok d ∧
      ∀ k, k < N → ∀ j, j < nsub → d.getD (Multi.idx2 nsub k j) 0 = colourTotal ((s1 n).getD k []) (S n).latColor j g.sites := by
    intro n
    by_cases hn : n < g.nodes
    · obtain ⟨d, h2, _, h4⟩ := C102_sumMulti (s1 n) (S n).latColor nsub g.sites (junk n) (by rw [hl n hn]; exact hj n hn) (hset n hn).1 (hset n hn).2.1 (h1 n hn)
      exact ⟨d, fun _ => ⟨h2, fun k hk => h4 k (by rw [hl n hn]; exact hk)⟩⟩
    · exact ⟨[], fun h => absurd h hn⟩
  choose d hd using hex
  refine ⟨d, fun n hn => (hd n hn).1, fun m hm k hk => ?_⟩
  have hlt := idx2_lt (n2 := N) hk hm
  unfold globalSumArr
  rw [List.getD_eq_getElem?_getD, List.getElem?_map, List.getElem?_range hlt, Option.map_some, Option.getD_some]
  rw [show ∀ l : List M, l.foldr (· + ·) 0 = l.sum from fun l => rfl, list_sum_range,
    ← C50_nodes g hg (fun n i => if (S n).latColor.getD i 0 = k then ((s1 n).getD m []).getD i 0 else 0) (fun c => if fn c = k then Φ m c else 0)]
  · refine Finset.sum_congr rfl fun n hn => ?_
    rw [(hd n (Finset.mem_range.1 hn)).2 m hm k hk]
    rfl
  · intro n i c hn hi hc
    have hlen := (hset n hn).1
    obtain ⟨c', hc', hcol⟩ := (hset n hn).2.2 i (by omega)
    rw [hc] at hc'
    injection hc' with hc'
    subst hc'
    have hg' : (S n).latColor.getD i 0 = (S n).latColor[i]'(by omega) := by
      rw [List.getD_eq_getElem?_getD, List.getElem?_eq_getElem (by omega), Option.getD_some]
    rw [hg', hv n i c hn hi hc m hm]
    by_cases h : fn c = k
    · rw [if_pos h, if_pos (by omega)]
    · rw [if_neg h, if_neg (by omega)]

end props

/-! ### complex numbers -/

section complex
open scoped ComplexConjugate
variable {m : Nat}

/-- `localInnerProduct` of two sites of `m` complex numbers (C64), and its real part, and `localNorm2` -/
def ip (x y : Fin m → ℂ) : ℂ := ∑ c, conj (x c) * y c
def ipRe (x y : Fin m → ℂ) : ℝ := ∑ c, ((x c).re * (y c).re + (x c).im * (y c).im)
def nrm (x : Fin m → ℂ) (_ : Fin m → ℂ) : ℝ := ∑ c, ((x c).re * (x c).re + (x c).im * (x c).im)

/-- the components of an array on the sites of a list, as one vector -/
def vec (s : List (List (Fin m → ℂ))) (tab : List Nat) (N : Nat) : EuclideanSpace ℂ (Fin N × Fin tab.length × Fin m) :=
  WithLp.toLp 2 fun p => (s.getD p.1 []).getD (tab.getD p.2.1 0) 0 p.2.2

theorem tab_sum {K : Type} [AddCommMonoid K] (tab : List Nat) (f : Nat → K) : (tab.map f).sum = ∑ j : Fin tab.length, f (tab.getD j 0) := by
  rw [← map_range_getD tab f, list_sum_range, Finset.sum_range]

theorem dotSum_ip (s1 s2 : List (List (Fin m → ℂ))) (tab : List Nat) :
    dotSum ip 0 0 s1 s2 tab = inner ℂ (vec s1 tab s1.length) (vec s2 tab s1.length) := by
  unfold dotSum
  rw [PiLp.inner_apply, Fintype.sum_prod_type, Finset.sum_range]
  refine Finset.sum_congr rfl fun n _ => ?_
  rw [tab_sum, Fintype.sum_prod_type]
  refine Finset.sum_congr rfl fun j _ => ?_
  refine Finset.sum_congr rfl fun c _ => ?_
  simp [vec, mul_comm]

theorem dotSum_re (s1 s2 : List (List (Fin m → ℂ))) (tab : List Nat) : dotSum ipRe 0 0 s1 s2 tab = (dotSum ip 0 0 s1 s2 tab).re := by
  unfold dotSum
  rw [Complex.re_sum]
  refine Finset.sum_congr rfl fun n _ => ?_
  rw [tab_sum, tab_sum, Complex.re_sum]
  refine Finset.sum_congr rfl fun j _ => ?_
  unfold ip ipRe
  rw [Complex.re_sum]
  exact Finset.sum_congr rfl fun c _ => by simp

theorem dotSum_nrm (s1 s2 : List (List (Fin m → ℂ))) (tab : List Nat) : dotSum nrm 0 0 s1 s2 tab = ‖vec s1 tab s1.length‖ ^ 2 := by
  rw [EuclideanSpace.norm_sq_eq]
  unfold dotSum
  rw [Fintype.sum_prod_type, Finset.sum_range]
  refine Finset.sum_congr rfl fun n _ => ?_
  rw [tab_sum, Fintype.sum_prod_type]
  refine Finset.sum_congr rfl fun j _ => ?_
  refine Finset.sum_congr rfl fun c _ => ?_
  rw [Complex.sq_norm, Complex.normSq_apply]
  rfl

/-- C102. What the functions return obeys the laws of a scalar product on the members and sites: exchanging the arguments conjugates, the
product with itself is `norm2`, `innerProductReal` is the real part, `norm2` vanishes only for fields that vanish on the subset, and the
inequality of Cauchy and Schwarz holds. -/
theorem C102_laws (s1 s2 : List (List (Fin m → ℂ))) (hl : s1.length = s2.length) (tab : List Nat) :
    dotSum ip 0 0 s2 s1 tab = conj (dotSum ip 0 0 s1 s2 tab) ∧
    dotSum ip 0 0 s1 s1 tab = (dotSum nrm 0 0 s1 s1 tab : ℝ) ∧
    dotSum ipRe 0 0 s1 s2 tab = (dotSum ip 0 0 s1 s2 tab).re ∧
    0 ≤ dotSum nrm 0 0 s1 s1 tab ∧
    (dotSum nrm 0 0 s1 s1 tab = 0 ↔ ∀ n, n < s1.length → ∀ i ∈ tab, (s1.getD n []).getD i 0 = 0) ∧
    ‖dotSum ip 0 0 s1 s2 tab‖ ^ 2 ≤ dotSum nrm 0 0 s1 s1 tab * dotSum nrm 0 0 s2 s2 tab := by
  refine ⟨?_, ?_, dotSum_re s1 s2 tab, ?_, ?_, ?_⟩
  · rw [dotSum_ip, dotSum_ip, ← hl, inner_conj_symm]
  · rw [dotSum_ip, dotSum_nrm, inner_self_eq_norm_sq_to_K]
    norm_cast
  · rw [dotSum_nrm]; positivity
  · rw [dotSum_nrm, sq_eq_zero_iff, norm_eq_zero]
    constructor
    · intro h n hn i hi
      obtain ⟨j, hj, rfl⟩ := List.getElem_of_mem hi
      funext c
      have := congrFun (congrArg WithLp.ofLp h) (⟨n, hn⟩, ⟨j, hj⟩, c)
      simpa [vec, List.getElem?_eq_getElem hj, List.getElem?_eq_getElem hn] using this
    · intro h
      ext ⟨n, j, c⟩
      have := h n n.2 (tab.getD j 0) (by
        rw [List.getD_eq_getElem?_getD, List.getElem?_eq_getElem j.2, Option.getD_some]; exact List.getElem_mem j.2)
      simp only [vec, this]
      rfl
  · rw [dotSum_ip, dotSum_nrm, dotSum_nrm, ← mul_pow, ← hl]
    exact pow_le_pow_left₀ (norm_nonneg _) (norm_inner_le_norm _ _) 2

end complex

/-- C102. The gate: with two threads and a subset of one site, if the second thread gets the only iteration of a region then the many-node
code leaves out this member of the array.  OpenMP leaves the distribution to the implementation. -/
theorem C102_lost (v w : Int) (hv : v ≠ 0) :
    let sch : Nat → Sched := fun n => if n = 0 then ⟨2, fun t => if t = 1 then [0] else [], [0, 1]⟩ else ⟨2, fun t => if t = 0 then [0] else [], [0, 1]⟩
    (∀ n, (sch n).Fair 1) ∧ arrPar (fun x _ : Int => x * x) [0] [[v], [w]] sch 0 [[v], [w]] 0 = ok (w * w) ∧
    dotSum (fun x _ : Int => x * x) 0 0 [[v], [w]] [[v], [w]] [0] = v * v + w * w ∧ v * v + w * w ≠ w * w := by
  refine ⟨fun n => ?_, ?_, ?_, ?_⟩
  · dsimp only
    split
    · exact ⟨List.Perm.refl _, List.Perm.refl _⟩
    · exact ⟨List.Perm.refl _, List.Perm.refl _⟩
  · simp [arrPar, regionPar, threadDot, rd]
  · simp [dotSum, Finset.sum_range_succ]
  · intro h
    have : v * v = 0 := by omega
    exact hv (by simpa using this)

/-! ### examples -/

/-- two members, three threads, other distributions for the two members -/
def someSched (n : Nat) : Sched := if n = 0 then ⟨3, fun t => [[1], [0], [2, 3]].getD t [], [2, 0, 1]⟩ else ⟨2, fun t => [[3, 0], [1, 2]].getD t [], [1, 0]⟩

example : ∀ n, (someSched n).Fair 4 ∧ (someSched n).Gated 4 := by
  intro n
  unfold someSched
  split
  · exact ⟨⟨by unfold Distribution; decide, by decide⟩, fun t h h' => absurd h (by simp; omega)⟩
  · exact ⟨⟨by unfold Distribution; decide, by decide⟩, fun t h h' => absurd h (by simp; omega)⟩
example : arrScalar (fun x y : Nat => x * y) [0, 2, 3, 4] [[1, 2, 3, 4, 5], [2, 2, 2, 2, 2], [9]] someSched 0 [[1, 1, 1, 1, 1], [10, 20, 30, 40, 50]] 0 = ok 273 := by decide
example : dotSum (fun x y : Nat => x * y) 0 0 [[1, 1, 1, 1, 1], [10, 20, 30, 40, 50]] [[1, 2, 3, 4, 5], [2, 2, 2, 2, 2], [9]] [0, 2, 3, 4] = 273 := by decide
example : sumMultiArr [[1, 2, 3, 4], [10, 20, 30, 40]] [0, 1, 1, 2] 3 4 [7, 7, 7, 7, 7, 7] = ok [1, 5, 4, 10, 50, 40] := by decide

end Verif.ArrSums
