import Verif.Bagel
import Mathlib.Algebra.BigOperators.Fin
import Mathlib.Algebra.BigOperators.Intervals
import Mathlib.Algebra.BigOperators.Group.List.Basic
/-
The norms and inner products of fields of Dirac fermions that call the routines of the library Bagel
(include/scalarsite_bagel_qdp/qdp_scalarsite_bagel_qdp_blas.h:1638-2112).  The routines are not part of the repository; what they return is taken from
their names and the comments at the calls (`red`), it is an assumption of the claims.
-/
set_option linter.unusedSectionVars false
namespace Verif.BagelReduce
open Verif Outcome Verif.Subset Verif.Blas

section model
variable {R : Type} [Field R] {V : Type} [AddCommMonoid V]

/-! ## the routines: assumed -/

/-- the `q`-th complex number of a field -/
def cx (h : Kernel.Heap R) (f q : Nat) : R × R := (h f (2 * q), h f (2 * q + 1))

/-- `qdp_lsum2`: the square of the absolute value, include/scalarsite_bagel_qdp/qdp_scalarsite_bagel_qdp_blas.h:1657 -/
def nrm (x _ : R × R) : R := x.1 * x.1 + x.2 * x.2
/-- `qdp_lcdot`: first factor conjugated, real and imaginary part, include/scalarsite_bagel_qdp/qdp_scalarsite_bagel_qdp_blas.h:1725-1729 -/
def cdot (x y : R × R) : R × R := (x.1 * y.1 + x.2 * y.2, x.1 * y.2 - x.2 * y.1)
/-- `qdp_lcdotr`: the real part only, include/scalarsite_bagel_qdp/qdp_scalarsite_bagel_qdp_blas.h:1816-1820 -/
def cdotr (x y : R × R) : R := x.1 * y.1 + x.2 * y.2

/-- a call with pointers to the complex number `p` of the fields, which have `len` of them, and the count `n` of vectors of three -/
def red (F : R × R → R × R → V) (h : Kernel.Heap R) (px py p n len : Nat) : Outcome V :=
  if p + 3 * n ≤ len then ok (∑ t ∈ Finset.range (3 * n), F (cx h px (p + t)) (cx h py (p + t))) else ub

/-! ## model -/

/-- the loop over the site table, include/scalarsite_bagel_qdp/qdp_scalarsite_bagel_qdp_blas.h:1661-1671, 1768-1781, 1856-1867 -/
def loop (F : R × R → R × R → V) (Ns N : Nat) (h : Kernel.Heap R) (px py : Nat) : List Nat → V → Outcome V
  | [], acc => ok acc
  | i :: is, acc => do
      let t ← red F h px py (3 * Ns * i) 4 (3 * Ns * N)
      loop F Ns N h px py is (acc + t)

/-- the sum over the sites of one node: `norm2(s1, s)`, `innerProduct(v1, v2, s)`, `innerProductReal(v1, v2, s)`,
include/scalarsite_bagel_qdp/qdp_scalarsite_bagel_qdp_blas.h:1649-1672, 1752-1782, 1843-1868; without a subset the set `all`: 1693-1697, 1722-1729, 1813-1820.
The fields have `N` sites of `Ns` spin components; the count is computed as an `int` -/
def part (F : R × R → R × R → V) (Ns N : Nat) (h : Kernel.Heap R) (px py : Nat) : Form → Outcome V
  | .ordered start n => do
      let _ ← ckInt (n * 4)
      red F h px py (3 * Ns * start) (n * 4) (3 * Ns * N)
  | .unordered tab => loop F Ns N h px py tab 0

/-- arrays of fields: the loop over `n < v1.size()`, `v2[n]` without a check,
include/scalarsite_bagel_qdp/qdp_scalarsite_bagel_qdp_blas.h:1891-1900, 1920-1949, 1979-1993, 2027-2040, 2070-2106; without ordered representation
the sites of all fields are added up one after the other, here field by field -/
def parts (F : R × R → R × R → V) (Ns N : Nat) (h : Kernel.Heap R) (f : Form) : List Nat → List Nat → V → Outcome V
  | [], _, acc => ok acc
  | _ :: _, [], _ => ub
  | x :: xs, y :: ys, acc => do
      let t ← part F Ns N h x y f
      parts F Ns N h f xs ys (acc + t)

/-- the sum over the nodes, `QDPInternal::globalSum`, e.g. include/scalarsite_bagel_qdp/qdp_scalarsite_bagel_qdp_blas.h:1675: each node has its own
fields and sites; the sum itself is taken as exact -/
def total : List (Outcome V) → Outcome V
  | [] => ok 0
  | p :: ps => do
      let a ← p
      let b ← total ps
      ok (a + b)

/-! ## specification -/

/-- `Σ |v|²` over spin and colour -/
def normSq (v _w : Spinor R) : R := ∑ s : Fin 4, ∑ c : Fin 3, ((v s c).1 ^ 2 + (v s c).2 ^ 2)
/-- real part of `Σ v* w` -/
def innerRe (v w : Spinor R) : R := ∑ s : Fin 4, ∑ c : Fin 3, ((v s c).1 * (w s c).1 - -(v s c).2 * (w s c).2)
/-- imaginary part of `Σ v* w` -/
def innerIm (v w : Spinor R) : R := ∑ s : Fin 4, ∑ c : Fin 3, ((v s c).1 * (w s c).2 + -(v s c).2 * (w s c).1)
def inner (v w : Spinor R) : R × R := (innerRe v w, innerIm v w)

/-! ## proofs -/

/-- the sum over the twelve complex numbers of a site -/
def Site (F : R × R → R × R → V) (G : Spinor R → Spinor R → V) : Prop :=
  ∀ (h : Kernel.Heap R) (x y i : Nat), ∑ t ∈ Finset.range 12, F (cx h x (12 * i + t)) (cx h y (12 * i + t)) = G (spinor h x i) (spinor h y i)

theorem idx (i a b : Nat) (e : 2 * a = b) : 2 * (12 * i + a) = 24 * i + b := by omega

theorem site_nrm : Site (R := R) nrm normSq := by
  intro h x y i
  simp only [Finset.sum_range_succ, Finset.sum_range_zero, normSq, Fin.sum_univ_four, Fin.sum_univ_three, nrm, cx, spinor, idx i _ _ rfl]
  norm_num
  ring_nf

theorem site_cdotr : Site (R := R) cdotr innerRe := by
  intro h x y i
  simp only [Finset.sum_range_succ, Finset.sum_range_zero, innerRe, Fin.sum_univ_four, Fin.sum_univ_three, cdotr, cx, spinor, idx i _ _ rfl]
  norm_num
  ring_nf

theorem site_cdot : Site (R := R) cdot inner := by
  intro h x y i
  simp only [Finset.sum_range_succ, Finset.sum_range_zero, inner, innerRe, innerIm, Fin.sum_univ_four, Fin.sum_univ_three, cdot, cx, spinor, idx i _ _ rfl]
  ext
  · norm_num
    ring_nf
  · norm_num
    ring_nf

theorem block {F : R × R → R × R → V} {G : Spinor R → Spinor R → V} (g : Site F G) (h : Kernel.Heap R) (x y i : Nat) : ∀ n : Nat,
    ∑ t ∈ Finset.range (12 * n), F (cx h x (12 * i + t)) (cx h y (12 * i + t)) =
      ((List.range' i n).map fun k => G (spinor h x k) (spinor h y k)).sum
  | 0 => by simp
  | n + 1 => by
      rw [Nat.mul_succ, Finset.sum_range_add, block g h x y i n, List.range'_1_concat, List.map_append, List.sum_append]
      simp only [List.map_cons, List.map_nil, List.sum_cons, List.sum_nil, add_zero]
      rw [← g h x y (i + n)]
      congr 1
      refine Finset.sum_congr rfl fun t _ => ?_
      rw [show 12 * i + (12 * n + t) = 12 * (i + n) + t by omega]

theorem loop_eq {F : R × R → R × R → V} {G : Spinor R → Spinor R → V} (g : Site F G) (N : Nat) (h : Kernel.Heap R) (x y : Nat) :
    ∀ (tab : List Nat) (acc : V), (∀ i ∈ tab, i < N) →
      loop F 4 N h x y tab acc = ok (acc + (tab.map fun k => G (spinor h x k) (spinor h y k)).sum)
  | [], acc, _ => by simp [loop]
  | i :: is, acc, hN => by
      have hi := hN i (by simp)
      have := g h x y i
      simp only [loop, red]
      rw [if_pos (by omega)]
      simp only [ok_bind]
      rw [loop_eq g N h x y is _ (fun k hk => hN k (by simp [hk]))]
      simp only [List.map_cons, List.sum_cons, ← add_assoc]
      rw [← this]

/-- a set of sites of a node -/
theorem part_eq {F : R × R → R × R → V} {G : Spinor R → Spinor R → V} (g : Site F G) {col : List Nat} {cb : Nat} {sub : Sub}
    (hsub : makeSub col cb = ok sub) (h4 : 4 * col.length < 2 ^ 31) (h : Kernel.Heap R) (x y : Nat) :
    part F 4 col.length h x y (Form.of sub) = ok (((sitesFrom cb col 0).map fun k => G (spinor h x k) (spinor h y k)).sum) := by
  have htab := form_of_makeSub hsub
  have hlt : ∀ i ∈ sitesFrom cb col 0, i < col.length := by
    intro i hi
    rw [mem_sitesFrom] at hi
    obtain ⟨j, rfl, hi⟩ := hi
    by_contra hc
    rw [List.getElem?_eq_none (by omega)] at hi
    simp at hi
  rw [← htab] at hlt ⊢
  rcases hf : Form.of sub with ⟨start, n⟩ | tab
  · rw [hf] at hlt
    simp only [Form.table] at *
    rcases Nat.eq_zero_or_pos n with rfl | hn
    · exfalso
      obtain ⟨s', h', ht, _, h0, _⟩ := makeSub_eq col cb
      rw [hsub] at h'
      injection h' with h'
      subst h'
      have hnil : sub.table = [] := by
        rw [ht, ← htab, hf]
        rfl
      unfold Form.of at hf
      rw [(h0 hnil).1] at hf
      simp at hf
    · have hle : start + n ≤ col.length := by
        have := hlt (start + n - 1) (by rw [List.mem_range'_1]; omega)
        omega
      simp only [part, red]
      rw [ckInt_of_lt (by omega), ok_bind, if_pos (by omega), ← block g h x y start n]
      rw [show 3 * (n * 4) = 12 * n by omega, show 3 * 4 * start = 12 * start by omega]
  · rw [hf] at hlt
    simp only [Form.table] at *
    simp only [part]
    rw [loop_eq g col.length h x y tab 0 hlt, zero_add]

theorem parts_eq {F : R × R → R × R → V} {G : Spinor R → Spinor R → V} (g : Site F G) {col : List Nat} {cb : Nat} {sub : Sub}
    (hsub : makeSub col cb = ok sub) (h4 : 4 * col.length < 2 ^ 31) (h : Kernel.Heap R) : ∀ (xs ys : List Nat) (acc : V), xs.length ≤ ys.length →
    parts F 4 col.length h (Form.of sub) xs ys acc =
      ok (acc + ((xs.zip ys).map fun q => ((sitesFrom cb col 0).map fun k => G (spinor h q.1 k) (spinor h q.2 k)).sum).sum)
  | [], _, acc, _ => by simp [parts]
  | x :: xs, [], acc, hl => by simp at hl
  | x :: xs, y :: ys, acc, hl => by
      simp only [parts]
      rw [part_eq g hsub h4, ok_bind, parts_eq g hsub h4 h xs ys _ (by simpa using hl)]
      simp only [List.zip_cons_cons, List.map_cons, List.sum_cons, add_assoc]

theorem total_eq : ∀ (l : List V), total (l.map ok) = ok l.sum
  | [] => rfl
  | a :: l => by
      simp only [List.map_cons, total, ok_bind]
      rw [total_eq l]
      simp only [ok_bind, List.sum_cons]

/-! ## properties -/

/-- a node: its fields and the subset, as made from the colours of its sites -/
structure Node (R : Type) where
  heap : Kernel.Heap R
  col : List Nat
  cb : Nat
  sub : Sub
  made : makeSub col cb = ok sub
  small : 4 * col.length < 2 ^ 31

/-- the sum over the nodes and the sites of the subset -/
def overSites (G : Spinor R → Spinor R → V) (l : List (Node R)) (x y : Nat) : V :=
  (l.map fun n => ((sitesFrom n.cb n.col 0).map fun k => G (spinor n.heap x k) (spinor n.heap y k)).sum).sum

theorem over {F : R × R → R × R → V} {G : Spinor R → Spinor R → V} (g : Site F G) (l : List (Node R)) (x y : Nat) :
    total (l.map fun n => part F 4 n.col.length n.heap x y (Form.of n.sub)) = ok (overSites G l x y) := by
  rw [show (l.map fun n => part F 4 n.col.length n.heap x y (Form.of n.sub)) =
      (l.map fun n => ((sitesFrom n.cb n.col 0).map fun k => G (spinor n.heap x k) (spinor n.heap y k)).sum).map ok from by
    rw [List.map_map]
    exact List.map_congr_left fun n _ => part_eq g n.made n.small n.heap x y]
  exact total_eq _

/-- C132: `norm2` of a field on a subset is the sum of the squares of the absolute values over all nodes, the sites of the subset, spin and colour -/
theorem C132_norm2 (l : List (Node R)) (x : Nat) :
    total (l.map fun n => part nrm 4 n.col.length n.heap x x (Form.of n.sub)) = ok (overSites normSq l x x) := over site_nrm l x x

/-- C132: `innerProduct(v1, v2)` is the sum of `v1* v2`, the first factor conjugated -/
theorem C132_inner (l : List (Node R)) (x y : Nat) :
    total (l.map fun n => part cdot 4 n.col.length n.heap x y (Form.of n.sub)) = ok (overSites inner l x y) := over site_cdot l x y

/-- C132: `innerProductReal(v1, v2)` is the sum of the real part of `v1* v2` -/
theorem C132_inner_real (l : List (Node R)) (x y : Nat) :
    total (l.map fun n => part cdotr 4 n.col.length n.heap x y (Form.of n.sub)) = ok (overSites innerRe l x y) := over site_cdotr l x y

/-- C132: for arrays of fields the sum over the array of the above, where the second array is at least as long as the first -/
theorem C132_arrays {F : R × R → R × R → V} {G : Spinor R → Spinor R → V} (g : Site F G) (l : List (Node R)) (xs ys : List Nat) (hl : xs.length ≤ ys.length) :
    total (l.map fun n => parts F 4 n.col.length n.heap (Form.of n.sub) xs ys 0) =
      ok (l.map fun n => ((xs.zip ys).map fun q => ((sitesFrom n.cb n.col 0).map fun k => G (spinor n.heap q.1 k) (spinor n.heap q.2 k)).sum).sum).sum := by
  rw [← total_eq, List.map_map]
  congr 1
  refine List.map_congr_left fun n _ => ?_
  rw [parts_eq g n.made n.small n.heap xs ys 0 hl, zero_add]
  rfl

/-- the three kinds of sums to which `C132_arrays` applies -/
theorem C132_kinds : Site (R := R) nrm normSq ∧ Site (R := R) cdot inner ∧ Site (R := R) cdotr innerRe := ⟨site_nrm, site_cdot, site_cdotr⟩

/-- C132 fails for arrays of different lengths: the second array is read behind its end, nothing checks the lengths -/
theorem C132_lengths_refuted (F : R × R → R × R → V) (h : Kernel.Heap R) (f : Form) (N : Nat) : ∀ (xs ys : List Nat) (acc v : V), ys.length < xs.length →
    parts F 4 N h f xs ys acc ≠ ok v
  | [], ys, acc, v, hl => by simp at hl
  | x :: xs, [], acc, v, _ => by simp [parts]
  | x :: xs, y :: ys, acc, v, hl => by
      simp only [parts]
      intro hc
      obtain ⟨t, _, h2⟩ := bind_eq_ok.1 hc
      exact C132_lengths_refuted F h f N xs ys _ v (by simpa using hl) h2

/-- C132 fails for staggered fermions: on the whole lattice the routine reads behind the end of the fields -/
theorem C132_staggered_refuted (F : R × R → R × R → V) (h : Kernel.Heap R) (x y N : Nat) (hN : 0 < N) : part F 1 N h x y (.ordered 0 N) = ub := by
  simp only [part, ckInt, red]
  split
  · simp only [ok_bind]
    rw [if_neg (by omega)]
  · rfl

end model

/-- a case: one node with two sites, all numbers 2: the norm is 2 · 12 · 8, the inner product with itself is real -/
example : ∃ n : Node ℚ, n.col = [0, 0] ∧ total ([n].map fun n => part nrm 4 n.col.length n.heap 0 0 (Form.of n.sub)) = ok 192 ∧
    total ([n].map fun n => part cdot 4 n.col.length n.heap 0 0 (Form.of n.sub)) = ok (192, 0) := by
  obtain ⟨sub, hs, _⟩ := makeSub_eq [0, 0] 0
  refine ⟨⟨fun _ _ => 2, [0, 0], 0, sub, hs, by norm_num⟩, rfl, ?_, ?_⟩
  · rw [C132_norm2]
    have : sitesFrom 0 [0, 0] 0 = [0, 1] := by decide
    simp [overSites, this, normSq, spinor]
    norm_num
  · rw [C132_inner]
    have : sitesFrom 0 [0, 0] 0 = [0, 1] := by decide
    simp [overSites, this, inner, innerRe, innerIm, spinor]
    norm_num

end Verif.BagelReduce
