import Verif.Reunit
/-
C91: reunitarization.
-/
namespace Verif.Reunit
open Verif Outcome Verif.LatticeIO
open scoped ComplexConjugate
open Finset

/-! ## Loops -/

theorem forN_self {σ : Type} {lo : Nat} {f : Nat → σ → σ} {s : σ} : forN lo lo f s = s := by simp [forN]

theorem forN_succ {σ : Type} {lo hi : Nat} (h : lo ≤ hi) {f : Nat → σ → σ} {s : σ} :
    forN lo (hi + 1) f s = f hi (forN lo hi f s) := by
  unfold forN
  rw [Nat.succ_sub h, List.range'_1_concat, List.foldl_append]
  simp only [List.foldl_cons, List.foldl_nil]
  congr 1
  omega

theorem forO_self {σ : Type} {lo : Nat} {f : Nat → σ → Outcome σ} {s : σ} : forO lo lo f s = ok s := by simp [forO, foldO]

theorem foldO_snoc {σ α : Type} {f : σ → α → Outcome σ} : ∀ (l : List α) (x : α) (s : σ),
    foldO f s (l ++ [x]) = (foldO f s l >>= fun s => f s x)
  | [], x, s => by
    simp only [List.nil_append, foldO, ok_bind]
    cases f s x <;> rfl
  | a :: l, x, s => by
    rw [List.cons_append, foldO, foldO]
    cases h : f s a with
    | ok s' => rw [ok_bind, ok_bind, foldO_snoc l x s']
    | abort => rfl
    | ub => rfl

theorem forO_succ {σ : Type} {lo hi : Nat} (h : lo ≤ hi) {f : Nat → σ → Outcome σ} {s : σ} :
    forO lo (hi + 1) f s = (forO lo hi f s >>= fun s => f hi s) := by
  unfold forO
  rw [Nat.succ_sub h, List.range'_1_concat, foldO_snoc]
  congr 1
  funext s
  congr 1
  omega

theorem forN_add {M : Type} [AddCommMonoid M] {lo hi : Nat} (h : lo ≤ hi) (g : Nat → M) (s : M) :
    forN lo hi (fun c t => t + g c) s = s + ∑ c ∈ Ico lo hi, g c := by
  induction hi, h using Nat.le_induction with
  | base => simp [forN_self]
  | succ k h ih => rw [forN_succ h, ih, sum_Ico_succ_top h, add_assoc]

theorem forN_sub {lo hi : Nat} (h : lo ≤ hi) (g : Nat → ℂ) (s : ℂ) :
    forN lo hi (fun c t => t - g c) s = s - ∑ c ∈ Ico lo hi, g c := by
  induction hi, h using Nat.le_induction with
  | base => simp [forN_self]
  | succ k h ih => rw [forN_succ h, ih, sum_Ico_succ_top h]; ring

theorem forN_first {M : Type} [AddCommMonoid M] {n : Nat} (h : 1 ≤ n) (g : Nat → M) :
    forN 1 n (fun c t => t + g c) (g 0) = ∑ c ∈ range n, g c := by
  rw [forN_add h, range_eq_Ico]
  exact (sum_eq_sum_Ico_succ_bot (show 0 < n by omega) g).symm

/-- a loop over the rows that changes column `j` of each row -/
theorem forN_col (j : Nat) (f : Nat → (Nat → ℂ) → ℂ) (a : Arr) : ∀ n,
    forN 0 n (fun c a => upd a c j (f c (a c))) a = fun c k => if c < n ∧ k = j then f c (a c) else a c k
  | 0 => by funext c k; simp [forN_self]
  | n + 1 => by
    rw [forN_succ (Nat.zero_le n), forN_col j f a n]
    funext c k
    simp only [upd]
    by_cases hc : c = n
    · subst hc
      by_cases hk : k = j <;> simp [hk]
    · by_cases hk : k = j
      · by_cases h : c < n
        · simp [hc, hk, h, show c < n + 1 by omega]
        · simp [hc, hk, h, show ¬ c < n + 1 by omega]
      · simp [hc, hk]

/-! ## Columns -/

/-- the product of two columns -/
noncomputable def ip (n : Nat) (u v : Nat → ℂ) : ℂ := ∑ c ∈ range n, conj (u c) * v c

/-- column `j` -/
def col (a : Arr) (j : Nat) : Nat → ℂ := fun c => a c j

/-- the square of the length of a column -/
noncomputable def len2 (n : Nat) (u : Nat → ℂ) : ℝ := ∑ c ∈ range n, Complex.normSq (u c)

theorem nrm2_eq (z : ℂ) : nrm2 z = Complex.normSq z := (Complex.normSq_apply z).symm

theorem len2_nonneg {n : Nat} {u : Nat → ℂ} : 0 ≤ len2 n u := sum_nonneg fun _ _ => Complex.normSq_nonneg _

theorem ip_self (n : Nat) (u : Nat → ℂ) : ip n u u = (len2 n u : ℂ) := by
  simp only [ip, len2, Complex.ofReal_sum]
  exact sum_congr rfl fun c _ => (Complex.normSq_eq_conj_mul_self).symm

theorem ip_conj (n : Nat) (u v : Nat → ℂ) : conj (ip n u v) = ip n v u := by
  simp only [ip, map_sum, map_mul, Complex.conj_conj]
  exact sum_congr rfl fun c _ => mul_comm _ _

theorem ip_smul (n : Nat) (u v : Nat → ℂ) (t : ℂ) : ip n u (fun c => v c * t) = ip n u v * t := by
  simp only [ip, sum_mul]
  exact sum_congr rfl fun c _ => by ring

theorem ip_sub (n : Nat) (u v w : Nat → ℂ) : ip n u (fun c => v c - w c) = ip n u v - ip n u w := by
  simp only [ip, ← sum_sub_distrib]
  exact sum_congr rfl fun c _ => by ring

theorem ip_sum (n m : Nat) (u : Nat → ℂ) (r : Nat → ℂ) (a : Arr) :
    ip n u (fun c => ∑ i ∈ range m, r i * a c i) = ∑ i ∈ range m, r i * ip n u (col a i) := by
  simp only [ip, mul_sum]
  rw [sum_comm]
  exact sum_congr rfl fun i _ => sum_congr rfl fun c _ => by simp only [col]; ring

theorem ip_congr {n : Nat} {u u' v v' : Nat → ℂ} (h : ∀ c < n, u c = u' c) (h' : ∀ c < n, v c = v' c) :
    ip n u v = ip n u' v' :=
  sum_congr rfl fun c hc => by rw [h c (mem_range.1 hc), h' c (mem_range.1 hc)]

theorem colNorm_eq {n : Nat} (h : 1 ≤ n) (a : Arr) (j : Nat) : colNorm n a j = Real.sqrt (len2 n (col a j)) := by
  rw [colNorm, forN_first h (fun c => nrm2 (a c j))]
  simp only [nrm2_eq, len2, col]

theorem dot_eq {n : Nat} (h : 1 ≤ n) (a : Arr) (i j : Nat) : dot n a i j = ip n (col a i) (col a j) := by
  rw [dot, forN_first h (fun c => conj (a c i) * a c j)]
  rfl

theorem scale_eq (n j : Nat) (t : ℂ) (a : Arr) : scale n j t a = fun c k => if c < n ∧ k = j then a c j * t else a c k :=
  forN_col j (fun _ r => r j * t) a n

theorem orth_eq (n i j : Nat) (t : ℂ) (a : Arr) :
    orth n i j t a = fun c k => if c < n ∧ k = j then a c j - t * a c i else a c k :=
  forN_col j (fun _ r => r j - t * r i) a n

theorem divR_ok {x y z : ℝ} : divR x y = ok z ↔ y ≠ 0 ∧ z = x / y := by
  unfold divR
  split <;> simp_all [eq_comm]

/-! ## One column -/

/-- the columns below `m` are orthonormal -/
def ON (n m : Nat) (a : Arr) : Prop := ∀ i < m, ∀ k < m, ip n (col a i) (col a k) = if i = k then 1 else 0

theorem gsInner_loop {n j : Nat} (hn : 1 ≤ n) {s : GS} (h : ON n j s.a) : ∀ m ≤ j,
    forN 0 m (gsInner n j) s =
      { s with
        a := fun c k => if c < n ∧ k = j then s.a c j - ∑ i ∈ range m, ip n (col s.a i) (col s.a j) * s.a c i else s.a c k
        sigmasq := if j < n - 1 then s.sigmasq + ∑ i ∈ range m, Complex.normSq (ip n (col s.a i) (col s.a j)) else s.sigmasq }
  | 0, _ => by
    rw [forN_self]
    cases s with
    | mk a sg t =>
      simp only [range_zero, sum_empty, sub_zero, add_zero, ite_self, GS.mk.injEq, and_true]
      funext c k
      split
      · rename_i e; rw [e.2]
      · rfl
  | m + 1, hm => by
    rw [forN_succ (Nat.zero_le m), gsInner_loop hn h m (by omega)]
    have hcol : ∀ i, i < j → col (fun c k => if c < n ∧ k = j then s.a c j - ∑ i ∈ range m, ip n (col s.a i) (col s.a j) * s.a c i
        else s.a c k) i = col s.a i := by
      intro i hi
      funext c
      simp only [col]
      rw [if_neg (by omega)]
    have ht : ip n (col s.a m) (col (fun c k => if c < n ∧ k = j then s.a c j - ∑ i ∈ range m, ip n (col s.a i) (col s.a j) * s.a c i
        else s.a c k) j) = ip n (col s.a m) (col s.a j) := by
      have e : ip n (col s.a m) (col (fun c k => if c < n ∧ k = j then s.a c j - ∑ i ∈ range m, ip n (col s.a i) (col s.a j) * s.a c i
          else s.a c k) j) = ip n (col s.a m) (fun c => col s.a j c - ∑ i ∈ range m, ip n (col s.a i) (col s.a j) * s.a c i) := by
        refine ip_congr (fun _ _ => rfl) fun c hc => ?_
        simp [col, hc]
      rw [e, ip_sub, ip_sum, sum_eq_zero, sub_zero]
      intro i hi
      have hi' := mem_range.1 hi
      rw [h m (by omega) i (by omega), if_neg (by omega), mul_zero]
    simp only [gsInner, dot_eq hn, hcol m (by omega), ht, orth_eq, GS.mk.injEq, and_true]
    constructor
    · funext c k
      by_cases hc : c < n
      · by_cases hk : k = j
        · simp only [hc, hk, and_self, if_true, sum_range_succ, show m ≠ j by omega, and_false, if_false]
          ring
        · simp [hk]
      · simp [hc]
    · by_cases hj : j < n - 1
      · simp only [hj, if_true, sum_range_succ, nrm2_eq]
        ring
      · simp [hj]

/-- what one column of Gram-Schmidt does -/
theorem gsCol_ok {n j : Nat} (hn : 1 ≤ n) {s s' : GS} (h : ON n j s.a) (e : gsCol n j s = ok s') :
    0 < s'.t1 ∧ ON n (j + 1) s'.a ∧ (∀ c k, k ≠ j → s'.a c k = s.a c k) ∧
    (∀ c < n, s.a c j = ∑ i ∈ range j, ip n (col s.a i) (col s.a j) * s'.a c i + s'.t1 * s'.a c j) ∧
    s'.sigmasq = if j < n - 1 then s.sigmasq + ∑ i ∈ range j, Complex.normSq (ip n (col s.a i) (col s.a j)) + (1 - s'.t1) ^ 2
      else s.sigmasq := by
  simp only [gsCol, gsInner_loop hn h j le_rfl, bind_eq_ok, divR_ok, pure_def] at e
  obtain ⟨t3, ⟨h1, h2⟩, h3⟩ := e
  injection h3 with h3
  set w : Nat → ℂ := fun c => s.a c j - ∑ i ∈ range j, ip n (col s.a i) (col s.a j) * s.a c i with hw
  set a' : Arr := fun c k => if c < n ∧ k = j then s.a c j - ∑ i ∈ range j, ip n (col s.a i) (col s.a j) * s.a c i else s.a c k with ha'
  have hwc : ∀ c < n, col a' j c = w c := by intro c hc; simp [col, ha', hw, hc]
  have hlen : len2 n (col a' j) = len2 n w := sum_congr rfl fun c hc => by rw [hwc c (mem_range.1 hc)]
  rw [colNorm_eq hn, hlen] at h1 h2 h3
  have hpos : 0 < Real.sqrt (len2 n w) := lt_of_le_of_ne (Real.sqrt_nonneg _) (Ne.symm h1)
  set t := Real.sqrt (len2 n w) with ht
  have htt : t * t = len2 n w := Real.mul_self_sqrt len2_nonneg
  subst h3
  have hres : scale n j (t3 : ℂ) a' = fun c k => if c < n ∧ k = j then w c * (t3 : ℂ) else s.a c k := by
    rw [scale_eq]
    funext c k
    by_cases hc : c < n ∧ k = j
    · rw [if_pos hc, if_pos hc]
      simp [ha', hw, hc.1]
    · rw [if_neg hc, if_neg hc]
      simp only [ha']
      rw [if_neg hc]
  have hwi : ∀ i < j, ip n (col s.a i) w = 0 := by
    intro i hi
    have : ip n (col s.a i) w = ip n (col s.a i) (fun c => col s.a j c - ∑ i ∈ range j, ip n (col s.a i) (col s.a j) * s.a c i) := rfl
    rw [this, ip_sub, ip_sum]
    have : ∑ k ∈ range j, ip n (col s.a k) (col s.a j) * ip n (col s.a i) (col s.a k) = ip n (col s.a i) (col s.a j) := by
      rw [sum_eq_single i]
      · rw [h i hi i hi, if_pos rfl, mul_one]
      · intro k hk hki
        rw [h i hi k (mem_range.1 hk), if_neg (Ne.symm hki), mul_zero]
      · intro hni; exact absurd (mem_range.2 hi) hni
    rw [this, sub_self]
  dsimp only
  rw [hres]
  have hci : ∀ i < j, ∀ c, col (fun c k => if c < n ∧ k = j then w c * (t3 : ℂ) else s.a c k) i c = col s.a i c := by
    intro i hi c
    simp only [col]
    rw [if_neg (by omega)]
  have hcj : ∀ c < n, col (fun c k => if c < n ∧ k = j then w c * (t3 : ℂ) else s.a c k) j c = w c * t3 := by
    intro c hc
    simp [col, hc]
  refine ⟨hpos, ?_, ?_, ?_, ?_⟩
  · intro i hi k hk
    rcases Nat.lt_succ_iff_lt_or_eq.1 hi with hi | rfl
    · rcases Nat.lt_succ_iff_lt_or_eq.1 hk with hk | rfl
      · rw [ip_congr (fun c _ => hci i hi c) (fun c _ => hci k hk c)]
        exact h i hi k hk
      · rw [ip_congr (fun c _ => hci i hi c) hcj, ip_smul, hwi i hi, zero_mul, if_neg (by omega)]
    · rcases Nat.lt_succ_iff_lt_or_eq.1 hk with hk | rfl
      · rw [← ip_conj, ip_congr (fun c _ => hci k hk c) hcj, ip_smul, hwi k hk, zero_mul, map_zero, if_neg (by omega)]
      · rw [ip_congr hcj hcj, ip_smul, ← ip_conj, ip_smul, ip_self, if_pos rfl]
        simp only [map_mul, Complex.conj_ofReal]
        rw [h2, ← htt, ← Complex.ofReal_mul, ← Complex.ofReal_mul, ← Complex.ofReal_one]
        congr 1
        field_simp
  · intro c k hk
    dsimp only
    rw [if_neg (by omega)]
  · intro c hc
    dsimp only
    have : ∑ i ∈ range j, ip n (col s.a i) (col s.a j) * (if c < n ∧ i = j then w c * (t3 : ℂ) else s.a c i) =
        ∑ i ∈ range j, ip n (col s.a i) (col s.a j) * s.a c i :=
      sum_congr rfl fun i hi => by
        have := mem_range.1 hi
        rw [if_neg (by omega)]
    rw [this, if_pos ⟨hc, rfl⟩]
    have e1 : (t : ℂ) * (w c * (t3 : ℂ)) = w c := by
      rw [h2]
      push_cast
      have : (t : ℂ) ≠ 0 := by exact_mod_cast h1
      field_simp
    rw [e1, hw]
    ring
  · by_cases hj : j < n - 1
    · simp [hj]
    · simp [hj]

/-! ## All columns -/

theorem len2_comb {n m : Nat} {a : Arr} (h : ON n m a) (r : Nat → ℂ) :
    len2 n (fun c => ∑ i ∈ range m, r i * a c i) = ∑ i ∈ range m, Complex.normSq (r i) := by
  have e : ip n (fun c => ∑ i ∈ range m, r i * a c i) (fun c => ∑ i ∈ range m, r i * a c i) =
      ∑ i ∈ range m, (Complex.normSq (r i) : ℂ) := by
    rw [ip_sum]
    refine sum_congr rfl fun i hi => ?_
    have hi' := mem_range.1 hi
    rw [← ip_conj, ip_sum, sum_eq_single i]
    · rw [h i hi' i hi', if_pos rfl, mul_one, Complex.mul_conj]
    · intro k hk hki
      rw [h i hi' k (mem_range.1 hk), if_neg (Ne.symm hki), mul_zero]
    · intro hni; exact absurd hi hni
  rw [ip_self] at e
  exact_mod_cast e

/-- after the columns below `m` -/
structure Inv (n m : Nat) (A : Arr) (s : GS) : Prop where
  on : ON n m s.a
  rest : ∀ k, m ≤ k → ∀ c, s.a c k = A c k
  qr : ∃ R : Nat → Nat → ℂ, (∀ i k, k < i → R i k = 0) ∧ (∀ k < m, 0 < (R k k).re ∧ (R k k).im = 0) ∧
    (∀ k < m, ∀ c < n, A c k = ∑ i ∈ range n, s.a c i * R i k) ∧ ∀ k, k + 1 = m → R k k = s.t1
  sig : s.sigmasq = ∑ k ∈ range (min m (n - 1)), ∑ c ∈ range n, Complex.normSq (A c k - s.a c k)
  pos : 0 < s.t1

theorem Inv.step {n m : Nat} (hm : m < n) {A : Arr} {s s' : GS} (h : Inv n m A s) (e : gsCol n m s = ok s') :
    Inv n (m + 1) A s' := by
  obtain ⟨h1, h2, h3, h4, h5⟩ := gsCol_ok (by omega) h.on e
  obtain ⟨R, r1, r2, r3, -⟩ := h.qr
  refine ⟨h2, ?_, ?_, ?_, h1⟩
  · intro k hk c
    rw [h3 c k (by omega), h.rest k (by omega)]
  · refine ⟨fun i k => if k = m then (if i < m then ip n (col s.a i) (col s.a m) else if i = m then (s'.t1 : ℂ) else 0) else R i k,
      ?_, ?_, ?_, fun k hk => by obtain rfl : k = m := by omega
                                 simp⟩
    · intro i k hk
      by_cases hkm : k = m
      · simp [hkm, show ¬ i < m by omega, show i ≠ m by omega]
      · simp [hkm, r1 i k hk]
    · intro k hk
      by_cases hkm : k = m
      · simp [hkm, h1]
      · simp only [hkm, if_false]
        exact r2 k (by omega)
    · intro k hk c hc
      by_cases hkm : k = m
      · subst hkm
        rw [← h.rest k le_rfl, h4 c hc, ← sum_range_add_sum_Ico _ (show k + 1 ≤ n by omega), sum_range_succ]
        have z : ∑ i ∈ Ico (k + 1) n, s'.a c i * (if k = k then (if i < k then ip n (col s.a i) (col s.a k) else if i = k then (s'.t1 : ℂ) else 0) else R i k) = 0 := by
          refine sum_eq_zero fun i hi => ?_
          have := (mem_Ico.1 hi).1
          simp [show ¬ i < k by omega, show i ≠ k by omega]
        rw [z, add_zero]
        simp only [if_true, lt_irrefl, if_false]
        congr 1
        · refine sum_congr rfl fun i hi => ?_
          rw [if_pos (mem_range.1 hi), mul_comm]
        · rw [mul_comm]
      · simp only [hkm, if_false]
        rw [r3 k (by omega) c hc]
        refine sum_congr rfl fun i _ => ?_
        by_cases him : i = m
        · rw [him, r1 m k (by omega), mul_zero, mul_zero]
        · rw [h3 c i him]
  · have hold : ∀ k ∈ range m, ∑ c ∈ range n, Complex.normSq (A c k - s'.a c k) = ∑ c ∈ range n, Complex.normSq (A c k - s.a c k) :=
      fun k hk => sum_congr rfl fun c _ => by
        have := mem_range.1 hk
        rw [h3 c k (by omega)]
    by_cases hj : m < n - 1
    · rw [h5, if_pos hj, h.sig, Nat.min_eq_left (by omega), Nat.min_eq_left (by omega), sum_range_succ, sum_congr rfl hold]
      have : ∑ c ∈ range n, Complex.normSq (A c m - s'.a c m) =
          len2 n (fun c => ∑ i ∈ range (m + 1), (if i < m then ip n (col s.a i) (col s.a m) else (s'.t1 - 1 : ℂ)) * s'.a c i) := by
        refine sum_congr rfl fun c hc => ?_
        congr 1
        dsimp only
        rw [← h.rest m le_rfl, h4 c (mem_range.1 hc), sum_range_succ]
        simp only [lt_irrefl, if_false]
        have z : ∑ i ∈ range m, (if i < m then ip n (col s.a i) (col s.a m) else (s'.t1 - 1 : ℂ)) * s'.a c i =
            ∑ i ∈ range m, ip n (col s.a i) (col s.a m) * s'.a c i :=
          sum_congr rfl fun i hi => by rw [if_pos (mem_range.1 hi)]
        rw [z]
        ring
      rw [this, len2_comb h2, sum_range_succ, add_assoc]
      congr 2
      · refine sum_congr rfl fun i hi => ?_
        rw [if_pos (mem_range.1 hi)]
      · simp only [lt_irrefl, if_false]
        rw [← Complex.ofReal_one, ← Complex.ofReal_sub, Complex.normSq_ofReal]
        ring
    · rw [h5, if_neg hj, h.sig, Nat.min_eq_right (by omega), Nat.min_eq_right (by omega)]
      exact sum_congr rfl fun k hk => (hold k (mem_range.2 (by have := mem_range.1 hk; omega))).symm

/-- the first `m` columns, as in examples/reunit.cc:118-128, 187-221, 283-348 -/
noncomputable def gsPart (n m : Nat) (a : Arr) : Outcome GS := do
  let t3 ← divR 1 (colNorm n a 0)
  forO 1 m (gsCol n) ⟨scale n 0 t3 a, (1 - colNorm n a 0) ^ 2, colNorm n a 0⟩

theorem gramSchmidt_eq (n : Nat) (a : Arr) : gramSchmidt n a = gsPart n n a := rfl

/-- the first column is a column with no earlier ones -/
theorem first_eq {n : Nat} (h2 : 1 < n) (a : Arr) (x : ℝ) :
    gsCol n 0 ⟨a, 0, x⟩ = (do let t3 ← divR 1 (colNorm n a 0); return ⟨scale n 0 t3 a, (1 - colNorm n a 0) ^ 2, colNorm n a 0⟩) := by
  simp only [gsCol, forN_self]
  congr 1
  funext t3
  simp [show 0 < n - 1 by omega]

theorem gsPart_eq {n m : Nat} (h2 : 1 < n) (hm : 1 ≤ m) (a : Arr) (x : ℝ) : gsPart n m a = forO 0 m (gsCol n) ⟨a, 0, x⟩ := by
  induction m, hm using Nat.le_induction with
  | base =>
    rw [gsPart, forO_succ le_rfl, forO_self, ok_bind, first_eq h2]
    simp only [forO_self, pure_def]
  | succ k hk ih =>
    rw [forO_succ (Nat.zero_le k), ← ih, gsPart, gsPart]
    cases divR 1 (colNorm n a 0) with
    | ok t => rw [ok_bind, ok_bind, forO_succ hk]
    | abort => rfl
    | ub => rfl

theorem gs_inv {n : Nat} (A : Arr) (x : ℝ) : ∀ m ≤ n, ∀ s, forO 0 m (gsCol n) ⟨A, 0, x⟩ = ok s → 0 < m → Inv n m A s
  | 0, _, _, _, h => absurd h (lt_irrefl 0)
  | m + 1, hm, s, e, _ => by
    rw [forO_succ (Nat.zero_le m), bind_eq_ok] at e
    obtain ⟨s1, e1, e2⟩ := e
    rcases Nat.eq_zero_or_pos m with rfl | h
    · rw [forO_self] at e1
      injection e1 with e1
      subst e1
      -- the first column: no positivity of t1 is needed before
      have base : Inv n 0 A ⟨A, 0, 1⟩ := ⟨fun i hi => absurd hi (Nat.not_lt_zero i), fun _ _ _ => rfl,
        ⟨fun _ _ => 0, fun _ _ _ => rfl, fun k hk => absurd hk (Nat.not_lt_zero k), fun k hk => absurd hk (Nat.not_lt_zero k),
          fun k hk => absurd hk (Nat.succ_ne_zero k)⟩,
        by simp, one_pos⟩
      refine base.step hm ?_
      rw [← e2]
      simp only [gsCol, forN_self]
    · exact (gs_inv A x m (by omega) s1 e1 h).step hm e2

theorem gsPart_inv {n m : Nat} (h2 : 1 < n) (hm : 1 ≤ m) (hmn : m ≤ n) {A : Arr} {s : GS} (e : gsPart n m A = ok s) : Inv n m A s := by
  rw [gsPart_eq h2 hm A 1] at e
  exact gs_inv A 1 m hmn s e hm

/-! ## Independent columns -/

/-- the columns of the matrix as vectors -/
def vec (n : Nat) (a : Arr) (j : Nat) : Fin n → ℂ := fun i => a i j

theorem Inv.span {n m : Nat} (hmn : m ≤ n) {A : Arr} {s : GS} (h : Inv n m A s) :
    ∀ k, k < m → vec n s.a k ∈ Submodule.span ℂ (vec n A '' {j | j < m}) := by
  obtain ⟨R, r1, r2, r3, -⟩ := h.qr
  intro k
  induction k using Nat.strong_induction_on with
  | _ k ih =>
    intro hk
    have hR : R k k ≠ 0 := by
      intro z
      have := (r2 k hk).1
      rw [z] at this
      simp at this
    have e : vec n s.a k = (R k k)⁻¹ • (vec n A k - ∑ i ∈ range k, R i k • vec n s.a i) := by
      funext c
      have hc := r3 k hk c c.2
      rw [← sum_range_add_sum_Ico _ (show k + 1 ≤ n by omega), sum_range_succ] at hc
      have z : ∑ i ∈ Ico (k + 1) n, s.a c i * R i k = 0 :=
        sum_eq_zero fun i hi => by rw [r1 i k (by have := (mem_Ico.1 hi).1; omega), mul_zero]
      rw [z, add_zero] at hc
      simp only [vec, Pi.smul_apply, Pi.sub_apply, smul_eq_mul, Finset.sum_apply, hc]
      have z2 : ∑ i ∈ range k, R i k * s.a c i = ∑ i ∈ range k, s.a c i * R i k := sum_congr rfl fun _ _ => mul_comm _ _
      rw [z2]
      field_simp
      ring
    rw [e]
    refine Submodule.smul_mem _ _ (Submodule.sub_mem _ (Submodule.subset_span ⟨k, hk, rfl⟩) (Submodule.sum_mem _ fun i hi => ?_))
    have hi' := mem_range.1 hi
    exact Submodule.smul_mem _ _ (ih i hi' (by omega))

theorem len2_eq_zero {n : Nat} {u : Nat → ℂ} (h : len2 n u = 0) : ∀ c < n, u c = 0 := by
  intro c hc
  have := (sum_eq_zero_iff_of_nonneg fun _ _ => Complex.normSq_nonneg _).1 h c (mem_range.2 hc)
  exact Complex.normSq_eq_zero.1 this

theorem gsCol_defined {n m : Nat} (hm : m < n) {A : Arr} {s : GS} (hon : ON n m s.a) (hrest : ∀ c, s.a c m = A c m)
    (hsp : ∀ k, k < m → vec n s.a k ∈ Submodule.span ℂ (vec n A '' {j | j < m}))
    (hA : vec n A m ∉ Submodule.span ℂ (vec n A '' {j | j < m})) : ∃ s', gsCol n m s = ok s' := by
  have hn : 1 ≤ n := by omega
  simp only [gsCol, gsInner_loop hn hon m le_rfl]
  unfold divR
  split
  · rename_i h0
    exfalso
    rw [colNorm_eq hn, Real.sqrt_eq_zero len2_nonneg] at h0
    have hz := len2_eq_zero h0
    apply hA
    have e : vec n A m = ∑ i ∈ range m, ip n (col s.a i) (col s.a m) • vec n s.a i := by
      funext c
      have := hz c c.2
      simp only [col, c.2, and_self, if_true, sub_eq_zero] at this
      simp only [vec, Finset.sum_apply, Pi.smul_apply, smul_eq_mul]
      rw [← hrest]
      exact this
    rw [e]
    exact Submodule.sum_mem _ fun i hi => Submodule.smul_mem _ _ (hsp i (mem_range.1 hi))
  · exact ⟨_, rfl⟩

theorem Indep.notMem {n m : Nat} {A : Arr} (h : Indep n m (mat n A)) {k : Nat} (hk : k < m) (hkn : k < n) :
    vec n A k ∉ Submodule.span ℂ (vec n A '' {j | j < k}) := by
  have h1 := h.notMem_span_image (s := {j | j.1.val < k}) (x := ⟨⟨k, hkn⟩, hk⟩) (by simp)
  intro h2
  apply h1
  refine Submodule.span_mono ?_ h2
  rintro _ ⟨j, hj, rfl⟩
  have hj' : j < k := hj
  exact ⟨⟨⟨j, by omega⟩, by dsimp only; omega⟩, hj, rfl⟩

theorem gs_defined {n m : Nat} {A : Arr} (h : Indep n m (mat n A)) (x : ℝ) : ∀ k, k ≤ m → k ≤ n →
    ∃ s, forO 0 k (gsCol n) ⟨A, 0, x⟩ = ok s
  | 0, _, _ => ⟨_, forO_self⟩
  | k + 1, hk, hkn => by
    obtain ⟨s, hs⟩ := gs_defined h x k (by omega) (by omega)
    have hA := h.notMem (show k < m by omega) (by omega)
    rw [forO_succ (Nat.zero_le k), hs, ok_bind]
    rcases Nat.eq_zero_or_pos k with rfl | hk0
    · rw [forO_self] at hs
      injection hs with hs
      subst hs
      exact gsCol_defined hkn (fun i hi => absurd hi (Nat.not_lt_zero i)) (fun _ => rfl) (fun i hi => absurd hi (Nat.not_lt_zero i)) hA
    · have inv := gs_inv A x k (by omega) s hs hk0
      exact gsCol_defined hkn inv.on (inv.rest k le_rfl) (inv.span (by omega)) hA

theorem gsPart_defined {n m : Nat} (h2 : 1 < n) (hm : 1 ≤ m) (hmn : m ≤ n) {A : Arr} (h : Indep n m (mat n A)) :
    ∃ s, gsPart n m A = ok s := by
  rw [gsPart_eq h2 hm A 1]
  exact gs_defined h 1 m le_rfl hmn

theorem indep_of_det {n m : Nat} {A : Matrix (Fin n) (Fin n) ℂ} (h : A.det ≠ 0) : Indep n m A := by
  have hu : IsUnit A := (Matrix.isUnit_iff_isUnit_det A).2 (isUnit_iff_ne_zero.2 h)
  have hl := Matrix.linearIndependent_cols_of_isUnit hu
  exact hl.comp (fun j : {j : Fin n // j.val < m} => j.1) Subtype.val_injective

/-! ## Matrices -/

theorem ip_mat {n : Nat} (a : Arr) (i j : Fin n) : (star (mat n a) * mat n a) i j = ip n (col a i) (col a j) := by
  rw [Matrix.mul_apply, ip, sum_range]
  rfl

theorem ON_iff {n : Nat} {a : Arr} : ON n n a ↔ mat n a ∈ Matrix.unitaryGroup (Fin n) ℂ := by
  rw [Matrix.mem_unitaryGroup_iff']
  constructor
  · intro h
    ext i j
    rw [ip_mat, h i i.2 j j.2, Matrix.one_apply]
    simp [Fin.ext_iff]
  · intro h i hi k hk
    have := congrFun (congrFun h ⟨i, hi⟩) ⟨k, hk⟩
    rw [ip_mat, Matrix.one_apply] at this
    simpa [Fin.ext_iff] using this

theorem Inv.orthonormalized {n m : Nat} (hmn : m ≤ n) {A : Arr} {s : GS} (h : Inv n m A s) {q : Arr}
    (hq : ∀ c k, c < n → k < m → q c k = s.a c k) : Orthonormalized n m (mat n A) (mat n q) := by
  obtain ⟨R, r1, r2, r3, -⟩ := h.qr
  refine ⟨Matrix.of fun i j => R i j, fun i j hij => r1 i j hij, fun j hj => r2 j hj, fun i j hj => ?_⟩
  refine Eq.trans ?_ (Matrix.mul_apply ..).symm
  have := r3 j hj i i.2
  rw [sum_range] at this
  refine this.trans (sum_congr rfl fun k _ => ?_)
  rw [Matrix.of_apply]
  by_cases hk : k.val < m
  · simp only [mat]; rw [hq i k i.2 hk]
  · rw [r1 k j (by omega), mul_zero, mul_zero]

theorem dist2_eq {n : Nat} (A B : Arr) : dist2 (mat n A) (mat n B) = ∑ k ∈ range n, ∑ c ∈ range n, Complex.normSq (A c k - B c k) := by
  rw [dist2, sum_comm, sum_range]
  refine sum_congr rfl fun k _ => ?_
  rw [sum_range]
  refine sum_congr rfl fun c _ => ?_
  rw [Complex.normSq_eq_norm_sq]
  rfl

theorem Inv.dev {n m : Nat} (hn : 1 ≤ n) (hm : n - 1 ≤ m) {A : Arr} {s : GS} (h : Inv n m A s) {q : Arr}
    (hq : ∀ c k, c < n → k < n - 1 → q c k = s.a c k) :
    Reunit.dev n (fun c => A c (n - 1)) q s.sigmasq = Real.sqrt (dist2 (mat n A) (mat n q)) := by
  rw [Reunit.dev, forN_add (Nat.zero_le n) (fun c => nrm2 (A c (n - 1) - q c (n - 1))), dist2_eq]
  congr 1
  obtain ⟨l, rfl⟩ : ∃ l, n = l + 1 := ⟨n - 1, by omega⟩
  rw [sum_range_succ, h.sig, Nat.min_eq_right hm, ← range_eq_Ico]
  simp only [Nat.add_sub_cancel, nrm2_eq]
  congr 1
  refine sum_congr rfl fun k hk => sum_congr rfl fun c hc => ?_
  rw [hq c k (mem_range.1 hc) (by have := mem_range.1 hk; omega)]

end Verif.Reunit
