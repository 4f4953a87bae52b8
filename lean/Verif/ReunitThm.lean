import Verif.ReunitProps
import Mathlib.Tactic.IntervalCases
import Mathlib.Tactic.LinearCombination
/-
C91: reunitarization, the theorems.
-/
namespace Verif.Reunit
open Verif Outcome Verif.LatticeIO
open scoped ComplexConjugate
open Finset

/-! ## U(1), SU(2), SU(3) -/

/-- what the function is to do with the matrix A: Q is special unitary (unitary for one colour), its columns are those of A
orthonormalized from left to right, the last one being fixed by the determinant -/
def Reunitarized (n : Nat) (A Q : Matrix (Fin n) (Fin n) ℂ) : Prop :=
  Q ∈ Matrix.unitaryGroup (Fin n) ℂ ∧ (1 < n → Q.det = 1) ∧ Orthonormalized n (max 1 (n - 1)) A Q

theorem case2_eq (a : Arr) : case2 a = (do
    let s ← gsPart 2 1 a
    let q := upd (upd s.a 1 1 (conj (s.a 0 0))) 0 1 (-conj (s.a 1 0))
    return (q, dev 2 (fun c => a c 1) q s.sigmasq)) := by
  simp only [case2, gsPart, forO_self]
  cases divR 1 (colNorm 2 a 0) <;> simp [upd]

theorem upd_ne (a : Arr) (i : Nat) (v : ℂ) {k l j : Nat} (h : l ≠ j) : upd a i j v k l = a k l := by simp [upd, h]

theorem case3_eq (a : Arr) : case3 a = (do
    let s ← gsPart 3 2 a
    let u := fun c => conj (s.a c 0)
    let v := fun c => conj (s.a c 1)
    let q : Arr := fun c k => if k = 2 ∧ c < 3 then (if c = 0 then u 1 * v 2 - u 2 * v 1 else if c = 1 then u 2 * v 0 - u 0 * v 2
      else u 0 * v 1 - u 1 * v 0) else s.a c k
    return (q, dev 3 (fun c => a c 2) q s.sigmasq)) := by
  simp only [case3, gsPart]
  cases divR 1 (colNorm 3 a 0) with
  | abort => rfl
  | ub => rfl
  | ok t =>
    simp only [ok_bind]
    rw [forO_succ le_rfl, forO_self, ok_bind, gsCol]
    rw [forN_succ (Nat.zero_le 0), forN_self]
    simp only [gsInner, show (1:Nat) < 3 - 1 by omega, if_true]
    cases divR 1 (colNorm 3 (orth 3 0 1 (dot 3 (scale 3 0 (↑t) a) 0 1) (scale 3 0 (↑t) a)) 1) with
    | abort => rfl
    | ub => rfl
    | ok t4 =>
      simp only [ok_bind, pure_def]
      generalize scale 3 1 (t4 : ℂ) (orth 3 0 1 (dot 3 (scale 3 0 (↑t) a) 0 1) (scale 3 0 (↑t) a)) = b
      have : upd (upd (upd b 0 2 (conj (b 1 0) * conj (b 2 1) - conj (b 2 0) * conj (b 1 1))) 1 2
            (conj (b 2 0) * conj (b 0 1) - conj (b 0 0) * conj (b 2 1))) 2 2 (conj (b 0 0) * conj (b 1 1) - conj (b 1 0) * conj (b 0 1)) =
          fun c k => if k = 2 ∧ c < 3 then (if c = 0 then conj (b 1 0) * conj (b 2 1) - conj (b 2 0) * conj (b 1 1) else if c = 1 then
            conj (b 2 0) * conj (b 0 1) - conj (b 0 0) * conj (b 2 1) else conj (b 0 0) * conj (b 1 1) - conj (b 1 0) * conj (b 0 1)) else b c k := by
        funext c k
        simp only [upd]
        by_cases hk : k = 2
        · rcases Nat.lt_or_ge c 3 with hc | hc
          · interval_cases c <;> simp [hk]
          · simp [hk, show c ≠ 0 by omega, show c ≠ 1 by omega, show c ≠ 2 by omega, show ¬ c < 3 by omega]
        · simp [hk]
      simp only [upd_ne _ _ _ (show 0 ≠ 2 by decide), upd_ne _ _ _ (show 1 ≠ 2 by decide), this]

theorem su2 {b q : Arr} (h : ON 2 1 b) (h0 : ∀ c, q c 0 = b c 0) (h1 : q 1 1 = conj (b 0 0)) (h2 : q 0 1 = -conj (b 1 0)) :
    mat 2 q ∈ Matrix.unitaryGroup (Fin 2) ℂ ∧ (mat 2 q).det = 1 := by
  have e := h 0 (by omega) 0 (by omega)
  simp only [ip, col, sum_range_succ, range_zero, sum_empty, zero_add, if_true] at e
  constructor
  · rw [← ON_iff]
    intro i hi k hk
    interval_cases i <;> interval_cases k <;>
      simp only [ip, col, sum_range_succ, range_zero, sum_empty, zero_add, h0, h1, h2, map_neg, Complex.conj_conj] <;> norm_num <;>
      first | linear_combination e | ring
  · rw [Matrix.det_fin_two]
    simp only [mat, Fin.val_zero, Fin.val_one, h0, h1, h2]
    linear_combination e

theorem su3 {b q : Arr} (h : ON 3 2 b) (h0 : ∀ c, q c 0 = b c 0) (h1 : ∀ c, q c 1 = b c 1)
    (h2 : q 0 2 = conj (b 1 0) * conj (b 2 1) - conj (b 2 0) * conj (b 1 1))
    (h3 : q 1 2 = conj (b 2 0) * conj (b 0 1) - conj (b 0 0) * conj (b 2 1))
    (h4 : q 2 2 = conj (b 0 0) * conj (b 1 1) - conj (b 1 0) * conj (b 0 1)) :
    mat 3 q ∈ Matrix.unitaryGroup (Fin 3) ℂ ∧ (mat 3 q).det = 1 := by
  have e00 := h 0 (by omega) 0 (by omega)
  have e01 := h 0 (by omega) 1 (by omega)
  have e10 := h 1 (by omega) 0 (by omega)
  have e11 := h 1 (by omega) 1 (by omega)
  simp only [ip, col, sum_range_succ, range_zero, sum_empty, zero_add, if_true] at e00 e01 e10 e11
  norm_num at e01 e10
  have key : (b 1 0 * b 2 1 - b 2 0 * b 1 1) * (conj (b 1 0) * conj (b 2 1) - conj (b 2 0) * conj (b 1 1)) +
      (b 2 0 * b 0 1 - b 0 0 * b 2 1) * (conj (b 2 0) * conj (b 0 1) - conj (b 0 0) * conj (b 2 1)) +
      (b 0 0 * b 1 1 - b 1 0 * b 0 1) * (conj (b 0 0) * conj (b 1 1) - conj (b 1 0) * conj (b 0 1)) = 1 := by
    linear_combination (conj (b 0 1) * b 0 1 + conj (b 1 1) * b 1 1 + conj (b 2 1) * b 2 1) * e00 + e11 -
      (conj (b 0 1) * b 0 0 + conj (b 1 1) * b 1 0 + conj (b 2 1) * b 2 0) * e01
  constructor
  · rw [← ON_iff]
    intro i hi k hk
    interval_cases i <;> interval_cases k <;>
      simp only [ip, col, sum_range_succ, range_zero, sum_empty, zero_add, h0, h1, h2, h3, h4, map_sub, map_mul, Complex.conj_conj] <;>
      norm_num <;> first | linear_combination e00 | linear_combination e01 | linear_combination e10 | linear_combination e11 |
        linear_combination key | ring
  · rw [Matrix.det_fin_three]
    simp only [mat, Fin.val_zero, Fin.val_one, Fin.val_two, h0, h1, h2, h3, h4]
    linear_combination key

theorem case2_ok {a q : Arr} {sg : ℝ} (e : case2 a = ok (q, sg)) :
    Reunitarized 2 (mat 2 a) (mat 2 q) ∧ sg = Real.sqrt (dist2 (mat 2 a) (mat 2 q)) := by
  rw [case2_eq, bind_eq_ok] at e
  obtain ⟨s, e1, e2⟩ := e
  have inv := gsPart_inv (by omega) le_rfl (by omega) e1
  simp only [pure_def] at e2
  injection e2 with e2
  obtain ⟨rfl, rfl⟩ := Prod.mk.inj e2
  have hq : ∀ c k, c < 2 → k < 1 → upd (upd s.a 1 1 (conj (s.a 0 0))) 0 1 (-conj (s.a 1 0)) c k = s.a c k := by
    intro c k _ hk
    rw [upd_ne _ _ _ (by omega), upd_ne _ _ _ (by omega)]
  obtain ⟨h1, h2⟩ := su2 (b := s.a) (q := upd (upd s.a 1 1 (conj (s.a 0 0))) 0 1 (-conj (s.a 1 0))) inv.on
    (fun c => by simp [upd]) (by simp [upd]) (by simp [upd])
  exact ⟨⟨h1, fun _ => h2, inv.orthonormalized (by omega) hq⟩, inv.dev (by omega) (by omega) hq⟩

theorem case3_ok {a q : Arr} {sg : ℝ} (e : case3 a = ok (q, sg)) :
    Reunitarized 3 (mat 3 a) (mat 3 q) ∧ sg = Real.sqrt (dist2 (mat 3 a) (mat 3 q)) := by
  rw [case3_eq, bind_eq_ok] at e
  obtain ⟨s, e1, e2⟩ := e
  have inv := gsPart_inv (by omega) (by omega) (by omega) e1
  simp only [pure_def] at e2
  injection e2 with e2
  obtain ⟨rfl, rfl⟩ := Prod.mk.inj e2
  generalize hQ : (fun c k => if k = 2 ∧ c < 3 then (if c = 0 then conj (s.a 1 0) * conj (s.a 2 1) - conj (s.a 2 0) * conj (s.a 1 1)
      else if c = 1 then conj (s.a 2 0) * conj (s.a 0 1) - conj (s.a 0 0) * conj (s.a 2 1)
      else conj (s.a 0 0) * conj (s.a 1 1) - conj (s.a 1 0) * conj (s.a 0 1)) else s.a c k : Arr) = Q
  have hq : ∀ c k, c < 3 → k < 2 → Q c k = s.a c k := by
    intro c k _ hk
    rw [← hQ]
    simp only
    rw [if_neg (by omega)]
  obtain ⟨h1, h2⟩ := su3 (b := s.a) (q := Q) inv.on (fun c => by simp [← hQ]) (fun c => by simp [← hQ]) (by simp [← hQ])
    (by simp [← hQ]) (by simp [← hQ])
  exact ⟨⟨h1, fun _ => h2, inv.orthonormalized (by omega) hq⟩, inv.dev (by omega) (by omega) hq⟩

theorem mat_one (a : Arr) (i j : Fin 1) : mat 1 a i j = a 0 0 := by
  obtain rfl : i = 0 := Subsingleton.elim _ _
  obtain rfl : j = 0 := Subsingleton.elim _ _
  rfl

theorem case1_ok {a q : Arr} {sg : ℝ} (e : case1 a = ok (q, sg)) :
    Reunitarized 1 (mat 1 a) (mat 1 q) ∧ sg = Real.sqrt (dist2 (mat 1 a) (mat 1 q)) := by
  simp only [case1, bind_eq_ok, divR_ok, pure_def] at e
  obtain ⟨re, ⟨h0, rfl⟩, im, ⟨-, rfl⟩, e⟩ := e
  injection e with e
  obtain ⟨rfl, rfl⟩ := Prod.mk.inj e
  set t := Real.sqrt (nrm2 (a 0 0)) with ht
  have hpos : 0 < t := lt_of_le_of_ne (Real.sqrt_nonneg _) (Ne.symm h0)
  have hn : ‖a 0 0‖ = t := by rw [ht, nrm2_eq, ← Complex.norm_def]
  have hu : (⟨(a 0 0).re / t, (a 0 0).im / t⟩ : ℂ) = a 0 0 / t := by
    apply Complex.ext
    · rw [Complex.div_ofReal_re]
    · rw [Complex.div_ofReal_im]
  have htc : (t : ℂ) ≠ 0 := by exact_mod_cast h0
  have hq : (upd a 0 0 ⟨(a 0 0).re / t, (a 0 0).im / t⟩) 0 0 = a 0 0 / t := by simp [upd, hu]
  refine ⟨⟨?_, fun h => absurd h (lt_irrefl 1), ?_⟩, ?_⟩
  · rw [← ON_iff]
    intro i hi k hk
    interval_cases i
    interval_cases k
    simp only [ip, col, sum_range_one, if_true]
    rw [hq, ← Complex.normSq_eq_conj_mul_self, Complex.normSq_eq_norm_sq, norm_div, hn, Complex.norm_real, Real.norm_of_nonneg hpos.le,
      div_self h0]
    norm_num
  · refine ⟨Matrix.of fun _ _ => (t : ℂ), fun i j h => ?_, fun j _ => ⟨by simpa using hpos, by simp⟩, fun i j _ => ?_⟩
    · omega
    · rw [mat_one, Matrix.mul_apply, Fin.sum_univ_one, mat_one, hq, Matrix.of_apply]
      field_simp
  · have e1 : dist2 (mat 1 a) (mat 1 (upd a 0 0 ⟨(a 0 0).re / t, (a 0 0).im / t⟩)) = (1 - t) ^ 2 := by
      rw [dist2_eq]
      simp only [sum_range_one]
      rw [hq]
      have : a 0 0 - a 0 0 / t = (a 0 0 / t) * ((t - 1 : ℝ) : ℂ) := by
        push_cast
        field_simp
      rw [this, Complex.normSq_eq_norm_sq, norm_mul, norm_div, hn, Complex.norm_real, Complex.norm_real, Real.norm_of_nonneg hpos.le,
        div_self h0, one_mul, Real.norm_eq_abs, sq_abs]
      ring
    rw [e1, Real.sqrt_sq_eq_abs]

/-- C91. With one, two or three colours and independent columns, the function succeeds; the result is special unitary
(unitary for one colour), and `sigmasq` is the distance of the matrix from the result. -/
theorem C91_special_unitary_partial (n : Nat) (hn : n = 1 ∨ n = 2 ∨ n = 3) (a : Arr) (h : Indep n (max 1 (n - 1)) (mat n a)) :
    ∃ q, site n a = ok (q, Real.sqrt (dist2 (mat n a) (mat n q))) ∧ Reunitarized n (mat n a) (mat n q) := by
  have key : ∃ r, site n a = ok r := by
    rcases hn with rfl | rfl | rfl
    · have hA := h.notMem (k := 0) (by simp) (by omega)
      have h0 : Real.sqrt (nrm2 (a 0 0)) ≠ 0 := by
        intro z
        apply hA
        rw [nrm2_eq, Real.sqrt_eq_zero (Complex.normSq_nonneg _), Complex.normSq_eq_zero] at z
        have : vec 1 a 0 = 0 := by
          funext i
          obtain rfl : i = 0 := Subsingleton.elim _ _
          exact z
        rw [this]
        exact Submodule.zero_mem _
      simp only [site, case1, divR, if_neg h0, ok_bind, pure_def]
      exact ⟨_, rfl⟩
    · obtain ⟨s, hs⟩ := gsPart_defined (by omega) le_rfl (by omega) h
      simp only [site, case2_eq, hs, ok_bind, pure_def]
      exact ⟨_, rfl⟩
    · obtain ⟨s, hs⟩ := gsPart_defined (m := 2) (by omega) (by omega) (by omega) h
      simp only [site, case3_eq, hs, ok_bind, pure_def]
      exact ⟨_, rfl⟩
  obtain ⟨⟨q, sg⟩, hq⟩ := key
  have : Reunitarized n (mat n a) (mat n q) ∧ sg = Real.sqrt (dist2 (mat n a) (mat n q)) := by
    rcases hn with rfl | rfl | rfl
    · exact case1_ok hq
    · exact case2_ok hq
    · exact case3_ok hq
  exact ⟨q, by rw [hq, ← this.2], this.1⟩

/-- a matrix with a determinant other than zero is never degenerate -/
theorem C91_det (n m : Nat) (A : Matrix (Fin n) (Fin n) ℂ) (h : A.det ≠ 0) : Indep n m A := indep_of_det h

/-! ## The determinant by LU decomposition -/

theorem forN_mul {lo hi : Nat} (h : lo ≤ hi) (g : Nat → ℂ) (s : ℂ) :
    forN lo hi (fun c t => t * g c) s = s * ∏ c ∈ Ico lo hi, g c := by
  induction hi, h using Nat.le_induction with
  | base => simp [forN_self]
  | succ k h ih => rw [forN_succ h, ih, prod_Ico_succ_top h, mul_assoc]

/-- the product of the two factors at row `j`, column `i` -/
noncomputable def fac (b : Arr) (j i : Nat) : ℂ :=
  ∑ c ∈ range (min i j), b c i * b j c + if i ≤ j then b j i else b j i * b j j

theorem fac_congr {b b' : Arr} {j i : Nat} (h1 : ∀ c < j, ∀ i, b c i = b' c i) (h2 : ∀ c ≤ i, b j c = b' j c) : fac b j i = fac b' j i := by
  unfold fac
  congr 1
  · refine sum_congr rfl fun c hc => ?_
    have := mem_range.1 hc
    rw [h1 c (by omega), h2 c (by omega)]
  · split
    · exact h2 i le_rfl
    · rw [h2 i le_rfl, h2 j (by omega)]

theorem luQuot_ok {x t z : ℂ} (h : luQuot x t = ok z) : z * x = t := by
  simp only [luQuot, bind_eq_ok, divR_ok, pure_def] at h
  obtain ⟨re, ⟨h0, rfl⟩, im, ⟨-, rfl⟩, e⟩ := h
  injection e with e
  subst e
  rw [nrm2_eq] at *
  have hx : x ≠ 0 := by
    intro z
    rw [z, map_zero] at h0
    exact h0 rfl
  have : (⟨(conj x * t).re / Complex.normSq x, (conj x * t).im / Complex.normSq x⟩ : ℂ) = conj x * t / (Complex.normSq x : ℂ) := by
    apply Complex.ext
    · rw [Complex.div_ofReal_re]
    · rw [Complex.div_ofReal_im]
  have hc : conj x ≠ 0 := by simpa using hx
  rw [this, Complex.normSq_eq_conj_mul_self]
  field_simp

theorem lu_low {a b : Arr} {j : Nat} (hb : ∀ i, b j i = a j i) : ∀ m ≤ j + 1,
    (∀ c, c ≠ j → ∀ i, forN 0 m (fun i b => upd b j i (luDot b i j i)) b c i = b c i) ∧
    (∀ i, m ≤ i → forN 0 m (fun i b => upd b j i (luDot b i j i)) b j i = a j i) ∧
    ∀ i < m, a j i = fac (forN 0 m (fun i b => upd b j i (luDot b i j i)) b) j i
  | 0, _ => ⟨fun _ _ _ => by rw [forN_self], fun i _ => by rw [forN_self, hb], fun i h => absurd h (Nat.not_lt_zero i)⟩
  | m + 1, hm => by
    obtain ⟨h1, h2, h3⟩ := lu_low hb m (by omega)
    rw [forN_succ (Nat.zero_le m)]
    generalize forN 0 m (fun i b => upd b j i (luDot b i j i)) b = b1 at *
    refine ⟨?_, ?_, ?_⟩
    · intro c hc i
      simp only [upd, hc, false_and, if_false]
      exact h1 c hc i
    · intro i hi
      rw [upd_ne _ _ _ (by omega), h2 i (by omega)]
    · intro i hi
      rcases Nat.lt_succ_iff_lt_or_eq.1 hi with hi | rfl
      · rw [h3 i hi]
        refine fac_congr (fun c hc i => ?_) fun c hc => ?_
        · simp [upd, show c ≠ j by omega]
        · rw [upd_ne _ _ _ (by omega)]
      · have : fac (upd b1 j i (luDot b1 i j i)) j i = ∑ c ∈ range i, b1 c i * b1 j c + luDot b1 i j i := by
          unfold fac
          rw [Nat.min_eq_left (by omega), if_pos (by omega)]
          congr 1
          · refine sum_congr rfl fun c hc => ?_
            have := mem_range.1 hc
            rw [upd_ne _ _ _ (show c ≠ i by omega)]
            simp [upd, show c ≠ j by omega]
          · simp [upd]
        rw [this, luDot, forN_sub (Nat.zero_le i) (fun c => b1 c i * b1 j c), ← range_eq_Ico, h2 i le_rfl]
        ring

theorem lu_high {n : Nat} {a b b' : Arr} {j : Nat} (hjn : j + 1 ≤ n) (hb1 : ∀ i, j + 1 ≤ i → b j i = a j i)
    (hb2 : ∀ i < j + 1, a j i = fac b j i) : ∀ m, j + 1 ≤ m → m ≤ n → ∀ b',
    forO (j + 1) m (fun i b => do return upd b j i (← luQuot (b j j) (luDot b i j j))) b = ok b' →
    (∀ c, c ≠ j → ∀ i, b' c i = b c i) ∧ (∀ i, m ≤ i → b' j i = a j i) ∧ ∀ i < m, a j i = fac b' j i := by
  intro m hm
  induction m, hm using Nat.le_induction with
  | base =>
    intro _ b' e
    rw [forO_self] at e
    injection e with e
    subst e
    exact ⟨fun _ _ _ => rfl, hb1, hb2⟩
  | succ m hm ih =>
    intro hmn b' e
    rw [forO_succ hm, bind_eq_ok] at e
    obtain ⟨b1, e1, e2⟩ := e
    obtain ⟨h1, h2, h3⟩ := ih (by omega) b1 e1
    rw [bind_eq_ok] at e2
    obtain ⟨z, hz, e2⟩ := e2
    simp only [pure_def] at e2
    injection e2 with e2
    subst e2
    have hz := luQuot_ok hz
    refine ⟨?_, ?_, ?_⟩
    · intro c hc i
      simp only [upd, hc, false_and, if_false]
      exact h1 c hc i
    · intro i hi
      rw [upd_ne _ _ _ (by omega), h2 i (by omega)]
    · intro i hi
      rcases Nat.lt_succ_iff_lt_or_eq.1 hi with hi | rfl
      · rw [h3 i hi]
        refine fac_congr (fun c hc i => ?_) fun c hc => ?_
        · simp [upd, show c ≠ j by omega]
        · rw [upd_ne _ _ _ (by omega)]
      · have : fac (upd b1 j i z) j i = ∑ c ∈ range j, b1 c i * b1 j c + z * b1 j j := by
          unfold fac
          rw [Nat.min_eq_right (by omega), if_neg (by omega)]
          congr 1
          · refine sum_congr rfl fun c hc => ?_
            have := mem_range.1 hc
            rw [upd_ne _ _ _ (show c ≠ i by omega)]
            simp [upd, show c ≠ j by omega]
          · simp [upd, show j ≠ i by omega]
        rw [this, hz, luDot, forN_sub (Nat.zero_le j) (fun c => b1 c i * b1 j c), ← range_eq_Ico, h2 i le_rfl]
        ring

theorem lu_all {n : Nat} {a : Arr} : ∀ m ≤ n, ∀ b, forO 0 m (luCol n) a = ok b →
    (∀ j, m ≤ j → ∀ i, b j i = a j i) ∧ ∀ j < m, ∀ i < n, a j i = fac b j i
  | 0, _, b, e => by
    rw [forO_self] at e
    injection e with e
    subst e
    exact ⟨fun _ _ _ => rfl, fun j h => absurd h (Nat.not_lt_zero j)⟩
  | m + 1, hm, b, e => by
    rw [forO_succ (Nat.zero_le m), bind_eq_ok] at e
    obtain ⟨b0, e0, e1⟩ := e
    obtain ⟨h1, h2⟩ := lu_all m (by omega) b0 e0
    obtain ⟨l1, l2, l3⟩ := lu_low (a := a) (b := b0) (j := m) (h1 m le_rfl) (m + 1) le_rfl
    obtain ⟨k1, k2, k3⟩ := lu_high (b' := b) hm l2 l3 n hm le_rfl b e1
    refine ⟨?_, ?_⟩
    · intro j hj i
      rw [k1 j (by omega), l1 j (by omega), h1 j (by omega)]
    · intro j hj i hi
      rcases Nat.lt_succ_iff_lt_or_eq.1 hj with hj | rfl
      · rw [h2 j hj i hi]
        refine fac_congr (fun c hc i => ?_) fun c _ => ?_
        · rw [k1 c (by omega), l1 c (by omega)]
        · rw [k1 j (by omega), l1 j (by omega)]
      · exact k3 i hi

/-- the decomposition gives the determinant wherever it does not divide by zero -/
theorem luDet_ok {n : Nat} (hn : 2 ≤ n) {a : Arr} {d : ℂ} (e : luDet n a = ok d) : d = (mat n a).det := by
  simp only [luDet, bind_eq_ok, pure_def] at e
  obtain ⟨b, e1, e2⟩ := e
  injection e2 with e2
  obtain ⟨-, h⟩ := lu_all n le_rfl b e1
  rw [forN_mul hn (fun c => b c c)] at e2
  let L : Matrix (Fin n) (Fin n) ℂ := Matrix.of fun i c => if c < i then b c i else if c = i then 1 else 0
  let U : Matrix (Fin n) (Fin n) ℂ := Matrix.of fun c j => if c ≤ j then b j c else 0
  have hLU : (mat n a).transpose = L * U := by
    ext i j
    rw [Matrix.transpose_apply, Matrix.mul_apply]
    have hf := h j j.2 i i.2
    refine hf.trans ?_
    have hL : ∀ c : Fin n, L i c * U c j = (fun c : Nat => (if c < i then b c i else if c = i then 1 else 0) *
        (if c ≤ j.val then b j c else 0)) c := by
      intro c
      simp only [L, U, Matrix.of_apply, Fin.lt_def, Fin.le_def, Fin.ext_iff]
    rw [sum_congr rfl fun c _ => hL c, ← sum_range (fun c : Nat => (if c < i.val then b c i else if c = i then 1 else 0) *
        (if c ≤ j.val then b j c else 0)),
      ← sum_range_add_sum_Ico _ (show min i.val j.val + 1 ≤ n by omega), sum_range_succ]
    have z : ∑ c ∈ Ico (min i.val j.val + 1) n, (if c < i.val then b c i else if c = i then 1 else 0) * (if c ≤ j.val then b j c else 0) = 0 := by
      refine sum_eq_zero fun c hc => ?_
      have := (mem_Ico.1 hc).1
      by_cases hcj : c ≤ j.val
      · rw [if_neg (show ¬ c < i.val by omega), if_neg (show ¬ c = i.val by omega), zero_mul]
      · rw [if_neg hcj, mul_zero]
    rw [z, add_zero, fac]
    congr 1
    · refine sum_congr rfl fun c hc => ?_
      have := mem_range.1 hc
      rw [if_pos (show c < i.val by omega), if_pos (show c ≤ j.val by omega)]
    · by_cases hij : i.val ≤ j.val
      · rw [Nat.min_eq_left hij, if_pos hij, if_neg (lt_irrefl _), if_pos rfl, if_pos hij, one_mul]
      · rw [Nat.min_eq_right (by omega), if_neg hij, if_pos (by omega), if_pos le_rfl]
  have hdL : L.det = 1 := by
    rw [Matrix.det_of_isLowerTriangular]
    · refine prod_eq_one fun i _ => ?_
      simp [L]
    · intro i j hij
      have hij' : i < j := hij
      simp only [L, Matrix.of_apply]
      rw [if_neg (not_lt.2 hij'.le), if_neg hij'.ne']
  have hdU : U.det = ∏ c ∈ range n, b c c := by
    rw [Matrix.det_of_isUpperTriangular, prod_range]
    · refine prod_congr rfl fun i _ => ?_
      simp [U]
    · intro i j hij
      have hij' : j < i := hij
      simp only [U, Matrix.of_apply]
      rw [if_neg (not_le.2 hij')]
  rw [← Matrix.det_transpose, hLU, Matrix.det_mul, hdL, hdU, one_mul, ← e2, range_eq_Ico,
    prod_eq_prod_Ico_succ_bot (show 0 < n by omega), prod_eq_prod_Ico_succ_bot (show 0 + 1 < n by omega)]
  ring

end Verif.Reunit
