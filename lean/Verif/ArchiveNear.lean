import Verif.ArchiveFile
import Mathlib.Analysis.CStarAlgebra.Matrix
/-
C101, the estimates: how far plaquettes and link traces move when the links are stored as `float` and completed from two rows.
-/
namespace Verif.ArchiveFile
open Verif Outcome Verif.Layout Verif.Archive
open Verif.Gauge (plaq siteSum planeSum GaugeField up)
open scoped Matrix.Norms.L2Operator

abbrev M3 := Matrix (Fin 3) (Fin 3) ℂ

theorem norm_single_le (i j : Fin 3) (a : ℂ) : ‖(Matrix.single i j a : M3)‖ ≤ ‖a‖ := by
  have h1 : (Matrix.single i j a : M3).conjTranspose * Matrix.single i j a = Matrix.diagonal (Pi.single j (star a * a)) := by
    rw [Matrix.conjTranspose_single, Matrix.single_mul_single_same, Matrix.diagonal_single]
  have h2 := Matrix.l2_opNorm_conjTranspose_mul_self (Matrix.single i j a : M3)
  rw [h1, Matrix.l2_opNorm_diagonal, Pi.norm_single, norm_mul, norm_star] at h2
  nlinarith [norm_nonneg a, norm_nonneg (Matrix.single i j a : M3)]

/-- the norm is at most the sum of the absolute values of the entries -/
theorem norm_le_sum (A : M3) : ‖A‖ ≤ ∑ i, ∑ j, ‖A i j‖ := by
  conv_lhs => rw [Matrix.matrix_eq_sum_single A]
  refine (norm_sum_le _ _).trans (Finset.sum_le_sum fun i _ => (norm_sum_le _ _).trans (Finset.sum_le_sum fun j _ => norm_single_le _ _ _))

theorem entry_le (A : M3) (i j : Fin 3) : ‖A i j‖ ≤ ‖A‖ := by
  have h := Matrix.l2_opNorm_mulVec A (EuclideanSpace.single j (1 : ℂ))
  rw [PiLp.norm_single, norm_one, mul_one] at h
  refine le_trans ?_ h
  have h2 := PiLp.norm_apply_le ((EuclideanSpace.equiv (Fin 3) ℂ).symm (A.mulVec (EuclideanSpace.single j (1 : ℂ)))) i
  refine le_trans (le_of_eq ?_) h2
  simp

theorem trace_re_le (A : M3) : |A.trace.re| ≤ 3 * ‖A‖ := by
  refine (Complex.abs_re_le_norm _).trans ?_
  rw [Matrix.trace, Fin.sum_univ_three]
  have h := norm_add₃_le (a := A.diag 0) (b := A.diag 1) (c := A.diag 2)
  have := entry_le A 0 0
  have := entry_le A 1 1
  have := entry_le A 2 2
  simp only [Matrix.diag_apply] at *
  linarith

theorem norm_su {A : M3} (h : A ∈ Matrix.specialUnitaryGroup (Fin 3) ℂ) : ‖A‖ = 1 := by
  have hu : A ∈ Matrix.unitaryGroup (Fin 3) ℂ := (Matrix.mem_specialUnitaryGroup_iff.1 h).1
  exact CStarRing.norm_of_mem_unitary hu

/-- four factors -/
theorem norm_four {A B C D A' B' C' D' : M3} {δ : ℝ} (hA : ‖A‖ = 1) (hB : ‖B‖ = 1) (hC : ‖C‖ = 1) (hD : ‖D‖ = 1)
    (a : ‖A' - A‖ ≤ δ) (b : ‖B' - B‖ ≤ δ) (c : ‖C' - C‖ ≤ δ) (d : ‖D' - D‖ ≤ δ) :
    ‖A' * B' * star C' * star D' - A * B * star C * star D‖ ≤ (1 + δ) ^ 4 - 1 := by
  have h0 : 0 ≤ δ := (norm_nonneg _).trans a
  have big : ∀ {X X' : M3}, ‖X‖ = 1 → ‖X' - X‖ ≤ δ → ‖X'‖ ≤ 1 + δ := by
    intro X X' h h'
    have := norm_add_le X (X' - X)
    rw [add_sub_cancel] at this
    linarith
  have key : A' * B' * star C' * star D' - A * B * star C * star D =
      A' * B' * star C' * (star D' - star D) + A' * B' * (star C' - star C) * star D + A' * (B' - B) * star C * star D + (A' - A) * B * star C * star D := by
    noncomm_ring
  have sub : ∀ X Y : M3, ‖star X - star Y‖ = ‖X - Y‖ := fun X Y => by rw [← star_sub, norm_star]
  have m4 : ∀ W X Y Z : M3, ‖W * X * Y * Z‖ ≤ ‖W‖ * ‖X‖ * ‖Y‖ * ‖Z‖ := fun W X Y Z =>
    (norm_mul_le _ _).trans (mul_le_mul_of_nonneg_right ((norm_mul_le _ _).trans (mul_le_mul_of_nonneg_right (norm_mul_le _ _) (norm_nonneg _))) (norm_nonneg _))
  have t1 : ‖A' * B' * star C' * (star D' - star D)‖ ≤ (1 + δ) * (1 + δ) * (1 + δ) * δ := by
    refine (m4 _ _ _ _).trans ?_
    rw [sub, norm_star]
    exact mul_le_mul (mul_le_mul (mul_le_mul (big hA a) (big hB b) (norm_nonneg _) (by linarith)) (big hC c) (norm_nonneg _) (by positivity)) d (norm_nonneg _) (by positivity)
  have t2 : ‖A' * B' * (star C' - star C) * star D‖ ≤ (1 + δ) * (1 + δ) * δ * 1 := by
    refine (m4 _ _ _ _).trans ?_
    rw [sub, norm_star, hD]
    exact mul_le_mul (mul_le_mul (mul_le_mul (big hA a) (big hB b) (norm_nonneg _) (by linarith)) c (norm_nonneg _) (by positivity)) le_rfl zero_le_one (by positivity)
  have t3 : ‖A' * (B' - B) * star C * star D‖ ≤ (1 + δ) * δ * 1 * 1 := by
    refine (m4 _ _ _ _).trans ?_
    rw [norm_star, norm_star, hC, hD]
    exact mul_le_mul (mul_le_mul (mul_le_mul (big hA a) b (norm_nonneg _) (by linarith)) le_rfl zero_le_one (by positivity)) le_rfl zero_le_one (by positivity)
  have t4 : ‖(A' - A) * B * star C * star D‖ ≤ δ * 1 * 1 * 1 := by
    refine (m4 _ _ _ _).trans ?_
    rw [norm_star, norm_star, hB, hC, hD]
    linarith
  rw [key]
  have := norm_add₃_le (a := A' * B' * star C' * (star D' - star D)) (b := A' * B' * (star C' - star C) * star D) (c := A' * (B' - B) * star C * star D)
  have := norm_add_le (A' * B' * star C' * (star D' - star D) + A' * B' * (star C' - star C) * star D + A' * (B' - B) * star C * star D) ((A' - A) * B * star C * star D)
  nlinarith

theorem siteSum_le {L : List Nat} {w w' : List Nat → ℝ} {c : ℝ} (h : ∀ x, InRange x L → |w' x - w x| ≤ c) : |siteSum L w' - siteSum L w| ≤ nsites L * c := by
  unfold siteSum
  rw [← Finset.sum_sub_distrib]
  refine (Finset.abs_sum_le_sum_abs _ _).trans ((Finset.sum_le_sum (g := fun _ => c) fun r hr => h _ (digits_inRange (Finset.mem_range.1 hr))).trans ?_)
  simp

/-! ## one link -/

/-- what is stored of a link, and completed again -/
noncomputable def stored (N : Num ℝ) (m : Link ℝ) : Link ℝ := completed (rounded N m)

/-- the accuracy of `float` for numbers up to one -/
noncomputable def eps : ℝ := 1 / 2 ^ 25

theorem num_le {m : Link ℝ} (h : toC m ∈ Matrix.specialUnitaryGroup (Fin 3) ℂ) (i k : Fin 3) : ‖toC m i k‖ ≤ 1 ∧ |(m i k).1| ≤ 1 ∧ |(m i k).2| ≤ 1 := by
  have hn := entry_norm_bound_of_unitary (Matrix.mem_specialUnitaryGroup_iff.1 h).1 i k
  exact ⟨hn, (Complex.abs_re_le_norm (toC m i k)).trans hn, (Complex.abs_im_le_norm (toC m i k)).trans hn⟩

/-- the first two rows -/
theorem row_near {N : Num ℝ} (hN : Rounds N eps) {m : Link ℝ} (h : toC m ∈ Matrix.specialUnitaryGroup (Fin 3) ℂ) (i k : Fin 3) :
    |(rounded N m i k).1 - (m i k).1| ≤ eps ∧ |(rounded N m i k).2 - (m i k).2| ≤ eps ∧ ‖toC (rounded N m) i k - toC m i k‖ ≤ 1415 / 1000 * eps := by
  have h1 := hN _ (num_le h i k).2.1
  have h2 := hN _ (num_le h i k).2.2
  refine ⟨h1, h2, ?_⟩
  have he : (0 : ℝ) ≤ 1415 / 1000 * eps := by unfold eps; positivity
  refine abs_le_of_sq_le_sq' ?_ he |>.2
  rw [← Complex.normSq_eq_norm_sq, Complex.normSq_apply]
  have e1 : (toC (rounded N m) i k - toC m i k).re = (rounded N m i k).1 - (m i k).1 := rfl
  have e2 : (toC (rounded N m) i k - toC m i k).im = (rounded N m i k).2 - (m i k).2 := rfl
  rw [e1, e2]
  have q1 := sq_le_sq' (abs_le.1 h1).1 (abs_le.1 h1).2
  have q2 := sq_le_sq' (abs_le.1 h2).1 (abs_le.1 h2).2
  have q3 : (0 : ℝ) ≤ eps ^ 2 := sq_nonneg _
  simp only [rounded] at *
  nlinarith

theorem toC_row {m : Link ℝ} {i : Fin 3} (hi : i ≠ 2) (k : Fin 3) : toC (completed m) i k = toC m i k := by simp [toC, completed, hi]

theorem mul_near {x y x' y' : ℂ} {e : ℝ} (hx : ‖x‖ ≤ 1) (hy : ‖y‖ ≤ 1) (h1 : ‖x' - x‖ ≤ e) (h2 : ‖y' - y‖ ≤ e) : ‖x' * y' - x * y‖ ≤ 2 * e + e ^ 2 := by
  have he : 0 ≤ e := (norm_nonneg _).trans h1
  have key : x' * y' - x * y = (x' - x) * y + x * (y' - y) + (x' - x) * (y' - y) := by ring
  have := norm_add₃_le (a := (x' - x) * y) (b := x * (y' - y)) (c := (x' - x) * (y' - y))
  rw [← key] at this
  simp only [norm_mul] at this
  nlinarith [norm_nonneg (x' - x), norm_nonneg (y' - y), norm_nonneg x, norm_nonneg y]

/-- the third row -/
theorem third_near {N : Num ℝ} (hN : Rounds N eps) {m : Link ℝ} (h : toC m ∈ Matrix.specialUnitaryGroup (Fin 3) ℂ) (k : Fin 3) :
    ‖toC (stored N m) 2 k - toC m 2 k‖ ≤ 567 / 100 * eps := by
  have e1 : toC m 2 k = toC (completed m) 2 k := by rw [su3_completed m h]
  rw [e1, stored, toC_completed, toC_completed, ← star_sub, norm_star]
  have r := fun i k => (row_near hN h i k).2.2
  have a := fun i k => (num_le h i k).1
  have p := mul_near (a 0 (k + 1)) (a 1 (k + 2)) (r 0 (k + 1)) (r 1 (k + 2))
  have q := mul_near (a 0 (k + 2)) (a 1 (k + 1)) (r 0 (k + 2)) (r 1 (k + 1))
  have key : toC (rounded N m) 0 (k + 1) * toC (rounded N m) 1 (k + 2) - toC (rounded N m) 0 (k + 2) * toC (rounded N m) 1 (k + 1) -
      (toC m 0 (k + 1) * toC m 1 (k + 2) - toC m 0 (k + 2) * toC m 1 (k + 1)) =
      (toC (rounded N m) 0 (k + 1) * toC (rounded N m) 1 (k + 2) - toC m 0 (k + 1) * toC m 1 (k + 2)) -
      (toC (rounded N m) 0 (k + 2) * toC (rounded N m) 1 (k + 1) - toC m 0 (k + 2) * toC m 1 (k + 1)) := by ring
  rw [key]
  refine (norm_sub_le _ _).trans ((add_le_add p q).trans ?_)
  unfold eps
  norm_num

/-- every number of the link that comes back is within 6 eps of the number stored -/
theorem stored_near {N : Num ℝ} (hN : Rounds N eps) {m : Link ℝ} (h : toC m ∈ Matrix.specialUnitaryGroup (Fin 3) ℂ) (i k : Fin 3) :
    |(stored N m i k).1 - (m i k).1| ≤ 6 * eps ∧ |(stored N m i k).2 - (m i k).2| ≤ 6 * eps := by
  have he : (0 : ℝ) ≤ eps := by unfold eps; positivity
  by_cases hi : i = 2
  · subst hi
    have t := third_near hN h k
    have h1 := (Complex.abs_re_le_norm (toC (stored N m) 2 k - toC m 2 k)).trans t
    have h2 := (Complex.abs_im_le_norm (toC (stored N m) 2 k - toC m 2 k)).trans t
    have e1 : (toC (stored N m) 2 k - toC m 2 k).re = (stored N m 2 k).1 - (m 2 k).1 := rfl
    have e2 : (toC (stored N m) 2 k - toC m 2 k).im = (stored N m 2 k).2 - (m 2 k).2 := rfl
    rw [e1] at h1
    rw [e2] at h2
    constructor <;> linarith
  · obtain ⟨h1, h2, -⟩ := row_near hN h i k
    have e : stored N m i k = rounded N m i k := by simp [stored, completed, hi]
    rw [e]
    constructor <;> linarith

theorem link_near {N : Num ℝ} (hN : Rounds N eps) {m : Link ℝ} (h : toC m ∈ Matrix.specialUnitaryGroup (Fin 3) ℂ) :
    ‖toC (stored N m) - toC m‖ ≤ 77 / 10 ^ 8 := by
  refine (norm_le_sum _).trans ?_
  have r : ∀ i k, i ≠ 2 → ‖(toC (stored N m) - toC m) i k‖ ≤ 1415 / 1000 * eps := by
    intro i k hi
    have := (row_near hN h i k).2.2
    rw [Matrix.sub_apply, stored, toC_row hi]
    exact this
  have t : ∀ k, ‖(toC (stored N m) - toC m) 2 k‖ ≤ 567 / 100 * eps := fun k => third_near hN h k
  simp only [Fin.sum_univ_three]
  have a0 := r 0 0 (by decide)
  have a1 := r 0 1 (by decide)
  have a2 := r 0 2 (by decide)
  have b0 := r 1 0 (by decide)
  have b1 := r 1 1 (by decide)
  have b2 := r 1 2 (by decide)
  have c0 := t 0
  have c1 := t 1
  have c2 := t 2
  have : (6 * (1415 / 1000) + 3 * (567 / 100)) * eps ≤ 77 / 10 ^ 8 := by unfold eps; norm_num
  linarith

/-! ## the averages -/

theorem div_near {a b c k : ℝ} (hk : 0 ≤ k) (hc : 0 ≤ c) (h : |a - b| ≤ k * c) : |a / k - b / k| ≤ c := by
  rcases hk.eq_or_lt with rfl | hk
  · simpa using hc
  · rw [← sub_div, abs_div, abs_of_pos hk, div_le_iff₀ hk]
    linarith

/-- the field that comes back -/
noncomputable def storedField (N : Num ℝ) (f : Links) : Links := fun mu x => stored N (f mu x)

section
variable {N : Num ℝ} (hN : Rounds N eps) {L : List Nat} {f : Links} (hf : SpecialUnitary L f)
include hN hf

theorem plaq_near {mu nu : Nat} (hmu : mu < 4) (hnu : nu < 4) {x : List Nat} (hx : InRange x L) :
    |(plaq L (mats (storedField N f)) mu nu x).trace.re - (plaq L (mats f) mu nu x).trace.re| ≤ 3 * (31 / 10 ^ 7) := by
  rw [← Complex.sub_re, ← Matrix.trace_sub]
  refine (trace_re_le _).trans (mul_le_mul_of_nonneg_left ?_ (by norm_num))
  have hu := fun mu => Shift.nbr_inRange (s := .fwd) (dir := mu) hx
  have := norm_four (norm_su (hf mu x hmu hx)) (norm_su (hf nu _ hnu (hu mu))) (norm_su (hf mu _ hmu (hu nu))) (norm_su (hf nu x hnu hx))
    (link_near hN (hf mu x hmu hx)) (link_near hN (hf nu _ hnu (hu mu))) (link_near hN (hf mu _ hmu (hu nu))) (link_near hN (hf nu x hnu hx))
  refine this.trans ?_
  norm_num

theorem avgPlaq_near : |avgPlaq L (mats (storedField N f)) - avgPlaq L (mats f)| ≤ 31 / 10 ^ 7 := by
  refine div_near (by positivity) (by norm_num) ?_
  have h : ∀ mu nu, mu < 4 → nu < 4 → |planeSum L (mats (storedField N f)) mu nu - planeSum L (mats f) mu nu| ≤ nsites L * (3 * (31 / 10 ^ 7)) :=
    fun mu nu hmu hnu => siteSum_le fun x hx => plaq_near hN hf hmu hnu hx
  simp only [Finset.sum_range_succ, Finset.sum_range_zero, zero_add]
  have h10 := abs_le.1 (h 1 0 (by decide) (by decide))
  have h20 := abs_le.1 (h 2 0 (by decide) (by decide))
  have h21 := abs_le.1 (h 2 1 (by decide) (by decide))
  have h30 := abs_le.1 (h 3 0 (by decide) (by decide))
  have h31 := abs_le.1 (h 3 1 (by decide) (by decide))
  have h32 := abs_le.1 (h 3 2 (by decide) (by decide))
  refine abs_le.2 ⟨?_, ?_⟩ <;> linarith [h10.1, h10.2]

theorem avgLink_near : |avgLink L (mats (storedField N f)) - avgLink L (mats f)| ≤ 31 / 10 ^ 7 := by
  refine div_near (by positivity) (by norm_num) ?_
  have h : ∀ mu, mu < 4 → |(siteSum L fun x => (mats (storedField N f) mu x).trace.re) - siteSum L fun x => (mats f mu x).trace.re| ≤ nsites L * (3 * (31 / 10 ^ 7)) := by
    intro mu hmu
    refine siteSum_le fun x hx => ?_
    rw [← Complex.sub_re, ← Matrix.trace_sub]
    refine (trace_re_le _).trans (mul_le_mul_of_nonneg_left ?_ (by norm_num))
    exact (link_near hN (hf mu x hmu hx)).trans (by norm_num)
  simp only [Finset.sum_range_succ, Finset.sum_range_zero, zero_add]
  have h0 := abs_le.1 (h 0 (by decide))
  have h1 := abs_le.1 (h 1 (by decide))
  have h2 := abs_le.1 (h 2 (by decide))
  have h3 := abs_le.1 (h 3 (by decide))
  refine abs_le.2 ⟨?_, ?_⟩ <;> linarith [h0.1, h0.2]

end

section
variable {L : List Nat} {f : Links} (hf : SpecialUnitary L f)
include hf

theorem avgPlaq_le : |avgPlaq L (mats f)| ≤ 1 := by
  have : |avgPlaq L (mats f) - 0 / (18 * nsites L)| ≤ 1 := by
    refine div_near (by positivity) (by norm_num) ?_
    rw [sub_zero]
    have h : ∀ mu nu, mu < 4 → nu < 4 → |planeSum L (mats f) mu nu| ≤ nsites L * 3 := by
      intro mu nu hmu hnu
      have := siteSum_le (L := L) (w' := fun x => (plaq L (mats f) mu nu x).trace.re) (w := fun _ => 0) (c := 3) fun x hx => by
        have hu := fun mu => Shift.nbr_inRange (s := .fwd) (dir := mu) hx
        have n1 := norm_su (hf mu x hmu hx)
        have n2 := norm_su (hf nu _ hnu (hu mu))
        have n3 := norm_su (hf mu _ hmu (hu nu))
        have n4 := norm_su (hf nu x hnu hx)
        rw [sub_zero]
        refine (trace_re_le _).trans ?_
        have := (norm_mul_le (mats f mu x * mats f nu (up L mu x) * star (mats f mu (up L nu x))) (star (mats f nu x))).trans
          (mul_le_mul_of_nonneg_right ((norm_mul_le _ _).trans (mul_le_mul_of_nonneg_right (norm_mul_le _ _) (norm_nonneg _))) (norm_nonneg _))
        simp only [mats, up] at this
        rw [norm_star, norm_star, n1, n2, n3, n4] at this
        simp only [plaq, mats, up]
        linarith
      simpa [planeSum, siteSum] using this
    simp only [Finset.sum_range_succ, Finset.sum_range_zero, zero_add]
    have h10 := abs_le.1 (h 1 0 (by decide) (by decide))
    have h20 := abs_le.1 (h 2 0 (by decide) (by decide))
    have h21 := abs_le.1 (h 2 1 (by decide) (by decide))
    have h30 := abs_le.1 (h 3 0 (by decide) (by decide))
    have h31 := abs_le.1 (h 3 1 (by decide) (by decide))
    have h32 := abs_le.1 (h 3 2 (by decide) (by decide))
    refine abs_le.2 ⟨?_, ?_⟩ <;> linarith [h10.1, h10.2]
  simpa using this

theorem avgLink_le : |avgLink L (mats f)| ≤ 1 := by
  have : |avgLink L (mats f) - 0 / (12 * nsites L)| ≤ 1 := by
    refine div_near (by positivity) (by norm_num) ?_
    rw [sub_zero]
    have h : ∀ mu, mu < 4 → |siteSum L fun x => (mats f mu x).trace.re| ≤ nsites L * 3 := by
      intro mu hmu
      have := siteSum_le (L := L) (w' := fun x => (mats f mu x).trace.re) (w := fun _ => 0) (c := 3) fun x hx => by
        rw [sub_zero]
        refine (trace_re_le _).trans ?_
        simp only [mats]
        rw [norm_su (hf mu x hmu hx)]
        norm_num
      simpa [siteSum] using this
    simp only [Finset.sum_range_succ, Finset.sum_range_zero, zero_add]
    have h0 := abs_le.1 (h 0 (by decide))
    have h1 := abs_le.1 (h 1 (by decide))
    have h2 := abs_le.1 (h 2 (by decide))
    have h3 := abs_le.1 (h 3 (by decide))
    refine abs_le.2 ⟨?_, ?_⟩ <;> linarith [h0.1, h0.2]
  simpa using this

end

end Verif.ArchiveFile
