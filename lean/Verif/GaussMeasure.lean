import Verif.GaussProps
import Mathlib.Analysis.SpecialFunctions.PolarCoord
import Mathlib.MeasureTheory.Function.JacobianOneDim
import Mathlib.MeasureTheory.Integral.IntervalIntegral.Periodic
import Mathlib.Probability.Distributions.Gaussian.Real
/-
C90: the transform of Box and Muller, which `fill_gaussian` computes up to the digits of 2 pi, takes two independent
uniform deviates to two independent normal deviates.
-/
namespace Verif.Gauss
open MeasureTheory ProbabilityTheory Set Real
open scoped ENNReal

/-- the angle runs over a circle wherever it begins -/
theorem lintegral_circle (h : ℝ → ℝ≥0∞) (hp : Function.Periodic h (2 * π)) :
    ∫⁻ t in Ioo (-π) π, h t = ∫⁻ t in Ioo 0 (2 * π), h t := by
  have : Fact (0 < 2 * π) := ⟨by positivity⟩
  rw [restrict_Ioo_eq_restrict_Ioc, restrict_Ioo_eq_restrict_Ioc]
  have e := fun t => AddCircle.lintegral_preimage (2 * π) t hp.lift
  have h1 := e (-π)
  have h2 := e 0
  rw [show -π + 2 * π = π by ring] at h1
  rw [zero_add] at h2
  simp only [Function.Periodic.lift_coe] at h1 h2
  rw [h1, h2]

/-- the angle 2 pi v with v in (0,1) -/
theorem lintegral_angle (h : ℝ → ℝ≥0∞) (hp : Function.Periodic h (2 * π)) :
    ∫⁻ t in Ioo (-π) π, h t = ENNReal.ofReal (2 * π) * ∫⁻ v in Ioo (0:ℝ) 1, h (2 * π * v) := by
  rw [lintegral_circle h hp]
  have himg : (fun v : ℝ => 2 * π * v) '' Ioo 0 1 = Ioo 0 (2 * π) := by
    rw [Set.image_mul_left_Ioo (by positivity)]
    simp
  rw [← himg, lintegral_image_eq_lintegral_abs_deriv_mul (f' := fun _ => 2 * π) measurableSet_Ioo
    (fun x _ => by simpa using ((hasDerivAt_id x).const_mul (2 * π)).hasDerivWithinAt)
    (fun x _ y _ h => by simpa [pi_ne_zero] using h)]
  rw [abs_of_pos (by positivity), lintegral_const_mul' _ _ ENNReal.ofReal_ne_top]

/-- the radius sqrt(-2 log u) with u in (0,1) -/
theorem lintegral_radius (h : ℝ → ℝ≥0∞) :
    ∫⁻ r in Ioi (0:ℝ), ENNReal.ofReal (r * exp (-r ^ 2 / 2)) * h r = ∫⁻ u in Ioo (0:ℝ) 1, h (sqrt (-2 * log u)) := by
  have himg : (fun r : ℝ => exp (-r ^ 2 / 2)) '' Ioi 0 = Ioo 0 1 := by
    ext u
    constructor
    · rintro ⟨r, hr, rfl⟩
      refine ⟨exp_pos _, Real.exp_lt_one_iff.2 ?_⟩
      have : 0 < r ^ 2 := by have : (0:ℝ) < r := hr; positivity
      linarith
    · rintro ⟨h0, h1⟩
      have hl := log_neg h0 h1
      refine ⟨sqrt (-2 * log u), sqrt_pos.2 (by linarith), ?_⟩
      dsimp only
      rw [sq_sqrt (by linarith), show -(-2 * log u) / 2 = log u by ring, exp_log h0]
  have hroot : ∀ r ∈ Ioi (0:ℝ), sqrt (-2 * log (exp (-r ^ 2 / 2))) = r := by
    intro r hr
    rw [log_exp, show -2 * (-r ^ 2 / 2) = r ^ 2 by ring, sqrt_sq (le_of_lt hr)]
  rw [← himg, lintegral_image_eq_lintegral_abs_deriv_mul (f' := fun r => -r * exp (-r ^ 2 / 2)) measurableSet_Ioi]
  · refine setLIntegral_congr_fun measurableSet_Ioi fun r hr => ?_
    rw [hroot r hr, neg_mul, abs_neg, abs_of_pos (mul_pos hr (exp_pos _))]
  · intro r _
    have h1 : HasDerivAt (fun x : ℝ => exp (-x ^ 2 / 2)) (exp (-r ^ 2 / 2) * (-(((2:ℕ):ℝ) * r ^ (2 - 1)) / 2)) r :=
      ((hasDerivAt_pow 2 r).neg.div_const 2).exp
    have h2 : exp (-r ^ 2 / 2) * (-(((2:ℕ):ℝ) * r ^ (2 - 1)) / 2) = -r * exp (-r ^ 2 / 2) := by
      norm_num
      ring
    rw [h2] at h1
    exact h1.hasDerivWithinAt
  · intro r hr r' hr' e
    have := congrArg (fun u => sqrt (-2 * log u)) e
    dsimp only at this
    rwa [hroot r hr, hroot r' hr'] at this

theorem boxMuller_measurable : Measurable fun u : ℝ × ℝ => boxMuller (2 * π) u.1 u.2 := by
  unfold boxMuller
  fun_prop

theorem lintegral_boxMuller (F : ℝ × ℝ → ℝ≥0∞) (hF : Measurable F) :
    ∫⁻ u in Ioo (0:ℝ) 1 ×ˢ Ioo (0:ℝ) 1, F (boxMuller (2 * π) u.1 u.2) =
      ∫⁻ p : ℝ × ℝ, F p * (gaussianPDF 0 1 p.1 * gaussianPDF 0 1 p.2) := by
  rw [← lintegral_comp_polarCoord_symm]
  have htar : polarCoord.target = Ioi (0:ℝ) ×ˢ Ioo (-π) π := rfl
  have hm : Measurable fun u : ℝ × ℝ => F (boxMuller (2 * π) u.1 u.2) := hF.comp boxMuller_measurable
  rw [htar, Measure.volume_eq_prod, setLIntegral_prod _ hm.aemeasurable, setLIntegral_prod _ ?_]
  swap
  · refine Measurable.aemeasurable ?_
    have : Measurable fun p : ℝ × ℝ => polarCoord.symm p := by
      simp only [polarCoord_symm_apply]
      fun_prop
    simp only [smul_eq_mul]
    fun_prop
  have hin : ∀ r ∈ Ioi (0:ℝ), (∫⁻ t in Ioo (-π) π, ENNReal.ofReal (r, t).1 • (F (polarCoord.symm (r, t)) *
      (gaussianPDF 0 1 (polarCoord.symm (r, t)).1 * gaussianPDF 0 1 (polarCoord.symm (r, t)).2))) =
      ENNReal.ofReal (r * exp (-r ^ 2 / 2)) *
        ∫⁻ v in Ioo (0:ℝ) 1, F (r * cos (2 * π * v), r * sin (2 * π * v)) := by
    intro r hr
    have hr' : (0:ℝ) < r := hr
    have hdens : ∀ t, gaussianPDF 0 1 (r * cos t) * gaussianPDF 0 1 (r * sin t) =
        ENNReal.ofReal ((2 * π)⁻¹ * exp (-r ^ 2 / 2)) := by
      intro t
      rw [gaussianPDF, gaussianPDF, ← ENNReal.ofReal_mul (gaussianPDFReal_nonneg _ _ _)]
      congr 1
      simp only [gaussianPDFReal, NNReal.coe_one, mul_one, sub_zero]
      rw [mul_mul_mul_comm, ← exp_add, ← mul_inv, mul_self_sqrt (by positivity)]
      congr 2
      have := sin_sq_add_cos_sq t
      have : cos t ^ 2 = 1 - sin t ^ 2 := by linarith
      rw [mul_pow, mul_pow, this]
      ring
    simp only [polarCoord_symm_apply, smul_eq_mul, hdens]
    have : ∀ t, ENNReal.ofReal r * (F (r * cos t, r * sin t) * ENNReal.ofReal ((2 * π)⁻¹ * exp (-r ^ 2 / 2))) =
        (ENNReal.ofReal r * ENNReal.ofReal ((2 * π)⁻¹ * exp (-r ^ 2 / 2))) * F (r * cos t, r * sin t) := by
      intro t; ring
    simp only [this]
    rw [lintegral_const_mul' _ _ (ENNReal.mul_ne_top (by simp) (by simp)),
      lintegral_angle (fun t => F (r * cos t, r * sin t)) (fun t => by simp), ← mul_assoc]
    congr 1
    rw [← ENNReal.ofReal_mul hr'.le, ← ENNReal.ofReal_mul (by positivity)]
    congr 1
    field_simp
  rw [setLIntegral_congr_fun measurableSet_Ioi hin,
    lintegral_radius fun r => ∫⁻ v in Ioo (0:ℝ) 1, F (r * cos (2 * π * v), r * sin (2 * π * v))]
  rfl

/-- C90. If `u1`, `u2` are independent and uniform in (0,1), the two numbers of the exact transform are independent and
normal with mean 0 and variance 1. -/
theorem C90_normal :
    Measure.map (fun u : ℝ × ℝ => boxMuller (2 * π) u.1 u.2) (volume.restrict (Ioo (0:ℝ) 1 ×ˢ Ioo (0:ℝ) 1)) =
      (gaussianReal 0 1).prod (gaussianReal 0 1) := by
  ext S hS
  rw [Measure.map_apply boxMuller_measurable hS, ← lintegral_indicator_one (boxMuller_measurable hS)]
  have h := lintegral_boxMuller (S.indicator 1) (measurable_one.indicator hS)
  have e : ∀ u : ℝ × ℝ, ((fun u : ℝ × ℝ => boxMuller (2 * π) u.1 u.2) ⁻¹' S).indicator (1 : ℝ × ℝ → ℝ≥0∞) u =
      S.indicator 1 (boxMuller (2 * π) u.1 u.2) := fun u => rfl
  simp only [e]
  rw [h, gaussianReal_of_var_ne_zero 0 one_ne_zero, prod_withDensity (by fun_prop) (by fun_prop),
    withDensity_apply _ hS, ← lintegral_indicator hS, ← Measure.volume_eq_prod]
  refine lintegral_congr fun p => ?_
  by_cases hp : p ∈ S <;> simp [hp]

end Verif.Gauss
