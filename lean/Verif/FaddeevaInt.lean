import Verif.Faddeeva
import Mathlib.Analysis.Calculus.ParametricIntegral
import Mathlib.Analysis.SpecialFunctions.Gaussian.GaussianIntegral
import Mathlib.MeasureTheory.Integral.IntegralEqImproper

/-!
# The complex error function as an integral; its bound in the upper half plane
-/

namespace SixTrack
namespace Beam

open Complex MeasureTheory Set Filter

/-- The integrand. -/
noncomputable def fadInt (z : ℂ) (t : ℝ) : ℂ := exp (-(t : ℂ) ^ 2 + 2 * I * z * t)

theorem norm_fadInt (z : ℂ) (t : ℝ) : ‖fadInt z t‖ = Real.exp (-t ^ 2 - 2 * z.im * t) := by
  unfold fadInt
  rw [norm_exp]
  congr 1
  have : -(t : ℂ) ^ 2 + 2 * I * z * t = ((-t ^ 2 : ℝ) : ℂ) + (2 * t : ℝ) * (I * z) := by push_cast; ring
  rw [this, add_re, ofReal_re, re_ofReal_mul]
  simp
  ring

theorem integrable_shifted (c : ℝ) : Integrable fun t : ℝ => Real.exp (-t ^ 2 + c * t) := by
  have h := ((integrable_exp_neg_mul_sq (b := 1) one_pos).comp_sub_right (c / 2)).const_mul (Real.exp (c ^ 2 / 4))
  refine h.congr (Eventually.of_forall fun t => ?_)
  simp only
  rw [← Real.exp_add]
  congr 1
  ring

theorem continuous_fadInt (z : ℂ) : Continuous (fadInt z) := by
  unfold fadInt
  fun_prop

theorem integrable_fadInt (z : ℂ) : Integrable (fadInt z) := by
  refine (integrable_shifted (-2 * z.im)).mono' (continuous_fadInt z).aestronglyMeasurable
    (Eventually.of_forall fun t => ?_)
  rw [norm_fadInt]
  exact le_of_eq (by congr 1; ring)

theorem hasDerivAt_fadInt_t (z : ℂ) (t : ℝ) :
    HasDerivAt (fadInt z) ((-2 * (t : ℂ) + 2 * I * z) * fadInt z t) t := by
  have h : HasDerivAt (fun t : ℝ => -(t : ℂ) ^ 2 + 2 * I * z * t) (-2 * (t : ℂ) + 2 * I * z) t := by
    have h1 : HasDerivAt (fun t : ℝ => (t : ℂ)) 1 t := by simpa using (hasDerivAt_id t).ofReal_comp
    refine (((h1.pow 2).neg).add (h1.const_mul (2 * I * z))).congr_deriv ?_
    simp
  refine h.cexp.congr_deriv ?_
  unfold fadInt
  ring

theorem tendsto_fadInt (z : ℂ) : Tendsto (fadInt z) atTop (nhds 0) := by
  rw [tendsto_zero_iff_norm_tendsto_zero]
  refine squeeze_zero' (g := fun t => Real.exp (-t)) (Eventually.of_forall fun t => norm_nonneg _) ?_
    (Real.tendsto_exp_atBot.comp tendsto_neg_atTop_atBot)
  filter_upwards [eventually_ge_atTop (1 + 2 * |z.im|)] with t ht
  rw [norm_fadInt]
  apply Real.exp_le_exp.mpr
  have h1 := neg_abs_le z.im
  have h2 := abs_nonneg z.im
  have ht0 : 0 ≤ t := by linarith
  nlinarith [mul_nonneg ht0 (sub_nonneg.mpr ht), mul_nonneg ht0 (show 0 ≤ z.im + |z.im| by linarith)]

theorem hasDerivAt_fadIntegral (z : ℂ) :
    IntegrableOn (fun t : ℝ => 2 * I * t * fadInt z t) (Ioi 0) ∧
    HasDerivAt (fun z => ∫ t in Ioi (0 : ℝ), fadInt z t) (∫ t in Ioi (0 : ℝ), 2 * I * t * fadInt z t) z := by
  refine hasDerivAt_integral_of_dominated_loc_of_deriv_le (μ := volume.restrict (Ioi 0))
    (F := fun z t => fadInt z t) (F' := fun z t => 2 * I * (t : ℂ) * fadInt z t)
    (bound := fun t : ℝ => 2 * Real.exp (-t ^ 2 + (2 * |z.im| + 3) * t)) (Metric.ball_mem_nhds z one_pos)
    (Eventually.of_forall fun z => (continuous_fadInt z).aestronglyMeasurable) (integrable_fadInt z).integrableOn
    ?_ ?_ ((integrable_shifted _).const_mul 2).integrableOn ?_
  · exact ((continuous_const.mul continuous_ofReal).mul (continuous_fadInt z)).aestronglyMeasurable
  · refine (ae_restrict_mem measurableSet_Ioi).mono fun t ht u hu => ?_
    have ht0 : (0 : ℝ) < t := ht
    have hi : |(u - z).im| ≤ 1 := (abs_im_le_norm _).trans (by rw [← dist_eq]; exact (Metric.mem_ball.mp hu).le)
    rw [sub_im] at hi
    have h1 : -(|z.im| + 1) ≤ u.im := by
      have := (abs_le.mp hi).1
      have := neg_abs_le z.im
      linarith
    rw [norm_mul, norm_mul, norm_mul, norm_fadInt]
    simp only [Complex.norm_ofNat, norm_I, norm_real, Real.norm_eq_abs, abs_of_pos ht0, mul_one]
    rw [mul_assoc]
    refine mul_le_mul_of_nonneg_left ?_ (by norm_num)
    have he : t ≤ Real.exp t := by linarith [Real.add_one_le_exp t]
    calc t * Real.exp (-t ^ 2 - 2 * u.im * t) ≤ Real.exp t * Real.exp (-t ^ 2 - 2 * u.im * t) :=
          mul_le_mul_of_nonneg_right he (Real.exp_pos _).le
      _ = Real.exp (t + (-t ^ 2 - 2 * u.im * t)) := (Real.exp_add _ _).symm
      _ ≤ _ := Real.exp_le_exp.mpr (by nlinarith [mul_le_mul_of_nonneg_right h1 ht0.le])
  · refine Eventually.of_forall fun t u _ => ?_
    have h : HasDerivAt (fun u : ℂ => -(t : ℂ) ^ 2 + 2 * I * u * t) (2 * I * t) u := by
      refine ((((hasDerivAt_id u).const_mul (2 * I)).mul_const (t : ℂ)).const_add _).congr_deriv ?_
      simp
    refine h.cexp.congr_deriv ?_
    unfold fadInt
    ring

/-- Integration by parts. -/
theorem fadIntegral_parts (z : ℂ) :
    ∫ t in Ioi (0 : ℝ), 2 * I * t * fadInt z t = I - 2 * z * ∫ t in Ioi (0 : ℝ), fadInt z t := by
  have hi := (hasDerivAt_fadIntegral z).1
  have hj : IntegrableOn (fun t => 2 * I * z * fadInt z t) (Ioi 0) := (integrable_fadInt z).integrableOn.const_mul _
  have hi' : IntegrableOn (fun t : ℝ => I * (2 * I * t * fadInt z t)) (Ioi 0) := hi.const_mul _
  have h := integral_Ioi_of_hasDerivAt_of_tendsto' (a := 0) (fun t _ => hasDerivAt_fadInt_t z t)
    ((hi'.add hj).congr (Eventually.of_forall fun t => by
      simp only [Pi.add_apply]
      linear_combination (2 * (t : ℂ) * fadInt z t) * I_mul_I)) (tendsto_fadInt z)
  have h0 : fadInt z 0 = 1 := by simp [fadInt]
  rw [h0] at h
  have e : ∫ t in Ioi (0 : ℝ), (-2 * (t : ℂ) + 2 * I * z) * fadInt z t =
      I * (∫ t in Ioi (0 : ℝ), 2 * I * t * fadInt z t) + 2 * I * z * ∫ t in Ioi (0 : ℝ), fadInt z t := by
    rw [← integral_const_mul, ← integral_const_mul, ← integral_add hi' hj]
    refine integral_congr_ae (Eventually.of_forall fun t => ?_)
    simp only
    linear_combination (-2 * (t : ℂ) * fadInt z t) * I_mul_I
  rw [e] at h
  linear_combination (-I) * h + ((∫ t in Ioi (0 : ℝ), 2 * I * t * fadInt z t) +
    2 * z * ∫ t in Ioi (0 : ℝ), fadInt z t) * I_mul_I

theorem fadIntegral_zero : ∫ t in Ioi (0 : ℝ), fadInt 0 t = ((Real.sqrt Real.pi / 2 : ℝ) : ℂ) := by
  have h := integral_gaussian_Ioi 1
  simp only [div_one] at h
  rw [← h, ← integral_complex_ofReal]
  refine integral_congr_ae (Eventually.of_forall fun t => ?_)
  simp [fadInt]

/-- `w(z) = 2/√π ∫₀^∞ exp(-t² + 2 i z t) dt`. -/
theorem IsFaddeeva.integral {w : ℂ → ℂ} (hw : IsFaddeeva w) (z : ℂ) :
    w z = ((2 / Real.sqrt Real.pi : ℝ) : ℂ) * ∫ t in Ioi (0 : ℝ), fadInt z t := by
  have hq : (0 : ℝ) < Real.sqrt Real.pi := Real.sqrt_pos.mpr Real.pi_pos
  have hqC : ((Real.sqrt Real.pi : ℝ) : ℂ) ≠ 0 := by exact_mod_cast hq.ne'
  have h : IsFaddeeva fun z => ((2 / Real.sqrt Real.pi : ℝ) : ℂ) * ∫ t in Ioi (0 : ℝ), fadInt z t := by
    refine ⟨fun z => ?_, ?_⟩
    · refine ((hasDerivAt_fadIntegral z).2.const_mul _).congr_deriv ?_
      rw [fadIntegral_parts]
      push_cast
      field_simp
      ring
    · rw [fadIntegral_zero, ← ofReal_mul]
      rw [show 2 / Real.sqrt Real.pi * (Real.sqrt Real.pi / 2) = 1 by field_simp]
      simp
  exact congrFun (hw.unique h) z

/-- The function is bounded by `1` in the upper half plane. -/
theorem IsFaddeeva.norm_le {w : ℂ → ℂ} (hw : IsFaddeeva w) {z : ℂ} (hz : 0 ≤ z.im) : ‖w z‖ ≤ 1 := by
  have hq : (0 : ℝ) < Real.sqrt Real.pi := Real.sqrt_pos.mpr Real.pi_pos
  have h := integral_gaussian_Ioi 1
  simp only [div_one] at h
  have hb : ‖∫ t in Ioi (0 : ℝ), fadInt z t‖ ≤ Real.sqrt Real.pi / 2 := by
    rw [← h]
    refine norm_integral_le_of_norm_le (integrable_exp_neg_mul_sq one_pos).integrableOn
      ((ae_restrict_mem measurableSet_Ioi).mono fun t ht => ?_)
    have ht0 : (0 : ℝ) < t := ht
    rw [norm_fadInt]
    apply Real.exp_le_exp.mpr
    nlinarith [mul_nonneg hz ht0.le]
  rw [hw.integral, norm_mul, norm_real, Real.norm_eq_abs, abs_of_pos (by positivity)]
  calc 2 / Real.sqrt Real.pi * ‖∫ t in Ioi (0 : ℝ), fadInt z t‖
      ≤ 2 / Real.sqrt Real.pi * (Real.sqrt Real.pi / 2) := mul_le_mul_of_nonneg_left hb (by positivity)
    _ = 1 := by field_simp

end Beam
end SixTrack
