import Mathlib.Analysis.SpecialFunctions.Gamma.Beta
import Mathlib.Analysis.SpecialFunctions.Gaussian.GaussianIntegral
import Mathlib.Analysis.SpecialFunctions.JapaneseBracket
import Mathlib.Probability.Distributions.Beta
import Mathlib.MeasureTheory.Integral.Prod

/-!
# The integrals behind the q-Gaussian distribution

Mathematical facts used by `Verif.Props.QGauss`; nothing here refers to the program.
-/

namespace SixTrack
namespace QG

open MeasureTheory Set

/-- `(1 + x²)⁻ˢ` can be integrated for `s > 1/2`. -/
theorem tail_integrable {s : ℝ} (hs : 1 / 2 < s) : Integrable fun x : ℝ => (1 + x ^ 2) ^ (-s) := by
  have h := integrable_rpow_neg_one_add_norm_sq (E := ℝ) (μ := volume) (r := 2 * s)
    (by simp; linarith)
  refine h.congr (Filter.Eventually.of_forall fun x => ?_)
  simp only [Real.norm_eq_abs, sq_abs]
  congr 1; ring

/-- `∫ (1 + x²)⁻ˢ dx = √π Γ(s - 1/2) / Γ(s)`. -/
theorem tail_integral {s : ℝ} (hs : 1 / 2 < s) :
    ∫ x : ℝ, (1 + x ^ 2) ^ (-s) = Real.sqrt Real.pi * Real.Gamma (s - 1 / 2) / Real.Gamma s := by
  have hs0 : 0 < s := by linarith
  have hG : 0 < Real.Gamma s := Real.Gamma_pos_of_pos hs0
  set f : ℝ → ℝ → ℝ := fun x t => t ^ (s - 1) * Real.exp (-((1 + x ^ 2) * t)) with hf
  have hin : ∀ x : ℝ, ∫ t in Ioi (0 : ℝ), f x t = Real.Gamma s * (1 + x ^ 2) ^ (-s) := by
    intro x
    have hx : 0 < 1 + x ^ 2 := by positivity
    rw [Real.integral_rpow_mul_exp_neg_mul_Ioi hs0 hx, one_div, Real.inv_rpow hx.le,
      Real.rpow_neg hx.le, mul_comm]
  have hint : ∀ x : ℝ, IntegrableOn (f x) (Ioi 0) := by
    intro x
    have h := integrableOn_rpow_mul_exp_neg_mul_rpow (s := s - 1) (p := 1) (b := 1 + x ^ 2)
      (by linarith) one_pos (by positivity)
    refine h.congr_fun (fun t _ => ?_) measurableSet_Ioi
    simp only [hf, Real.rpow_one]; congr 2; ring
  have hpos : ∀ x : ℝ, ∀ t ∈ Ioi (0 : ℝ), 0 ≤ f x t := by
    intro x t ht
    have := mem_Ioi.mp ht
    positivity
  have hm : AEStronglyMeasurable (Function.uncurry f)
      ((volume : Measure ℝ).prod (volume.restrict (Ioi (0 : ℝ)))) := by
    apply Measurable.aestronglyMeasurable
    simp only [Function.uncurry_def, hf]
    fun_prop
  have hprod : Integrable (Function.uncurry f)
      ((volume : Measure ℝ).prod (volume.restrict (Ioi (0 : ℝ)))) := by
    rw [integrable_prod_iff hm]
    refine ⟨Filter.Eventually.of_forall fun x => hint x, ?_⟩
    refine ((tail_integrable hs).const_mul (Real.Gamma s)).congr
      (Filter.Eventually.of_forall fun x => ?_)
    simp only
    rw [← hin x]
    refine setIntegral_congr_fun measurableSet_Ioi fun t ht => ?_
    simp only [Function.uncurry]
    rw [Real.norm_of_nonneg (hpos x t ht)]
  have hswap := integral_integral_swap hprod
  have hinner : ∀ t ∈ Ioi (0 : ℝ), ∫ x : ℝ, f x t =
      Real.sqrt Real.pi * (Real.exp (-t) * t ^ (s - 1 / 2 - 1)) := by
    intro t ht
    have ht : 0 < t := ht
    have h1 : ∀ x : ℝ, f x t = t ^ (s - 1) * Real.exp (-t) * Real.exp (-t * x ^ 2) := by
      intro x
      simp only [hf]
      rw [mul_assoc, ← Real.exp_add]; congr 2; ring
    simp_rw [h1]
    have h2 : t ^ (s - 1 / 2 - 1) = t ^ (s - 1) / Real.sqrt t := by
      rw [show s - 1 / 2 - 1 = (s - 1) - 1 / 2 by ring, Real.rpow_sub ht (s - 1), Real.sqrt_eq_rpow]
    rw [integral_const_mul, integral_gaussian, Real.sqrt_div Real.pi_pos.le, h2]
    ring
  have houter : ∫ t in Ioi (0 : ℝ), ∫ x : ℝ, f x t
      = Real.sqrt Real.pi * Real.Gamma (s - 1 / 2) := by
    rw [setIntegral_congr_fun measurableSet_Ioi hinner, integral_const_mul,
      Real.Gamma_eq_integral (by linarith : 0 < s - 1 / 2)]
  simp_rw [hin] at hswap
  rw [integral_const_mul] at hswap
  rw [eq_div_iff hG.ne', mul_comm, hswap, houter]

/-- `∫₀¹ u^(a-1) (1-u)^(b-1) du = Γ(a) Γ(b) / Γ(a+b)`. -/
theorem beta_integral {a b : ℝ} (ha : 0 < a) (hb : 0 < b) :
    ∫ u in (0 : ℝ)..1, u ^ (a - 1) * (1 - u) ^ (b - 1)
      = Real.Gamma a * Real.Gamma b / Real.Gamma (a + b) := by
  have h := Complex.betaIntegral_eq_Gamma_mul_div (a : ℂ) (b : ℂ) (by simpa) (by simpa)
  rw [Complex.betaIntegral] at h
  have h2 : ∫ u in (0 : ℝ)..1, (u : ℂ) ^ ((a : ℂ) - 1) * (1 - (u : ℂ)) ^ ((b : ℂ) - 1)
      = ((∫ u in (0 : ℝ)..1, u ^ (a - 1) * (1 - u) ^ (b - 1) : ℝ) : ℂ) := by
    rw [← intervalIntegral.integral_ofReal]
    refine intervalIntegral.integral_congr fun u hu => ?_
    rw [uIcc_of_le zero_le_one] at hu
    rw [Complex.ofReal_mul, Complex.ofReal_cpow hu.1, Complex.ofReal_cpow (by linarith [hu.2])]
    push_cast; rfl
  rw [h2, Complex.Gamma_ofReal, Complex.Gamma_ofReal, ← Complex.ofReal_add, Complex.Gamma_ofReal]
    at h
  exact_mod_cast h

/-- `∫₋₁¹ (1 - x²)^p dx = √π Γ(p + 1) / Γ(p + 3/2)`. -/
theorem cap_integral {p : ℝ} (hp : -1 < p) :
    ∫ x in (-1 : ℝ)..1, (1 - x ^ 2) ^ p
      = Real.sqrt Real.pi * Real.Gamma (p + 1) / Real.Gamma (p + 3 / 2) := by
  have h1 : ∫ x in (-1 : ℝ)..1, (1 - x ^ 2) ^ p
      = 2 * ∫ u in (0 : ℝ)..1, (1 - (2 * u - 1) ^ 2) ^ p := by
    have := intervalIntegral.integral_comp_mul_sub (a := 0) (b := 1)
      (fun x : ℝ => (1 - x ^ 2) ^ p) (c := 2) two_ne_zero 1
    rw [this, smul_eq_mul, ← mul_assoc, mul_inv_cancel₀ two_ne_zero, one_mul]; norm_num
  have h2 : ∫ u in (0 : ℝ)..1, (1 - (2 * u - 1) ^ 2) ^ p
      = (4 : ℝ) ^ p * ∫ u in (0 : ℝ)..1, u ^ (p + 1 - 1) * (1 - u) ^ (p + 1 - 1) := by
    rw [← intervalIntegral.integral_const_mul]
    refine intervalIntegral.integral_congr fun u hu => ?_
    rw [uIcc_of_le zero_le_one] at hu
    have h1u : 0 ≤ 1 - u := by linarith [hu.2]
    rw [show 1 - (2 * u - 1) ^ 2 = 4 * (u * (1 - u)) by ring,
      Real.mul_rpow (by norm_num) (mul_nonneg hu.1 h1u), Real.mul_rpow hu.1 h1u,
      add_sub_cancel_right]
  have hp1 : 0 < p + 1 := by linarith
  have hd := Real.Gamma_mul_Gamma_add_half (p + 1)
  have hG1 := Real.Gamma_pos_of_pos hp1
  have hG2 := Real.Gamma_pos_of_pos (show 0 < p + 3 / 2 by linarith)
  have hG3 := Real.Gamma_pos_of_pos (show 0 < 2 * (p + 1) by linarith)
  rw [show p + 1 + 1 / 2 = p + 3 / 2 by ring] at hd
  have h4 : (4 : ℝ) ^ p * 2 * (2 : ℝ) ^ (1 - 2 * (p + 1)) = 1 := by
    rw [show (4 : ℝ) = (2 : ℝ) ^ (2 : ℝ) by norm_num, ← Real.rpow_mul (by norm_num),
      show (2 : ℝ) ^ (2 * p) * 2 = (2 : ℝ) ^ (2 * p + 1) by
        rw [Real.rpow_add (by norm_num), Real.rpow_one], ← Real.rpow_add (by norm_num)]
    rw [show 2 * p + 1 + (1 - 2 * (p + 1)) = 0 by ring, Real.rpow_zero]
  rw [h1, h2, beta_integral hp1 hp1, eq_div_iff hG2.ne',
    show p + 1 + (p + 1) = 2 * (p + 1) by ring]
  rw [mul_div_assoc', mul_div_assoc', div_mul_eq_mul_div, div_eq_iff hG3.ne']
  calc 2 * ((4 : ℝ) ^ p * (Real.Gamma (p + 1) * Real.Gamma (p + 1))) * Real.Gamma (p + 3 / 2)
      = (4 : ℝ) ^ p * 2 * Real.Gamma (p + 1) * (Real.Gamma (p + 1) * Real.Gamma (p + 3 / 2)) := by
        ring
    _ = ((4 : ℝ) ^ p * 2 * (2 : ℝ) ^ (1 - 2 * (p + 1))) *
          (Real.sqrt Real.pi * Real.Gamma (p + 1) * Real.Gamma (2 * (p + 1))) := by
        rw [hd]; ring
    _ = _ := by rw [h4, one_mul]

end QG
end SixTrack
