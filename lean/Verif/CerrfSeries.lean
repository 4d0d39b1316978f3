import Verif.CerrfLoops
import Mathlib.Analysis.Complex.Exponential
import Mathlib.Analysis.Calculus.Deriv.MeanValue

/-!
# The error of the series in the first branch of `cerrf`
-/

namespace SixTrack
namespace Beam

open Complex MeasureTheory Set Filter

/-! ### The rest of the exponential series -/

theorem hasDerivAt_expSum (n : ℕ) (t : ℝ) :
    HasDerivAt (fun t : ℝ => ∑ m ∈ Finset.range (n + 1), t ^ m / (m.factorial : ℝ))
      (∑ m ∈ Finset.range n, t ^ m / (m.factorial : ℝ)) t := by
  induction n with
  | zero =>
    simp only [zero_add, Finset.range_one, Finset.sum_singleton, pow_zero, Finset.range_zero, Finset.sum_empty]
    exact hasDerivAt_const _ _
  | succ n ih =>
    have h : HasDerivAt (fun t : ℝ => t ^ (n + 1) / ((n + 1).factorial : ℝ)) (t ^ n / (n.factorial : ℝ)) t := by
      refine (((hasDerivAt_id t).pow (n + 1)).div_const _).congr_deriv ?_
      have : (n.factorial : ℝ) ≠ 0 := by exact_mod_cast n.factorial_ne_zero
      simp only [id, Nat.factorial_succ, Nat.cast_mul, Nat.cast_add, Nat.cast_one, Nat.add_sub_cancel]
      field_simp
    have h2 := ih.add h
    refine (h2.congr_deriv (Finset.sum_range_succ _ _).symm).congr_of_eventuallyEq ?_
    refine Eventually.of_forall fun s => ?_
    simp only [Pi.add_apply]
    rw [Finset.sum_range_succ _ (n + 1)]

theorem exp_rest_le {θ : ℝ} (hθ : 1 ≤ θ) : ∀ (n : ℕ) {t : ℝ}, 0 ≤ t →
    Real.exp t - ∑ m ∈ Finset.range n, t ^ m / (m.factorial : ℝ) ≤ Real.exp (θ * t) / θ ^ n := by
  intro n
  have h0 : 0 < θ := by linarith
  induction n with
  | zero =>
    intro t ht
    simp only [Finset.range_zero, Finset.sum_empty, sub_zero, pow_zero, div_one]
    apply Real.exp_le_exp.mpr
    nlinarith
  | succ n ih =>
    intro t ht
    set f : ℝ → ℝ := fun t => Real.exp (θ * t) / θ ^ (n + 1) -
      (Real.exp t - ∑ m ∈ Finset.range (n + 1), t ^ m / (m.factorial : ℝ)) with hf
    have hd : ∀ s, HasDerivAt f (Real.exp (θ * s) / θ ^ n -
        (Real.exp s - ∑ m ∈ Finset.range n, s ^ m / (m.factorial : ℝ))) s := by
      intro s
      have h1 : HasDerivAt (fun s => Real.exp (θ * s) / θ ^ (n + 1)) (Real.exp (θ * s) / θ ^ n) s := by
        refine ((((hasDerivAt_id s).const_mul θ).exp).div_const (θ ^ (n + 1))).congr_deriv ?_
        simp only [id, mul_one]
        rw [pow_succ]
        field_simp
      exact h1.sub ((Real.hasDerivAt_exp s).sub (hasDerivAt_expSum n s))
    have hm : MonotoneOn f (Ici 0) := by
      refine monotoneOn_of_deriv_nonneg (convex_Ici 0)
        (fun s _ => (hd s).continuousAt.continuousWithinAt)
        (fun s _ => (hd s).differentiableAt.differentiableWithinAt) fun s hs => ?_
      rw [interior_Ici] at hs
      rw [(hd s).deriv]
      have := ih (le_of_lt hs)
      linarith
    have h1 := hm (mem_Ici.mpr le_rfl) (mem_Ici.mpr ht) ht
    have h2 : 0 ≤ f 0 := by
      simp only [hf, mul_zero, Real.exp_zero]
      rw [Finset.sum_range_succ']
      simp
      positivity
    have h3 : 0 ≤ f t := h2.trans h1
    simp only [hf] at h3
    linarith

theorem norm_exp_rest_le {θ : ℝ} (hθ : 1 ≤ θ) (n : ℕ) (z : ℂ) :
    ‖Complex.exp z - ∑ m ∈ Finset.range n, z ^ m / (m.factorial : ℂ)‖ ≤ Real.exp (θ * ‖z‖) / θ ^ n :=
  (norm_exp_sub_sum_le_exp_norm_sub_sum z n).trans (exp_rest_le hθ n (norm_nonneg z))

/-! ### Gaussian integrals over the half line -/

theorem half_gauss_le {a b b' : ℝ} (ha : 0 < a) (hb : b ≤ b') :
    ∫ s in Ioi (0 : ℝ), Real.exp (-a * s ^ 2 + 2 * b * s) ≤ Real.sqrt (Real.pi / a) * Real.exp (b' ^ 2 / a) := by
  have hi := integrable_gauss_lin ha (2 * b')
  have h1 : ∫ s in Ioi (0 : ℝ), Real.exp (-a * s ^ 2 + 2 * b * s) ≤ ∫ s in Ioi (0 : ℝ), Real.exp (-a * s ^ 2 + 2 * b' * s) := by
    refine setIntegral_mono_on (integrable_gauss_lin ha (2 * b)).integrableOn hi.integrableOn measurableSet_Ioi
      fun s hs => Real.exp_le_exp.mpr ?_
    have : (0 : ℝ) < s := hs
    nlinarith
  have h2 : ∫ s in Ioi (0 : ℝ), Real.exp (-a * s ^ 2 + 2 * b' * s) ≤ ∫ s : ℝ, Real.exp (-a * s ^ 2 + 2 * b' * s) :=
    setIntegral_le_integral hi (Eventually.of_forall fun s => (Real.exp_pos _).le)
  have h3 : ∫ s : ℝ, Real.exp (-a * s ^ 2 + 2 * b' * s) = Real.sqrt (Real.pi / a) * Real.exp (b' ^ 2 / a) := by
    have e : ∀ s : ℝ, Real.exp (-a * s ^ 2 + 2 * b' * s) = Real.exp (b' ^ 2 / a) * Real.exp (-a * (s - b' / a) ^ 2) := by
      intro s
      rw [← Real.exp_add]
      congr 1
      field_simp
      ring
    simp_rw [e]
    rw [integral_const_mul, integral_sub_right_eq_self (fun s => Real.exp (-a * s ^ 2)) (b' / a), integral_gaussian,
      mul_comm]
  linarith

/-- The moment in the exponential form. -/
theorem norm_ray_le' {c : ℂ} (hc : 0 < (c ^ 2).re) (h1 : ‖c‖ = 1) {n : ℕ} {u : ℂ} {μ β b' : ℝ} (hμ : 0 < μ)
    (hβ : β ≤ (u * c).re) (hb : μ - β ≤ b') :
    ‖ray c n u‖ ≤ (n / (2 * μ)) ^ n * Real.exp (-n) * (Real.sqrt (Real.pi / (c ^ 2).re) * Real.exp (b' ^ 2 / (c ^ 2).re)) := by
  have hpow : ∀ s : ℝ, 0 ≤ s → s ^ n ≤ (n / (2 * μ)) ^ n * Real.exp (-n) * Real.exp (2 * μ * s) := by
    intro s hs
    rcases Nat.eq_zero_or_pos n with rfl | hn
    · simp
      positivity
    · have hn' : (0 : ℝ) < n := by exact_mod_cast hn
      have h2 : 2 * μ * s / n ≤ Real.exp (2 * μ * s / n - 1) := by
        have := Real.add_one_le_exp (2 * μ * s / n - 1)
        linarith
      have h3 : (2 * μ * s / n) ^ n ≤ Real.exp (2 * μ * s / n - 1) ^ n := pow_le_pow_left₀ (by positivity) h2 n
      rw [← Real.exp_nat_mul, show (n : ℝ) * (2 * μ * s / n - 1) = -n + 2 * μ * s by field_simp; ring, Real.exp_add] at h3
      calc s ^ n = (n / (2 * μ)) ^ n * (2 * μ * s / n) ^ n := by
            rw [← mul_pow]
            congr 1
            field_simp
        _ ≤ (n / (2 * μ)) ^ n * (Real.exp (-n) * Real.exp (2 * μ * s)) :=
            mul_le_mul_of_nonneg_left h3 (by positivity)
        _ = _ := by ring
  have hK : 0 ≤ (n / (2 * μ)) ^ n * Real.exp (-n) := by positivity
  refine le_trans ?_ (mul_le_mul_of_nonneg_left (half_gauss_le hc hb) hK)
  rw [← integral_const_mul]
  refine norm_integral_le_of_norm_le ((integrable_gauss_lin hc _).const_mul _).integrableOn
    ((ae_restrict_mem measurableSet_Ioi).mono fun s hs => ?_)
  have hs0 : (0 : ℝ) < s := hs
  rw [norm_rayInt, h1, one_pow, one_mul, abs_of_pos hs0]
  calc s ^ n * Real.exp (-(c ^ 2).re * s ^ 2 - 2 * (u * c).re * s)
      ≤ ((n / (2 * μ)) ^ n * Real.exp (-n) * Real.exp (2 * μ * s)) * Real.exp (-(c ^ 2).re * s ^ 2 - 2 * β * s) := by
        refine mul_le_mul (hpow s hs0.le) (Real.exp_le_exp.mpr ?_) (Real.exp_pos _).le (by positivity)
        nlinarith
    _ = _ := by
        rw [mul_assoc _ (Real.exp (2 * μ * s)), ← Real.exp_add]
        congr 2
        ring

/-! ### The series -/

/-- The rest of the series of `w(z)` around the point which lies higher by `η`. -/
theorem series_rest {c : ℂ} (hc : 0 < (c ^ 2).re) (hre : 0 < c.re) (h1 : ‖c‖ = 1) (N : ℕ) {u : ℂ} {η θ b' : ℝ}
    (hη : 0 ≤ η) (hθ : 1 ≤ θ) (hb : θ * η - ((u + η) * c).re ≤ b') :
    ‖mom u 0 - ∑ m ∈ Finset.range N, ((2 * η) ^ m : ℝ) * mom (u + η) m‖ ≤
      Real.sqrt (Real.pi / (c ^ 2).re) * Real.exp (b' ^ 2 / (c ^ 2).re) / θ ^ N := by
  set U := u + (η : ℂ) with hU
  have e0 : mom u 0 = ray c 0 u := by rw [ray_eq hc hre]; simp [mom]
  have e1 : ∀ m, mom U m = ∫ s in Ioi (0 : ℝ), rayInt c m U s / (m.factorial : ℂ) := by
    intro m
    rw [mom, ← ray_eq hc hre, ray, integral_div]
  have ii : ∀ m, IntegrableOn (fun s => ((2 * η) ^ m : ℝ) * (rayInt c m U s / (m.factorial : ℂ))) (Ioi 0) := fun m =>
    ((integrableOn_rayInt hc m U).div_const _).const_mul _
  have e2 : ∑ m ∈ Finset.range N, ((2 * η) ^ m : ℝ) * mom U m =
      ∫ s in Ioi (0 : ℝ), ∑ m ∈ Finset.range N, ((2 * η) ^ m : ℝ) * (rayInt c m U s / (m.factorial : ℂ)) := by
    rw [integral_finsetSum _ fun m _ => ii m]
    refine Finset.sum_congr rfl fun m _ => ?_
    rw [e1, integral_const_mul]
  have e3 : ∀ s : ℝ, rayInt c 0 u s - ∑ m ∈ Finset.range N, ((2 * η) ^ m : ℝ) * (rayInt c m U s / (m.factorial : ℂ)) =
      rayInt c 0 U s * (Complex.exp (2 * η * c * s) - ∑ m ∈ Finset.range N, (2 * η * c * s) ^ m / (m.factorial : ℂ)) := by
    intro s
    rw [mul_sub, Finset.mul_sum]
    congr 1
    · unfold rayInt
      rw [mul_assoc (c ^ (0 + 1) * (s : ℂ) ^ 0) _ (Complex.exp (2 * η * c * s)), ← Complex.exp_add, hU]
      congr 2
      ring
    · refine Finset.sum_congr rfl fun m _ => ?_
      unfold rayInt
      push_cast
      ring
  rw [e0, e2, ray, ← integral_sub (integrableOn_rayInt hc 0 u) (integrable_finsetSum _ fun m _ => ii m)]
  have hp : (0 : ℝ) < θ ^ N := by positivity
  have key : ‖∫ s in Ioi (0 : ℝ), (rayInt c 0 u s -
      ∑ m ∈ Finset.range N, ((2 * η) ^ m : ℝ) * (rayInt c m U s / (m.factorial : ℂ)))‖ ≤
      ∫ s in Ioi (0 : ℝ), Real.exp (-(c ^ 2).re * s ^ 2 + 2 * (θ * η - (U * c).re) * s) / θ ^ N := by
    refine norm_integral_le_of_norm_le ((integrable_gauss_lin hc _).div_const _).integrableOn
      ((ae_restrict_mem measurableSet_Ioi).mono fun s hs => ?_)
    have hs0 : (0 : ℝ) < s := hs
    rw [e3, norm_mul, norm_rayInt, h1, one_pow, pow_zero, one_mul, one_mul]
    have h2 := norm_exp_rest_le hθ N (2 * η * c * s)
    have e4 : ‖(2 * η * c * s : ℂ)‖ = 2 * η * s := by
      rw [norm_mul, norm_mul, norm_mul, h1, Complex.norm_ofNat, norm_real, norm_real, Real.norm_eq_abs, Real.norm_eq_abs,
        abs_of_nonneg hη, abs_of_pos hs0, mul_one]
    rw [e4] at h2
    refine (mul_le_mul_of_nonneg_left h2 (Real.exp_pos _).le).trans (le_of_eq ?_)
    rw [← mul_div_assoc, ← Real.exp_add]
    congr 2
    ring
  refine key.trans ?_
  rw [integral_div]
  exact div_le_div_of_nonneg_right (half_gauss_le hc hb) hp.le

end Beam
end SixTrack
