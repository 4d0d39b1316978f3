import Verif.FaddeevaInt
import Mathlib.Analysis.SpecialFunctions.ImproperIntegrals
import Mathlib.Analysis.SpecialFunctions.Gamma.Basic
import Mathlib.Analysis.SpecialFunctions.Complex.Arg

/-!
# Moments of the integral of the complex error function along a ray

`∫ tⁿ exp(-t² - 2 u t) dt` along the ray through `c` with `Re c² > 0`, `u = -i z`: the recursion which the
continued fraction of `cerrf` solves, and bounds.
-/

namespace SixTrack
namespace Beam

open Complex MeasureTheory Set Filter

/-- The integrand, `t = c s`. -/
noncomputable def rayInt (c : ℂ) (n : ℕ) (u : ℂ) (s : ℝ) : ℂ :=
  c ^ (n + 1) * (s : ℂ) ^ n * exp (-(c ^ 2) * (s : ℂ) ^ 2 - 2 * u * c * s)

/-- The moment. -/
noncomputable def ray (c : ℂ) (n : ℕ) (u : ℂ) : ℂ := ∫ s in Ioi (0 : ℝ), rayInt c n u s

theorem norm_rayInt (c : ℂ) (n : ℕ) (u : ℂ) (s : ℝ) :
    ‖rayInt c n u s‖ = ‖c‖ ^ (n + 1) * |s| ^ n * Real.exp (-(c ^ 2).re * s ^ 2 - 2 * (u * c).re * s) := by
  unfold rayInt
  rw [norm_mul, norm_mul, norm_pow, norm_pow, norm_real, Real.norm_eq_abs, norm_exp]
  congr 2
  have : -(c ^ 2) * (s : ℂ) ^ 2 - 2 * u * c * s = ((s ^ 2 : ℝ) : ℂ) * (-(c ^ 2)) - ((2 * s : ℝ) : ℂ) * (u * c) := by
    push_cast; ring
  rw [this, sub_re, re_ofReal_mul, re_ofReal_mul, neg_re]
  ring

theorem continuous_rayInt (c : ℂ) (n : ℕ) (u : ℂ) : Continuous (rayInt c n u) := by
  unfold rayInt
  fun_prop

theorem integrable_gauss_lin {a : ℝ} (ha : 0 < a) (b : ℝ) : Integrable fun t : ℝ => Real.exp (-a * t ^ 2 + b * t) := by
  have h := ((integrable_exp_neg_mul_sq (b := a) ha).comp_sub_right (b / (2 * a))).const_mul
    (Real.exp (b ^ 2 / (4 * a)))
  refine h.congr (Eventually.of_forall fun t => ?_)
  simp only
  rw [← Real.exp_add]
  congr 1
  field_simp
  ring

theorem pow_le_exp (n : ℕ) {s : ℝ} (hs : 0 ≤ s) : s ^ n ≤ n.factorial * Real.exp s := by
  have h := Real.pow_div_factorial_le_exp s hs n
  have : (0 : ℝ) < n.factorial := by exact_mod_cast n.factorial_pos
  rwa [div_le_iff₀ this, mul_comm] at h

/-- A bound which is integrable. -/
theorem norm_rayInt_le {c : ℂ} (n : ℕ) {u : ℂ} {s b : ℝ} (hs : 0 ≤ s) (hb : -(2 * (u * c).re) ≤ b) :
    ‖rayInt c n u s‖ ≤ ‖c‖ ^ (n + 1) * n.factorial * Real.exp (-(c ^ 2).re * s ^ 2 + (b + 1) * s) := by
  rw [norm_rayInt, abs_of_nonneg hs, mul_assoc (‖c‖ ^ (n + 1)), mul_assoc (‖c‖ ^ (n + 1))]
  refine mul_le_mul_of_nonneg_left ?_ (pow_nonneg (norm_nonneg c) _)
  calc s ^ n * Real.exp (-(c ^ 2).re * s ^ 2 - 2 * (u * c).re * s)
      ≤ (n.factorial * Real.exp s) * Real.exp (-(c ^ 2).re * s ^ 2 + b * s) := by
        refine mul_le_mul (pow_le_exp n hs) (Real.exp_le_exp.mpr ?_) (Real.exp_pos _).le (by positivity)
        nlinarith [mul_le_mul_of_nonneg_right hb hs]
    _ = _ := by
        rw [mul_assoc, ← Real.exp_add]
        congr 2
        ring

theorem integrableOn_rayInt {c : ℂ} (hc : 0 < (c ^ 2).re) (n : ℕ) (u : ℂ) :
    IntegrableOn (rayInt c n u) (Ioi 0) := by
  refine Integrable.mono' ((integrable_gauss_lin hc (-(2 * (u * c).re) + 1)).const_mul
    (‖c‖ ^ (n + 1) * n.factorial)).integrableOn (continuous_rayInt c n u).aestronglyMeasurable
    ((ae_restrict_mem measurableSet_Ioi).mono fun s hs => norm_rayInt_le n (le_of_lt hs) le_rfl)

theorem tendsto_rayInt {c : ℂ} (hc : 0 < (c ^ 2).re) (n : ℕ) (u : ℂ) : Tendsto (rayInt c n u) atTop (nhds 0) := by
  rw [tendsto_zero_iff_norm_tendsto_zero]
  set a := (c ^ 2).re with ha
  set b := -(2 * (u * c).re) + 1 with hb
  refine squeeze_zero' (g := fun t => (‖c‖ ^ (n + 1) * n.factorial) * Real.exp (-t))
    (Eventually.of_forall fun t => norm_nonneg _) ?_ ?_
  · filter_upwards [eventually_ge_atTop ((1 + |b|) / a), eventually_ge_atTop 0] with t ht ht0
    refine (norm_rayInt_le n ht0 le_rfl).trans (mul_le_mul_of_nonneg_left (Real.exp_le_exp.mpr ?_) (by positivity))
    rw [div_le_iff₀ hc] at ht
    rw [← ha, ← hb]
    have h1 := le_abs_self b
    nlinarith [mul_le_mul_of_nonneg_right ht ht0, mul_le_mul_of_nonneg_right h1 ht0]
  · have := (Real.tendsto_exp_atBot.comp tendsto_neg_atTop_atBot).const_mul (‖c‖ ^ (n + 1) * (n.factorial : ℝ))
    simpa using this

theorem hasDerivAt_rayExp (c u : ℂ) (s : ℝ) :
    HasDerivAt (fun s : ℝ => exp (-(c ^ 2) * (s : ℂ) ^ 2 - 2 * u * c * s))
      (exp (-(c ^ 2) * (s : ℂ) ^ 2 - 2 * u * c * s) * (-2 * c ^ 2 * s - 2 * u * c)) s := by
  have h1 : HasDerivAt (fun t : ℝ => (t : ℂ)) 1 s := by simpa using (hasDerivAt_id s).ofReal_comp
  have h : HasDerivAt (fun s : ℝ => -(c ^ 2) * (s : ℂ) ^ 2 - 2 * u * c * s) (-2 * c ^ 2 * s - 2 * u * c) s := by
    refine (((h1.pow 2).const_mul (-(c ^ 2))).sub (h1.const_mul (2 * u * c))).congr_deriv ?_
    simp only [Nat.cast_ofNat]
    ring
  exact h.cexp

/-- Integration by parts. -/
theorem ray_succ {c : ℂ} (hc : 0 < (c ^ 2).re) (n : ℕ) (u : ℂ) :
    2 * ray c (n + 2) u + 2 * u * ray c (n + 1) u = (n + 1) * ray c n u := by
  have i0 := integrableOn_rayInt hc n u
  have i1 := integrableOn_rayInt hc (n + 1) u
  have i2 := integrableOn_rayInt hc (n + 2) u
  have h := integral_Ioi_of_hasDerivAt_of_tendsto' (a := 0) (m := 0)
    (f := rayInt c (n + 1) u)
    (f' := fun s => c * (((n : ℂ) + 1) * rayInt c n u s - (2 * rayInt c (n + 2) u s + 2 * u * rayInt c (n + 1) u s)))
    (fun s _ => ?_) (((i0.const_mul _).sub ((i2.const_mul _).add (i1.const_mul _))).const_mul c)
    (tendsto_rayInt hc _ u)
  · have e0 : rayInt c (n + 1) u 0 = 0 := by simp [rayInt]
    have e1 : ∫ s in Ioi (0 : ℝ), (((n : ℂ) + 1) * rayInt c n u s -
        (2 * rayInt c (n + 2) u s + 2 * u * rayInt c (n + 1) u s)) =
        ((n : ℂ) + 1) * ray c n u - (2 * ray c (n + 2) u + 2 * u * ray c (n + 1) u) := by
      have j2 : IntegrableOn (fun s => 2 * rayInt c (n + 2) u s + 2 * u * rayInt c (n + 1) u s) (Ioi 0) :=
        (i2.const_mul _).add (i1.const_mul _)
      unfold ray
      rw [integral_sub (i0.const_mul _) j2, integral_add (i2.const_mul _) (i1.const_mul _), integral_const_mul,
        integral_const_mul, integral_const_mul]
    rw [e0, sub_zero, integral_const_mul, e1] at h
    have hc0 : c ≠ 0 := by rintro rfl; simp at hc
    have h2 := (mul_eq_zero.mp h).resolve_left hc0
    linear_combination -h2
  · have h1 : HasDerivAt (fun t : ℝ => (t : ℂ)) 1 s := by simpa using (hasDerivAt_id s).ofReal_comp
    refine (((h1.pow (n + 1)).const_mul (c ^ (n + 1 + 1))).mul (hasDerivAt_rayExp c u s)).congr_deriv ?_
    simp only [rayInt, Nat.cast_add, Nat.cast_one, Nat.add_sub_cancel, Pi.pow_apply]
    ring

theorem ray_one {c : ℂ} (hc : 0 < (c ^ 2).re) (u : ℂ) : 2 * ray c 1 u + 2 * u * ray c 0 u = 1 := by
  have i0 := integrableOn_rayInt hc 0 u
  have i1 := integrableOn_rayInt hc 1 u
  have hc0 : c ≠ 0 := by rintro rfl; simp at hc
  have h := integral_Ioi_of_hasDerivAt_of_tendsto' (a := 0) (m := 0)
    (f := rayInt c 0 u)
    (f' := fun s => -c * (2 * rayInt c 1 u s + 2 * u * rayInt c 0 u s))
    (fun s _ => ?_) (((i1.const_mul _).add (i0.const_mul _)).const_mul (-c))
    (tendsto_rayInt hc _ u)
  · have e0 : rayInt c 0 u 0 = c := by simp [rayInt]
    rw [e0, integral_const_mul, integral_add (i1.const_mul _) (i0.const_mul _), integral_const_mul,
      integral_const_mul] at h
    have h2 : -c * (2 * ray c 1 u + 2 * u * ray c 0 u - 1) = 0 := by
      unfold ray
      linear_combination h
    have := (mul_eq_zero.mp h2).resolve_left (neg_ne_zero.mpr hc0)
    linear_combination this
  · refine ((hasDerivAt_rayExp c u s).const_mul c).congr_deriv ?_ |>.congr_of_eventuallyEq ?_
    · simp only [rayInt]
      ring
    · refine Eventually.of_forall fun s => ?_
      simp [rayInt]

theorem hasDerivAt_ray {c : ℂ} (hc : 0 < (c ^ 2).re) (n : ℕ) (u : ℂ) :
    HasDerivAt (ray c n) (-2 * ray c (n + 1) u) u := by
  have hd := (hasDerivAt_integral_of_dominated_loc_of_deriv_le (μ := volume.restrict (Ioi 0))
    (F := fun u s => rayInt c n u s) (F' := fun u s => -2 * rayInt c (n + 1) u s)
    (bound := fun s : ℝ => 2 * ((‖c‖ ^ (n + 2) * (n + 1).factorial) *
      Real.exp (-(c ^ 2).re * s ^ 2 + (2 * ((‖u‖ + 1) * ‖c‖) + 1) * s))) (Metric.ball_mem_nhds u one_pos)
    (Eventually.of_forall fun u => (continuous_rayInt c n u).aestronglyMeasurable) (integrableOn_rayInt hc n u)
    ((continuous_const.mul (continuous_rayInt c (n + 1) u)).aestronglyMeasurable) ?_
    (((integrable_gauss_lin hc _).const_mul _).const_mul _).integrableOn ?_).2
  · refine hd.congr_deriv ?_
    rw [integral_const_mul]
    rfl
  · refine (ae_restrict_mem measurableSet_Ioi).mono fun s hs v hv => ?_
    have hs0 : (0 : ℝ) < s := hs
    rw [norm_mul, norm_neg, Complex.norm_ofNat]
    refine mul_le_mul_of_nonneg_left (norm_rayInt_le (n + 1) hs0.le ?_) (by norm_num)
    have h1 : ‖v‖ ≤ ‖u‖ + 1 := by
      have : ‖v - u‖ < 1 := by rw [← dist_eq]; exact Metric.mem_ball.mp hv
      have h2 := norm_add_le (v - u) u
      rw [sub_add_cancel] at h2
      linarith
    have h3 := neg_abs_le (v * c).re
    have h4 := abs_re_le_norm (v * c)
    rw [norm_mul] at h4
    have h5 := mul_le_mul_of_nonneg_right h1 (norm_nonneg c)
    linarith
  · refine Eventually.of_forall fun s v _ => ?_
    have h : HasDerivAt (fun v : ℂ => -(c ^ 2) * (s : ℂ) ^ 2 - 2 * v * c * s) (-2 * c * s) v := by
      refine (((((hasDerivAt_id v).const_mul 2).mul_const c).mul_const (s : ℂ)).const_sub _).congr_deriv ?_
      ring
    refine (h.cexp.const_mul (c ^ (n + 1) * (s : ℂ) ^ n)).congr_deriv ?_
    unfold rayInt
    ring

theorem ray_zero {c : ℂ} (hc : 0 < (c ^ 2).re) (h0 : 0 < c.re) : ray c 0 0 = ((Real.sqrt Real.pi / 2 : ℝ) : ℂ) := by
  have hc0 : c ≠ 0 := by rintro rfl; simp at hc
  have h := integral_gaussian_complex_Ioi hc
  have e : ray c 0 0 = c * ∫ x : ℝ in Ioi 0, cexp (-(c ^ 2) * (x : ℂ) ^ 2) := by
    rw [← integral_const_mul]
    refine integral_congr_ae (Eventually.of_forall fun s => ?_)
    simp [rayInt]
  rw [e, h]
  have h1 : ((Real.pi : ℂ) / c ^ 2) ^ (1 / 2 : ℂ) = (Real.sqrt Real.pi : ℝ) / c := by
    have e1 : (Real.pi : ℂ) / c ^ 2 = (((Real.sqrt Real.pi : ℝ) : ℂ) / c) ^ 2 := by
      rw [div_pow, ← ofReal_pow, Real.sq_sqrt Real.pi_pos.le]
    rw [e1, show (1 / 2 : ℂ) = ((2 : ℕ) : ℂ)⁻¹ by norm_num]
    refine Complex.pow_cpow_nat_inv two_ne_zero ?_ ?_ <;>
    · have hq : 0 < Real.sqrt Real.pi := Real.sqrt_pos.mpr Real.pi_pos
      have hre : 0 < (((Real.sqrt Real.pi : ℝ) : ℂ) / c).re := by
        rw [div_re]
        simp only [ofReal_re, ofReal_im, zero_mul, zero_div, add_zero]
        have := normSq_pos.mpr hc0
        positivity
      have := abs_arg_lt_pi_div_two_iff.mpr (Or.inl hre)
      have h2 := abs_lt.mp this
      first | exact h2.1 | exact h2.2.le
  rw [h1]
  push_cast
  field_simp

/-- `w(z)` as an integral along any ray on which the integrand decays. -/
theorem IsFaddeeva.ray {w : ℂ → ℂ} (hw : IsFaddeeva w) {c : ℂ} (hc : 0 < (c ^ 2).re) (h0 : 0 < c.re) (z : ℂ) :
    w z = ((2 / Real.sqrt Real.pi : ℝ) : ℂ) * ray c 0 (-I * z) := by
  have hq : (0 : ℝ) < Real.sqrt Real.pi := Real.sqrt_pos.mpr Real.pi_pos
  have hqC : ((Real.sqrt Real.pi : ℝ) : ℂ) ≠ 0 := by exact_mod_cast hq.ne'
  have h : IsFaddeeva fun z => ((2 / Real.sqrt Real.pi : ℝ) : ℂ) * Beam.ray c 0 (-I * z) := by
    refine ⟨fun z => ?_, ?_⟩
    · have hl : HasDerivAt (fun z : ℂ => -I * z) (-I) z := by simpa using (hasDerivAt_id z).const_mul (-I)
      refine (((hasDerivAt_ray hc 0 (-I * z)).comp z hl).const_mul _).congr_deriv ?_
      have h1 := ray_one hc (-I * z)
      push_cast
      have e : -2 * Beam.ray c (0 + 1) (-I * z) * -I = I - 2 * z * Beam.ray c 0 (-I * z) := by
        linear_combination I * h1 + 2 * z * Beam.ray c 0 (-I * z) * I_mul_I
      rw [e]
      field_simp
      ring
    · simp only [mul_zero]
      rw [ray_zero hc h0, ← ofReal_mul]
      rw [show 2 / Real.sqrt Real.pi * (Real.sqrt Real.pi / 2) = 1 by field_simp]
      simp
  exact congrFun (hw.unique h) z

/-- The moments do not depend on the ray. -/
theorem ray_eq {c : ℂ} (hc : 0 < (c ^ 2).re) (h0 : 0 < c.re) (u : ℂ) : ∀ n, ray c n u = ray 1 n u := by
  obtain ⟨w, hw⟩ := exists_faddeeva
  have hq : (0 : ℝ) < Real.sqrt Real.pi := Real.sqrt_pos.mpr Real.pi_pos
  have e0 : ray c 0 u = ray 1 0 u := by
    have h1 := hw.ray hc h0 (I * u)
    have h2 := hw.ray (c := 1) (by simp) (by simp) (I * u)
    rw [h1] at h2
    have hk : ((2 / Real.sqrt Real.pi : ℝ) : ℂ) ≠ 0 := by
      rw [Ne, ofReal_eq_zero]; positivity
    have := mul_left_cancel₀ hk h2
    rwa [show -I * (I * u) = u by linear_combination -u * I_mul_I] at this
  have e1 : ray c 1 u = ray 1 1 u := by
    have h1 := ray_one hc u
    have h2 := ray_one (c := 1) (by simp) u
    rw [e0] at h1
    linear_combination (h1 - h2) / 2
  have key : ∀ n, ray c n u = ray 1 n u ∧ ray c (n + 1) u = ray 1 (n + 1) u := by
    intro n
    induction n with
    | zero => exact ⟨e0, e1⟩
    | succ n ih =>
      refine ⟨ih.2, ?_⟩
      have h1 := ray_succ hc n u
      have h2 := ray_succ (c := 1) (by simp) n u
      rw [ih.1, ih.2] at h1
      linear_combination (h1 - h2) / 2
  exact fun n => (key n).1

/-- The moment is at most that of the exponential function. -/
theorem norm_ray_le {c : ℂ} (hc : 0 < (c ^ 2).re) (h1 : ‖c‖ = 1) (n : ℕ) {u : ℂ} (hu : 0 < (u * c).re) :
    ‖ray c n u‖ ≤ n.factorial / (2 * (u * c).re) ^ (n + 1) := by
  have hb : 0 < 2 * (u * c).re := by linarith
  have hG : ∫ t : ℝ in Ioi 0, t ^ ((n : ℝ) + 1 - 1) * Real.exp (-(2 * (u * c).re * t)) =
      (1 / (2 * (u * c).re)) ^ ((n : ℝ) + 1) * Real.Gamma ((n : ℝ) + 1) :=
    Real.integral_rpow_mul_exp_neg_mul_Ioi (by positivity) hb
  have hI : IntegrableOn (fun t : ℝ => t ^ n * Real.exp (-(2 * (u * c).re * t))) (Ioi 0) := by
    have := integrableOn_rpow_mul_exp_neg_mul_rpow (s := (n : ℝ)) (p := 1) (b := 2 * (u * c).re)
      (by have : (0 : ℝ) ≤ n := n.cast_nonneg; linarith) one_pos hb
    refine this.congr_fun (fun t ht => ?_) measurableSet_Ioi
    simp
  have e : ∫ t : ℝ in Ioi 0, t ^ n * Real.exp (-(2 * (u * c).re * t)) = n.factorial / (2 * (u * c).re) ^ (n + 1) := by
    rw [Real.Gamma_nat_eq_factorial] at hG
    have : ∫ t : ℝ in Ioi 0, t ^ n * Real.exp (-(2 * (u * c).re * t)) =
        ∫ t : ℝ in Ioi 0, t ^ ((n : ℝ) + 1 - 1) * Real.exp (-(2 * (u * c).re * t)) := by
      refine setIntegral_congr_fun measurableSet_Ioi fun t _ => ?_
      simp
    rw [this, hG, show (n : ℝ) + 1 = ((n + 1 : ℕ) : ℝ) by push_cast; ring, Real.rpow_natCast, one_div, inv_pow]
    field_simp
  rw [← e]
  refine norm_integral_le_of_norm_le hI ((ae_restrict_mem measurableSet_Ioi).mono fun t ht => ?_)
  have ht0 : (0 : ℝ) < t := ht
  rw [norm_rayInt, h1, one_pow, one_mul, abs_of_pos ht0]
  refine mul_le_mul_of_nonneg_left (Real.exp_le_exp.mpr ?_) (by positivity)
  nlinarith [mul_pos hc (pow_pos ht0 2)]

/-- The moments divided by the factorials. -/
noncomputable def mom (u : ℂ) (n : ℕ) : ℂ := ray 1 n u / n.factorial

theorem mom_one (u : ℂ) : 1 = 2 * u * mom u 0 + 2 * mom u 1 := by
  have h := ray_one (c := 1) (by simp) u
  simp only [mom, Nat.factorial_zero, Nat.factorial_one, Nat.cast_one, div_one]
  linear_combination -h

theorem mom_succ (u : ℂ) (n : ℕ) : mom u n = 2 * u * mom u (n + 1) + 2 * (n + 2) * mom u (n + 2) := by
  have h := ray_succ (c := 1) (by simp) n u
  simp only [mom, Nat.factorial_succ, Nat.cast_mul, Nat.cast_add, Nat.cast_one]
  have h0 : (n.factorial : ℂ) ≠ 0 := by exact_mod_cast n.factorial_ne_zero
  have h1 : (n : ℂ) + 1 ≠ 0 := by exact_mod_cast n.succ_ne_zero
  have h2 : (n : ℂ) + 1 + 1 ≠ 0 := by exact_mod_cast (n + 1).succ_ne_zero
  field_simp
  linear_combination -((n:ℂ) + 1 + 1) * h

theorem IsFaddeeva.mom {w : ℂ → ℂ} (hw : IsFaddeeva w) (z : ℂ) :
    w z = ((2 / Real.sqrt Real.pi : ℝ) : ℂ) * mom (-I * z) 0 := by
  rw [hw.ray (c := 1) (by simp) (by simp)]
  simp [Beam.mom]

end Beam
end SixTrack
