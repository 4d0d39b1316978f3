import Verif.QGauss
import Verif.QGaussModel
import Verif.BeamFieldsReal

/-!
# The q-Gaussian density on the real numbers
-/

namespace SixTrack
open Beam Elem MeasureTheory Set

namespace QG

/-- The density for `β = 1` without the constant. -/
noncomputable def shape (q x : ℝ) : ℝ :=
  if |1 - q| ≥ 1 / 10 ^ 6 then (max 0 (1 - (1 - q) * x ^ 2)) ^ (1 / (1 - q)) else Real.exp (-x ^ 2)

theorem qEps_real : (qEps : ℝ) = 1 / 10 ^ 6 := by simp [qEps, dec]

theorem abs_ite (a : ℝ) : (if a ≥ 0 then a else -a) = |a| := by
  split
  · rw [abs_of_nonneg (by assumption)]
  · rw [abs_of_neg (by linarith)]

theorem expQ_ok (q sb x : ℝ) :
    expQ (-(sb * sb * x * x)) q = .ok (shape q (sb * x)) := by
  unfold expQ shape
  simp only [abs_ite, qEps_real]
  split
  · rename_i h
    have h0 : 1 - q ≠ 0 := by
      intro h0; rw [h0] at h; norm_num at h
    have e1 : 1 + (1 - q) * -(sb * sb * x * x) = 1 - (1 - q) * (sb * x) ^ 2 := by ring
    have e2 : ∀ u : ℝ, (if u < 0 then 0 else u) = max 0 u := by
      intro u; split
      · rw [max_eq_left (by linarith)]
      · rw [max_eq_right (by linarith)]
    rw [cdiv_ok h0, Res.ok_bind, e1, e2, if_neg]
    · rfl
    · rintro ⟨h1, h2⟩
      have h3 : 1 - q < 0 := by rwa [one_div, inv_neg''] at h2
      have h4 : (1 : ℝ) ≤ 1 - (1 - q) * (sb * x) ^ 2 := by nlinarith [sq_nonneg (sb * x)]
      rw [max_eq_right (by linarith)] at h1
      linarith
  · simp only [Res.pure_eq, exp_real]
    congr 2; ring

theorem shape_nonneg (q x : ℝ) : 0 ≤ shape q x := by
  unfold shape
  split
  · exact Real.rpow_nonneg (le_max_left _ _) _
  · exact (Real.exp_pos _).le

theorem shape_tail {q : ℝ} (h : 1 / 10 ^ 6 ≤ q - 1) (x : ℝ) :
    shape q x = (1 + (Real.sqrt (q - 1) * x) ^ 2) ^ (-(1 / (q - 1))) := by
  have h0 : 0 < q - 1 := by linarith [show (0 : ℝ) < 1 / 10 ^ 6 by norm_num]
  have h1 : |1 - q| = q - 1 := by rw [abs_of_neg (by linarith)]; ring
  unfold shape
  rw [if_pos (by rw [h1]; exact h), mul_pow, Real.sq_sqrt h0.le,
    max_eq_right (by nlinarith [sq_nonneg x]), show 1 - (1 - q) * x ^ 2 = 1 + (q - 1) * x ^ 2 by ring,
    show 1 - q = -(q - 1) by ring, one_div_neg_eq_neg_one_div]

/-- The density on a bounded interval. -/
noncomputable def cap (p y : ℝ) : ℝ := (max 0 (1 - y ^ 2)) ^ p

theorem shape_cap {q : ℝ} (h : 1 / 10 ^ 6 ≤ 1 - q) (x : ℝ) :
    shape q x = cap (1 / (1 - q)) (Real.sqrt (1 - q) * x) := by
  have h0 : 0 < 1 - q := by linarith [show (0 : ℝ) < 1 / 10 ^ 6 by norm_num]
  unfold shape cap
  rw [if_pos (by rw [abs_of_pos h0]; exact h), mul_pow, Real.sq_sqrt h0.le]

theorem cap_zero {p : ℝ} (hp : 0 < p) {y : ℝ} (hy : y ∉ Ioc (-1 : ℝ) 1) : cap p y = 0 := by
  have h : 1 ≤ y ^ 2 := by
    by_contra hc
    push Not at hc
    have := abs_lt_of_sq_lt_sq (by simpa using hc : y ^ 2 < 1 ^ 2) zero_le_one
    rw [abs_lt] at this
    exact hy ⟨this.1, this.2.le⟩
  unfold cap
  rw [max_eq_left (by linarith), Real.zero_rpow hp.ne']

theorem cap_continuous {p : ℝ} (hp : 0 < p) : Continuous (cap p) := by
  unfold cap
  exact Continuous.rpow_const (by fun_prop) fun _ => Or.inr hp.le

theorem cap_integrable {p : ℝ} (hp : 0 < p) (g : ℝ → ℝ) (hg : Continuous g) :
    Integrable fun y => g y * cap p y := by
  have h1 : IntegrableOn (fun y => g y * cap p y) (Ioc (-1) 1) :=
    (hg.mul (cap_continuous hp)).integrableOn_Ioc
  rw [integrableOn_iff_integrable_of_support_subset] at h1
  · exact h1
  · intro y hy
    by_contra hc
    exact hy (by simp [cap_zero hp hc])

theorem cap_integral_eq {p : ℝ} (hp : 0 < p) (g : ℝ → ℝ) :
    ∫ y, g y * cap p y = ∫ y in (-1 : ℝ)..1, g y * (1 - y ^ 2) ^ p := by
  rw [intervalIntegral.integral_of_le (by norm_num),
    ← setIntegral_eq_integral_of_forall_compl_eq_zero (s := Ioc (-1 : ℝ) 1)
      (fun y hy => by rw [cap_zero hp hy, mul_zero])]
  refine setIntegral_congr_fun measurableSet_Ioc fun y hy => ?_
  have : y ^ 2 ≤ 1 := by nlinarith [hy.1, hy.2]
  simp only [cap]
  rw [max_eq_right (by linarith)]

theorem gamma_ne {a : ℝ} (h : 0 < a) : Real.Gamma a ≠ 0 := (Real.Gamma_pos_of_pos h).ne'

/-- Moments with scaling: a function of `k x` against one of `y`. -/
theorem scaled_integral (g : ℝ → ℝ) {k : ℝ} (hk : 0 < k) : ∫ x, g (k * x) = k⁻¹ * ∫ y, g y := by
  rw [Measure.integral_comp_mul_left, abs_of_pos (inv_pos.mpr hk), smul_eq_mul]

theorem tail_second {s : ℝ} (hs : 3 / 2 < s) :
    (Integrable fun y : ℝ => y ^ 2 * (1 + y ^ 2) ^ (-s)) ∧
    ∫ y : ℝ, y ^ 2 * (1 + y ^ 2) ^ (-s) = (∫ y : ℝ, (1 + y ^ 2) ^ (-s)) / (2 * s - 3) := by
  have e : ∀ y : ℝ, y ^ 2 * (1 + y ^ 2) ^ (-s) = (1 + y ^ 2) ^ (-(s - 1)) - (1 + y ^ 2) ^ (-s) := by
    intro y
    have h : 0 < 1 + y ^ 2 := by positivity
    rw [show -(s - 1) = -s + 1 by ring, Real.rpow_add h, Real.rpow_one]; ring
  have i1 := tail_integrable (s := s - 1) (by linarith)
  have i2 := tail_integrable (s := s) (by linarith)
  simp_rw [e]
  refine ⟨i1.sub i2, ?_⟩
  rw [integral_sub i1 i2, tail_integral (by linarith), tail_integral (by linarith)]
  have g1 : Real.Gamma (s - 1 / 2) = (s - 3 / 2) * Real.Gamma (s - 3 / 2) := by
    rw [show s - 1 / 2 = s - 3 / 2 + 1 by ring, Real.Gamma_add_one (by linarith)]
  have g2 : Real.Gamma s = (s - 1) * Real.Gamma (s - 1) := by
    rw [show Real.Gamma s = Real.Gamma (s - 1 + 1) by congr 1; ring, Real.Gamma_add_one (by linarith)]
  rw [g1, g2, show s - 1 - 1 / 2 = s - 3 / 2 by ring]
  have n1 : s - 1 ≠ 0 := by linarith
  have n2 : 2 * s - 3 ≠ 0 := by linarith
  have n3 := gamma_ne (show 0 < s - 1 by linarith)
  generalize Real.Gamma (s - 1) = c at *
  generalize Real.Gamma (s - 3 / 2) = d at *
  rw [eq_div_iff n2]
  field_simp
  ring

theorem cap_second {p : ℝ} (hp : 0 < p) :
    ∫ y, y ^ 2 * cap p y = (∫ y, cap p y) / (2 * p + 3) := by
  have e1 : ∫ y, cap p y = ∫ y in (-1 : ℝ)..1, (1 - y ^ 2) ^ p := by
    have := cap_integral_eq hp (fun _ => 1)
    simpa using this
  have hi : ∀ r : ℝ, 0 < r → IntervalIntegrable (fun y : ℝ => (1 - y ^ 2) ^ r) volume (-1) 1 := by
    intro r hr
    exact Continuous.intervalIntegrable (Continuous.rpow_const (by fun_prop) fun _ => Or.inr hr.le) _ _
  have e2 : ∫ y in (-1 : ℝ)..1, y ^ 2 * (1 - y ^ 2) ^ p
      = (∫ y in (-1 : ℝ)..1, (1 - y ^ 2) ^ p) - ∫ y in (-1 : ℝ)..1, (1 - y ^ 2) ^ (p + 1) := by
    rw [← intervalIntegral.integral_sub (hi p hp) (hi (p + 1) (by linarith))]
    refine intervalIntegral.integral_congr fun y hy => ?_
    rw [uIcc_of_le (by norm_num)] at hy
    have h0 : 0 ≤ 1 - y ^ 2 := by nlinarith [hy.1, hy.2]
    rw [Real.rpow_add_one' h0 (by linarith)]; ring
  rw [cap_integral_eq hp, e2, e1, cap_integral (by linarith), cap_integral (by linarith)]
  have g1 : Real.Gamma (p + 1 + 3 / 2) = (p + 3 / 2) * Real.Gamma (p + 3 / 2) := by
    rw [show p + 1 + 3 / 2 = p + 3 / 2 + 1 by ring, Real.Gamma_add_one (by linarith)]
  have g2 : Real.Gamma (p + 1 + 1) = (p + 1) * Real.Gamma (p + 1) := Real.Gamma_add_one (by linarith)
  rw [g1, g2]
  have n1 : p + 3 / 2 ≠ 0 := by linarith
  have n2 : 2 * p + 3 ≠ 0 := by linarith
  have n3 := gamma_ne (show 0 < p + 3 / 2 by linarith)
  field_simp
  ring

theorem gauss_second :
    (Integrable fun y : ℝ => y ^ 2 * Real.exp (-y ^ 2)) ∧
    ∫ y : ℝ, y ^ 2 * Real.exp (-y ^ 2) = Real.sqrt Real.pi / 2 := by
  have hi : Integrable fun y : ℝ => y ^ 2 * Real.exp (-y ^ 2) := by
    have := integrable_rpow_mul_exp_neg_mul_sq (b := 1) one_pos (s := 2) (by norm_num)
    simpa using this
  refine ⟨hi, ?_⟩
  have h := integral_mul_deriv_eq_deriv_mul_of_integrable (u := fun y : ℝ => y)
    (v := fun y => Real.exp (-y ^ 2)) (u' := fun _ => 1) (v' := fun y => -2 * y * Real.exp (-y ^ 2))
    (fun y _ => hasDerivAt_id y) (fun y _ => by
      have := ((hasDerivAt_id y).pow 2).neg.exp
      exact this.congr_deriv (by simp; ring))
    (by
      refine (hi.const_mul (-2)).congr (Filter.Eventually.of_forall fun y => ?_)
      simp only [Pi.mul_apply]; ring)
    (by
      have := integrable_exp_neg_mul_sq (b := 1) one_pos
      simpa [Pi.mul_def] using this)
    (by
      have := integrable_mul_exp_neg_mul_sq (b := 1) one_pos
      simpa [Pi.mul_def] using this)
  have hg : ∫ y : ℝ, Real.exp (-y ^ 2) = Real.sqrt Real.pi := by
    have := integral_gaussian 1
    simpa using this
  simp only [one_mul, hg] at h
  have h2 : ∫ y : ℝ, y * (-2 * y * Real.exp (-y ^ 2)) = -2 * ∫ y : ℝ, y ^ 2 * Real.exp (-y ^ 2) := by
    rw [← integral_const_mul]; congr 1; ext y; ring
  rw [h2] at h
  linarith

theorem gauss_integral :
    (Integrable fun y : ℝ => Real.exp (-y ^ 2)) ∧ ∫ y : ℝ, Real.exp (-y ^ 2) = Real.sqrt Real.pi := by
  have h1 := integrable_exp_neg_mul_sq (b := 1) one_pos
  have h2 := integral_gaussian 1
  exact ⟨by simpa using h1, by simpa using h2⟩

theorem shape_gauss {q : ℝ} (h : |1 - q| < 1 / 10 ^ 6) (x : ℝ) : shape q x = Real.exp (-x ^ 2) :=
  if_neg (not_le.mpr h)

theorem gammaC_ok {a g : ℝ} (h : gammaC a = .ok g) : 0 < a ∧ a ≤ 1717 / 10 ∧ g = Real.Gamma a := by
  unfold gammaC at h
  split at h
  · rename_i h'
    have := Res.ok.inj h
    exact ⟨h'.1, by simpa [dec] using h'.2, by rw [← this]; rfl⟩
  · exact absurd h (by simp)

theorem gammaC_eq {a : ℝ} (h1 : 0 < a) (h2 : a ≤ 1717 / 10) : gammaC a = .ok (Real.Gamma a) :=
  if_pos ⟨h1, by simpa [dec] using h2⟩

theorem gammaC_ub {a : ℝ} (h : ¬ (0 < a ∧ a ≤ 1717 / 10)) : gammaC a = .ub :=
  if_neg (by simpa [dec] using h)

theorem sqrtPi_real : (sqrtPi : ℝ) = Real.sqrt Real.pi := rfl

/-- The constant above 1. -/
theorem cqOf_above {q : ℝ} (h : 1 / 10 ^ 6 ≤ q - 1) (h3 : q < 3) (hr : 10 / 1717 ≤ q - 1) :
    cqOf q = .ok (Real.sqrt Real.pi * Real.Gamma ((3 - q) / (2 * (q - 1))) /
      (Real.sqrt (q - 1) * Real.Gamma (1 / (q - 1)))) := by
  have h0 : 0 < q - 1 := by linarith [show (0 : ℝ) < 1 / 10 ^ 6 by norm_num]
  have b1 : 1 / (q - 1) ≤ 1717 / 10 := by rw [div_le_iff₀ h0]; linarith
  have e : (3 - q) / (2 * (q - 1)) = 1 / (q - 1) - 1 / 2 := by field_simp; ring
  have b0 : 0 < (3 - q) / (2 * (q - 1)) := div_pos (by linarith) (by linarith)
  unfold cqOf
  simp only [qEps_real, sqrtPi_real]
  rw [if_pos (by linarith)]
  simp only [Nat.cast_ofNat]
  rw [cdiv_ok (by positivity), Res.ok_bind, gammaC_eq b0 (by rw [e]; linarith), Res.ok_bind,
    csqrt_ok h0.le, Res.ok_bind, cdiv_ok h0.ne', Res.ok_bind, gammaC_eq (by positivity) b1, Res.ok_bind,
    cdiv_ok]
  exact mul_ne_zero (Real.sqrt_pos.mpr h0).ne' (gamma_ne (by positivity))

/-- The constant below 1. -/
theorem cqOf_below {q : ℝ} (h : 1 / 10 ^ 6 ≤ 1 - q) (hr : 10 / 1712 ≤ 1 - q) :
    cqOf q = .ok (Real.sqrt Real.pi * (2 * Real.Gamma (1 / (1 - q))) /
      ((3 - q) * Real.sqrt (1 - q) * Real.Gamma ((3 - q) / (2 * (1 - q))))) := by
  have h0 : 0 < 1 - q := by linarith [show (0 : ℝ) < 1 / 10 ^ 6 by norm_num]
  have b1 : 1 / (1 - q) ≤ 1712 / 10 := by rw [div_le_iff₀ h0]; linarith
  have e : (3 - q) / (2 * (1 - q)) = 1 / (1 - q) + 1 / 2 := by field_simp; ring
  have b0 : 0 < (3 - q) / (2 * (1 - q)) := div_pos (by linarith) (by linarith)
  unfold cqOf
  simp only [qEps_real, sqrtPi_real]
  rw [if_neg (by intro hh; linarith [show (0 : ℝ) < 1 / 10 ^ 6 by norm_num]), if_pos (by linarith)]
  simp only [Nat.cast_ofNat]
  rw [cdiv_ok h0.ne', Res.ok_bind, gammaC_eq (by positivity) (by linarith), Res.ok_bind,
    csqrt_ok h0.le, Res.ok_bind, cdiv_ok (by positivity), Res.ok_bind, gammaC_eq b0 (by rw [e]; linarith),
    Res.ok_bind, cdiv_ok]
  exact mul_ne_zero (mul_ne_zero (by linarith) (Real.sqrt_pos.mpr h0).ne') (gamma_ne b0)

theorem cqOf_near {q : ℝ} (h : |1 - q| < 1 / 10 ^ 6) : cqOf q = .ok (Real.sqrt Real.pi) := by
  rw [abs_lt] at h
  unfold cqOf
  simp only [qEps_real, sqrtPi_real]
  rw [if_neg (by intro hh; linarith), if_neg (by intro hh; linarith)]
  rfl

/-- Where the constant is not defined. -/
theorem cqOf_gap {q : ℝ} (h : 1 / 10 ^ 6 ≤ |1 - q|) (h1 : q - 1 < 10 / 1717) (h2 : 1 - q < 10 / 1712) :
    cqOf q = .ub := by
  have hz : (0 : ℝ) < 1 / 10 ^ 6 := by norm_num
  unfold cqOf
  simp only [qEps_real, sqrtPi_real]
  rcases le_abs.mp h with h | h
  · have h0 : 0 < 1 - q := by linarith
    have e : (3 - q) / (2 * (1 - q)) = 1 / (1 - q) + 1 / 2 := by field_simp; ring
    have b1 : 1712 / 10 < 1 / (1 - q) := by rw [lt_div_iff₀ h0]; linarith
    rw [if_neg (by intro hh; linarith), if_pos (by linarith)]
    simp only [Nat.cast_ofNat]
    rw [cdiv_ok h0.ne', Res.ok_bind]
    by_cases hg : 0 < 1 / (1 - q) ∧ 1 / (1 - q) ≤ 1717 / 10
    · rw [gammaC_eq hg.1 hg.2, Res.ok_bind, csqrt_ok h0.le, Res.ok_bind, cdiv_ok (by positivity),
        Res.ok_bind, gammaC_ub (by rw [e]; rintro ⟨_, hh⟩; linarith), Res.ub_bind]
    · rw [gammaC_ub hg, Res.ub_bind]
  · have h0 : 0 < q - 1 := by linarith
    have b1 : 1717 / 10 < 1 / (q - 1) := by rw [lt_div_iff₀ h0]; linarith
    rw [if_pos (by linarith)]
    simp only [Nat.cast_ofNat]
    rw [cdiv_ok (by positivity), Res.ok_bind]
    by_cases hg : 0 < (3 - q) / (2 * (q - 1)) ∧ (3 - q) / (2 * (q - 1)) ≤ 1717 / 10
    · rw [gammaC_eq hg.1 hg.2, Res.ok_bind, csqrt_ok h0.le, Res.ok_bind, cdiv_ok h0.ne', Res.ok_bind,
        gammaC_ub (by rintro ⟨_, hh⟩; linarith), Res.ub_bind]
    · rw [gammaC_ub hg, Res.ub_bind]

/-- The constant is the integral of the shape. -/
theorem shape_integral {q cq : ℝ} (h3 : q < 3) (h : cqOf q = .ok cq) :
    0 < cq ∧ Integrable (shape q) ∧ ∫ x, shape q x = cq := by
  have hz : (0 : ℝ) < 1 / 10 ^ 6 := by norm_num
  have hpi : 0 < Real.sqrt Real.pi := Real.sqrt_pos.mpr Real.pi_pos
  by_cases hn : |1 - q| < 1 / 10 ^ 6
  · rw [cqOf_near hn] at h
    have h := Res.ok.inj h
    have e : shape q = fun y => Real.exp (-y ^ 2) := funext fun y => shape_gauss hn y
    rw [e, ← h]
    exact ⟨hpi, gauss_integral⟩
  · rw [not_lt] at hn
    by_cases hr : 10 / 1717 ≤ q - 1
    · have hq : 1 / 10 ^ 6 ≤ q - 1 := le_trans (by norm_num) hr
      have h0 : 0 < q - 1 := by linarith
      have hs : 1 / 2 < 1 / (q - 1) := by rw [div_lt_div_iff₀ two_pos h0]; linarith
      rw [cqOf_above hq h3 hr] at h
      have h := Res.ok.inj h
      have e : shape q = fun y => (fun z : ℝ => (1 + z ^ 2) ^ (-(1 / (q - 1)))) (Real.sqrt (q - 1) * y) :=
        funext fun y => shape_tail hq y
      have hg : (3 - q) / (2 * (q - 1)) = 1 / (q - 1) - 1 / 2 := by field_simp; ring
      have hsq := Real.sqrt_pos.mpr h0
      have hp1 := Real.Gamma_pos_of_pos (show 0 < 1 / (q - 1) by positivity)
      have hp2 := Real.Gamma_pos_of_pos (show 0 < 1 / (q - 1) - 1 / 2 by linarith)
      rw [hg] at h
      rw [← h]
      refine ⟨by positivity, ?_, ?_⟩
      · rw [e]; exact (tail_integrable hs).comp_mul_left' hsq.ne'
      · rw [e, scaled_integral _ hsq, tail_integral hs]
        field_simp
    · by_cases hr2 : 10 / 1712 ≤ 1 - q
      · have hq : 1 / 10 ^ 6 ≤ 1 - q := le_trans (by norm_num) hr2
        have h0 : 0 < 1 - q := by linarith
        rw [cqOf_below hq hr2] at h
        have h := Res.ok.inj h
        set p := 1 / (1 - q) with hp
        have hp0 : 0 < p := by positivity
        have e : shape q = fun y => cap p (Real.sqrt (1 - q) * y) := funext fun y => shape_cap hq y
        have hg : (3 - q) / (2 * (1 - q)) = p + 1 / 2 := by rw [hp]; field_simp; ring
        have hsq := Real.sqrt_pos.mpr h0
        have hp1 := Real.Gamma_pos_of_pos hp0
        have hp2 := Real.Gamma_pos_of_pos (show 0 < p + 1 / 2 by linarith)
        have h3' : 0 < 3 - q := by linarith
        have hci : Integrable (cap p) := by simpa using cap_integrable hp0 (fun _ => 1) continuous_const
        have hc : ∫ y, cap p y = ∫ y in (-1 : ℝ)..1, (1 - y ^ 2) ^ p := by
          simpa using cap_integral_eq hp0 (fun _ => 1)
        rw [hg] at h
        rw [← h]
        refine ⟨by positivity, ?_, ?_⟩
        · rw [e]; exact hci.comp_mul_left' hsq.ne'
        · rw [e, scaled_integral _ hsq, hc, cap_integral (by linarith), Real.Gamma_add_one hp0.ne',
            show p + 3 / 2 = p + 1 / 2 + 1 by ring, Real.Gamma_add_one (by linarith)]
          have e1 : p + 1 / 2 = (3 - q) * p / 2 := by rw [hp]; field_simp; ring
          have e2 : Real.Gamma (p + 1 / 2) ≠ 0 := hp2.ne'
          generalize Real.Gamma (p + 1 / 2) = g at *
          rw [e1]
          field_simp
      · rw [cqOf_gap hn (by linarith) (by linarith)] at h
        exact absurd h (by simp)

/-- The second moment of the shape. -/
theorem shape_second {q cq : ℝ} (h3 : q < 5 / 3) (h : cqOf q = .ok cq) :
    (Integrable fun x => x ^ 2 * shape q x) ∧
    ∫ x, x ^ 2 * shape q x = cq / (if |1 - q| < 1 / 10 ^ 6 then 2 else 5 - 3 * q) := by
  have hz : (0 : ℝ) < 1 / 10 ^ 6 := by norm_num
  obtain ⟨hc0, _, hint⟩ := shape_integral (by linarith) h
  by_cases hn : |1 - q| < 1 / 10 ^ 6
  · rw [cqOf_near hn] at h
    have h := Res.ok.inj h
    have e : shape q = fun y => Real.exp (-y ^ 2) := funext fun y => shape_gauss hn y
    rw [if_pos hn, e, ← h]
    exact gauss_second
  · rw [if_neg hn]
    rw [not_lt] at hn
    have key : ∀ (g : ℝ → ℝ) (a : ℝ), 0 < a → (Integrable fun y => y ^ 2 * g y) →
        (∫ y, y ^ 2 * g y = (∫ y, g y) * (a / (5 - 3 * q))) →
        (shape q = fun y => g (Real.sqrt a * y)) →
        (Integrable fun x => x ^ 2 * shape q x) ∧ ∫ x, x ^ 2 * shape q x = cq / (5 - 3 * q) := by
      intro g a ha hg1 hg2 e
      have hsq := Real.sqrt_pos.mpr ha
      have e2 : (fun x => x ^ 2 * shape q x)
          = fun x => a⁻¹ * (fun y => y ^ 2 * g y) (Real.sqrt a * x) := by
        rw [e]; funext x
        simp only [mul_pow, Real.sq_sqrt ha.le]; field_simp
      refine ⟨by rw [e2]; exact (hg1.comp_mul_left' hsq.ne').const_mul _, ?_⟩
      rw [e2, integral_const_mul, scaled_integral (fun y => y ^ 2 * g y) hsq, hg2]
      rw [e, scaled_integral _ hsq] at hint
      have h5 : 5 - 3 * q ≠ 0 := by linarith
      rw [← hint]
      field_simp
    rcases le_abs.mp hn with hq | hq
    · have h0 : 0 < 1 - q := by linarith
      refine key (cap (1 / (1 - q))) (1 - q) h0
        (cap_integrable (by positivity) (fun y => y ^ 2) (by fun_prop)) ?_
        (funext fun y => shape_cap hq y)
      rw [cap_second (by positivity)]
      have : 2 * (1 / (1 - q)) + 3 = (5 - 3 * q) / (1 - q) := by field_simp; ring
      rw [this, div_div_eq_mul_div, mul_div_assoc]
    · have hq : 1 / 10 ^ 6 ≤ q - 1 := by linarith
      have h0 : 0 < q - 1 := by linarith
      have hs : 3 / 2 < 1 / (q - 1) := by rw [div_lt_div_iff₀ two_pos h0]; linarith
      obtain ⟨t1, t2⟩ := tail_second hs
      refine key (fun z : ℝ => (1 + z ^ 2) ^ (-(1 / (q - 1)))) (q - 1) h0 t1 ?_
        (funext fun y => shape_tail hq y)
      rw [t2]
      have : 2 * (1 / (q - 1)) - 3 = (5 - 3 * q) / (q - 1) := by field_simp; ring
      rw [this, div_div_eq_mul_div, mul_div_assoc]

end QG
end SixTrack
