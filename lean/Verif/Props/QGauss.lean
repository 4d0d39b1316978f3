import Verif.QGaussReal

/-!
# Property C62: the q-Gaussian distribution

Numbers are exact real numbers and `tgamma` is Euler's function, which is asserted to be called with
arguments of at most 171.7 only (about the largest for which the result is a `double`).
-/

namespace SixTrack
open Beam Elem MeasureTheory Set QG

/-- The density with the constant of its parameter is defined everywhere, is not negative and has integral one. -/
theorem C62_normalised {q sb cq : ℝ} (hq : q < 3) (hb : 0 < sb) (hc : cqOf q = .ok cq) :
    ∃ ρ : ℝ → ℝ, (∀ x, qGauss x q sb cq = .ok (ρ x)) ∧ (∀ x, 0 ≤ ρ x) ∧ Integrable ρ ∧ ∫ x, ρ x = 1 := by
  obtain ⟨h0, hi, hs⟩ := shape_integral hq hc
  refine ⟨fun x => sb / cq * shape q (sb * x), fun x => ?_, fun x => ?_, ?_, ?_⟩
  · unfold qGauss
    rw [cdiv_ok h0.ne', Res.ok_bind, expQ_ok, Res.ok_bind]; rfl
  · exact mul_nonneg (div_nonneg hb.le h0.le) (shape_nonneg _ _)
  · exact (hi.comp_mul_left' hb.ne').const_mul _
  · rw [integral_const_mul, scaled_integral _ hb, hs]
    field_simp

/-- A shifted density has integral one and is the density around the shift. -/
theorem C62_shifted {q sb cq : ℝ} (mu : ℝ) (hq : q < 3) (hb : 0 < sb) (hc : cqOf q = .ok cq) :
    ∃ ρ : ℝ → ℝ, (∀ x, qGaussShifted x q sb cq mu = .ok (ρ x)) ∧ (∀ t, ρ (mu + t) = ρ (mu - t)) ∧
      ∫ x, ρ x = 1 := by
  obtain ⟨h0, hi, hs⟩ := shape_integral hq hc
  refine ⟨fun x => sb / cq * shape q (sb * (x - mu)), fun x => ?_, fun t => ?_, ?_⟩
  · unfold qGaussShifted qGauss
    rw [cdiv_ok h0.ne', Res.ok_bind, expQ_ok, Res.ok_bind]; rfl
  · simp only [shape]
    have : (sb * (mu + t - mu)) ^ 2 = (sb * (mu - t - mu)) ^ 2 := by ring
    rw [this]
  · rw [integral_const_mul, integral_sub_right_eq_self (fun x => shape q (sb * x)) mu, scaled_integral _ hb, hs]
    field_simp

/-- The density decreases away from the centre. -/
theorem C62_unimodal {q sb cq x y a b : ℝ} (hq : q < 3) (hb : 0 < sb) (hc : cqOf q = .ok cq)
    (hxy : |x| ≤ |y|) (hx : qGauss x q sb cq = .ok a) (hy : qGauss y q sb cq = .ok b) : b ≤ a := by
  obtain ⟨h0, _, _⟩ := shape_integral hq hc
  unfold qGauss at hx hy
  rw [cdiv_ok h0.ne', Res.ok_bind, expQ_ok, Res.ok_bind] at hx hy
  rw [← Res.ok.inj hx, ← Res.ok.inj hy]
  refine mul_le_mul_of_nonneg_left ?_ (div_nonneg hb.le h0.le)
  have h2 : (sb * x) ^ 2 ≤ (sb * y) ^ 2 := by
    rw [mul_pow, mul_pow]
    exact mul_le_mul_of_nonneg_left (sq_le_sq.mpr hxy) (sq_nonneg _)
  unfold shape
  split
  · rename_i hn
    rcases le_total q 1 with h1 | h1
    · refine Real.rpow_le_rpow (le_max_left _ _) (max_le_max le_rfl ?_) (one_div_nonneg.mpr (by linarith))
      nlinarith
    · have h3 : 0 ≤ q - 1 := by linarith
      refine Real.rpow_le_rpow_of_nonpos ?_ (max_le_max le_rfl ?_)
        (one_div_nonpos.mpr (by linarith))
      · exact lt_of_lt_of_le one_pos (le_max_of_le_right (by nlinarith [sq_nonneg (sb * x)]))
      · nlinarith
  · exact Real.exp_le_exp.mpr (by linarith)

/-- For `q < 1` the density vanishes exactly outside of the support that the library reports. -/
theorem C62_support {q sb cq lo hi : ℝ} (hq : q ≤ 1 - 1 / 10 ^ 6) (hb : 0 < sb) (hc : cqOf q = .ok cq)
    (hlo : minSupport q sb = .ok lo) (hhi : maxSupport q sb = .ok hi) (x : ℝ) :
    lo = -hi ∧ ∃ v, qGauss x q sb cq = .ok v ∧ (0 < v ↔ lo < x ∧ x < hi) := by
  have hz : (0 : ℝ) < 1 / 10 ^ 6 := by norm_num
  have h1q : 0 < 1 - q := by linarith
  obtain ⟨h0, _, _⟩ := shape_integral (by linarith) hc
  have hr : 0 < sb * sb * (1 - q) := by positivity
  have hs := Real.sqrt_pos.mpr hr
  unfold minSupport at hlo
  unfold maxSupport at hhi
  rw [if_pos ⟨by norm_num; linarith, hb⟩, if_neg (by intro h; linarith), csqrt_ok hr.le, Res.ok_bind,
    cdiv_ok hs.ne'] at hlo hhi
  have hlo := Res.ok.inj hlo
  have hhi := Res.ok.inj hhi
  have hhi0 : 0 < hi := by rw [← hhi]; positivity
  have hhi2 : hi ^ 2 * (sb * sb * (1 - q)) = 1 := by
    rw [← hhi, div_pow, Real.sq_sqrt hr.le]; field_simp
  have hneg : lo = -hi := by rw [← hlo, ← hhi, neg_div]
  refine ⟨hneg, sb / cq * shape q (sb * x), ?_, ?_⟩
  · unfold qGauss
    rw [cdiv_ok h0.ne', Res.ok_bind, expQ_ok, Res.ok_bind]; rfl
  · rw [mul_pos_iff_of_pos_left (div_pos hb h0), hneg]
    have hx : (-hi < x ∧ x < hi) ↔ x ^ 2 < hi ^ 2 := by
      rw [← abs_lt, sq_lt_sq, abs_of_pos hhi0]
    rw [hx]
    unfold shape
    rw [if_pos (by rw [abs_of_pos h1q]; linarith)]
    have hp : (0 : ℝ) < 1 / (1 - q) := by positivity
    have hu : (1 - q) * (sb * x) ^ 2 < 1 ↔ x ^ 2 < hi ^ 2 := by
      rw [← hhi2]
      constructor
      · intro h
        by_contra hcon
        push Not at hcon
        nlinarith
      · intro h
        nlinarith
    rw [← hu]
    constructor
    · intro h
      by_contra hcon
      push Not at hcon
      rw [max_eq_left (by linarith), Real.zero_rpow hp.ne'] at h
      exact absurd h (lt_irrefl _)
    · intro h
      exact Real.rpow_pos_of_pos (lt_max_of_lt_right (by linarith)) _

/-- For `q ≥ 1` the library reports a support of ±10¹⁰ (in metres), although the density is positive
everywhere. -/
theorem C62_unbounded_support {q sb cq : ℝ} (hq : 1 ≤ q) (h3 : q < 3) (hb : 0 < sb) (hc : cqOf q = .ok cq) (x : ℝ) :
    minSupport q sb = .ok (-(10 ^ 10)) ∧ maxSupport q sb = .ok (10 ^ 10) ∧
      ∃ v, qGauss x q sb cq = .ok v ∧ 0 < v := by
  obtain ⟨h0, _, _⟩ := shape_integral h3 hc
  refine ⟨?_, ?_, sb / cq * shape q (sb * x), ?_, mul_pos (div_pos hb h0) ?_⟩
  · unfold minSupport; rw [if_pos ⟨by norm_num; linarith, hb⟩, if_pos hq]
  · unfold maxSupport; rw [if_pos ⟨by norm_num; linarith, hb⟩, if_pos hq]
  · unfold qGauss
    rw [cdiv_ok h0.ne', Res.ok_bind, expQ_ok, Res.ok_bind]; rfl
  · unfold shape
    split
    · refine Real.rpow_pos_of_pos (lt_of_lt_of_le one_pos (le_max_of_le_right ?_)) _
      nlinarith [sq_nonneg (sb * x)]
    · exact Real.exp_pos _

/-- The square of the rms length of the density that belongs to the rms length `σ` of the element: it is `σ²` for
the normal distribution, `2σ²/(5 - 3q)` otherwise. -/
theorem C62_rms_partial {q sigma sb cq : ℝ} (hq : q < 5 / 3) (hs : 0 < sigma) (hb : sqrtBetaOf sigma = .ok sb)
    (hc : cqOf q = .ok cq) :
    ∃ ρ : ℝ → ℝ, (∀ x, qGauss x q sb cq = .ok (ρ x)) ∧ (Integrable fun x => x ^ 2 * ρ x) ∧
      ∫ x, x ^ 2 * ρ x = if |1 - q| < 1 / 10 ^ 6 then sigma ^ 2 else 2 * sigma ^ 2 / (5 - 3 * q) := by
  obtain ⟨h0, _, _⟩ := shape_integral (by linarith) hc
  obtain ⟨m1, m2⟩ := shape_second hq hc
  have h2 : (0 : ℝ) < Real.sqrt 2 := by positivity
  unfold sqrtBetaOf at hb
  simp only [Nat.cast_ofNat, sqrt_real] at hb
  rw [cdiv_ok (by positivity)] at hb
  have hb := Res.ok.inj hb
  have hb0 : 0 < sb := by rw [← hb]; positivity
  have hb2 : sb ^ 2 = 1 / (2 * sigma ^ 2) := by
    rw [← hb, div_pow, mul_pow, Real.sq_sqrt (by norm_num)]; norm_num
  have e : (fun x => x ^ 2 * (sb / cq * shape q (sb * x)))
      = fun x => (1 / (sb * cq)) * (fun y => y ^ 2 * shape q y) (sb * x) := by
    funext x; simp only [mul_pow]; field_simp
  refine ⟨fun x => sb / cq * shape q (sb * x), fun x => ?_, ?_, ?_⟩
  · unfold qGauss
    rw [cdiv_ok h0.ne', Res.ok_bind, expQ_ok, Res.ok_bind]; rfl
  · rw [e]; exact (m1.comp_mul_left' hb0.ne').const_mul _
  · rw [e, integral_const_mul, scaled_integral (fun y => y ^ 2 * shape q y) hb0, m2]
    have e2 : ∀ d : ℝ, 1 / (sb * cq) * (sb⁻¹ * (cq / d)) = 2 * sigma ^ 2 / d := by
      intro d
      have : 1 / (sb * cq) * (sb⁻¹ * (cq / d)) = 1 / sb ^ 2 / d := by field_simp
      rw [this, hb2]; field_simp
    rw [e2]
    split
    · ring
    · rfl

/-- The rms length of the density is not the one that was set, unless it is a normal distribution: the conversion
`sqrt_beta_from_gauss_sigma` does not depend on `q`. -/
theorem C62_rms_violated {q sigma sb cq : ℝ} (hq : q < 5 / 3) (hn : 1 / 10 ^ 6 ≤ |1 - q|) (hs : 0 < sigma)
    (hb : sqrtBetaOf sigma = .ok sb) (hc : cqOf q = .ok cq) :
    ∃ ρ : ℝ → ℝ, (∀ x, qGauss x q sb cq = .ok (ρ x)) ∧ ∫ x, x ^ 2 * ρ x ≠ sigma ^ 2 := by
  obtain ⟨ρ, h1, _, h2⟩ := C62_rms_partial hq hs hb hc
  refine ⟨ρ, h1, ?_⟩
  rw [h2, if_neg (not_lt.mpr hn)]
  intro h
  have h5 : 5 - 3 * q ≠ 0 := by linarith
  rw [div_eq_iff h5] at h
  have h6 : (0 : ℝ) < sigma ^ 2 := by positivity
  have h7 : sigma ^ 2 * (3 * (1 - q)) = 0 := by linarith
  have h8 : 1 - q = 0 := by
    rcases mul_eq_zero.mp h7 with h | h
    · linarith
    · linarith
  rw [h8] at hn
  norm_num at hn

/-- Where the constant is defined. -/
theorem C62_constant_partial {q : ℝ} (hq : q < 3) :
    (∃ cq, cqOf q = .ok cq) ↔ |1 - q| < 1 / 10 ^ 6 ∨ 10 / 1717 ≤ q - 1 ∨ 10 / 1712 ≤ 1 - q := by
  constructor
  · rintro ⟨cq, h⟩
    by_contra hc
    push Not at hc
    rw [cqOf_gap hc.1 hc.2.1 hc.2.2] at h
    exact absurd h (by simp)
  · rintro (h | h | h)
    · exact ⟨_, cqOf_near h⟩
    · exact ⟨_, cqOf_above (le_trans (by norm_num) h) hq h⟩
    · exact ⟨_, cqOf_below (le_trans (by norm_num) h) h⟩

/-- Between the two the argument of `tgamma` exceeds its bound, so no constant can be computed although the
distribution exists; `set_q_param` accepts such a parameter. -/
theorem C62_constant_violated : cqOf (1001 / 1000 : ℝ) = .ub ∧
    ∀ sc : SCQGauss ℝ, setQ sc (1001 / 1000) = .ub := by
  have h : cqOf (1001 / 1000 : ℝ) = .ub :=
    cqOf_gap (by norm_num [abs_of_neg]) (by norm_num) (by norm_num)
  refine ⟨h, fun sc => ?_⟩
  unfold setQ
  rw [if_pos (by norm_num), h, Res.ub_bind]

/-- A parameter that is accepted is stored together with its constant; one that is too large is refused. -/
theorem C62_set_parameter (sc : SCQGauss ℝ) (q : ℝ) :
    (∀ cq, q < 3 → cqOf q = .ok cq → ∃ o, setQ sc q = .ok (true, o) ∧ o.qParam = q ∧ cqOf o.qParam = .ok o.cq ∧
      o.bunchlengthRms = sc.bunchlengthRms ∧ o.nPart = sc.nPart ∧ o.length = sc.length ∧ o.enabled = sc.enabled) ∧
    (3 ≤ q → setQ sc q = .ok (false, sc)) := by
  refine ⟨fun cq hq hc => ?_, fun hq => ?_⟩
  · unfold setQ
    rw [if_pos (by simpa using hq), hc, Res.ok_bind]
    exact ⟨_, rfl, rfl, hc, rfl, rfl, rfl, rfl⟩
  · unfold setQ
    rw [if_neg (by simpa using hq)]; rfl

example : ∃ q cq sb : ℝ, q < 5 / 3 ∧ 1 / 10 ^ 6 ≤ |1 - q| ∧ cqOf q = .ok cq ∧ sqrtBetaOf 1 = .ok sb ∧ 0 < sb := by
  refine ⟨0, _, 1 / (Real.sqrt 2 * 1), by norm_num, by norm_num, cqOf_below (by norm_num) (by norm_num), ?_, ?_⟩
  · unfold sqrtBetaOf
    simp only [Nat.cast_ofNat, sqrt_real]
    rw [cdiv_ok (by positivity)]
  · positivity

example : ∃ q cq : ℝ, 1 ≤ q ∧ q < 3 ∧ cqOf q = .ok cq :=
  ⟨2, _, by norm_num, by norm_num, cqOf_above (by norm_num) (by norm_num) (by norm_num)⟩

example : ∃ q sb cq lo hi : ℝ, q ≤ 1 - 1 / 10 ^ 6 ∧ 0 < sb ∧ cqOf q = .ok cq ∧ minSupport q sb = .ok lo ∧
    maxSupport q sb = .ok hi := by
  have hs : (0 : ℝ) < Real.sqrt (1 * 1 * (1 - 0)) := by norm_num
  refine ⟨0, 1, _, -1 / Real.sqrt (1 * 1 * (1 - 0)), 1 / Real.sqrt (1 * 1 * (1 - 0)), by norm_num, by norm_num,
    cqOf_below (by norm_num) (by norm_num), ?_, ?_⟩
  · unfold minSupport
    rw [if_pos (by norm_num), if_neg (by norm_num), csqrt_ok (by norm_num), Res.ok_bind, cdiv_ok hs.ne']
  · unfold maxSupport
    rw [if_pos (by norm_num), if_neg (by norm_num), csqrt_ok (by norm_num), Res.ok_bind, cdiv_ok hs.ne']

end SixTrack
