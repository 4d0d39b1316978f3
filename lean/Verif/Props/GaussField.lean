import Verif.GaussRound
import Verif.FaddeevaInt

/-!
# Property C58: the transverse field of a Gaussian beam

`IsFaddeeva w` says that `w` is the exact complex error function; `wRes w` hands it to the model in
place of `cerrf`.
-/

namespace SixTrack
open Beam Elem Filter

/-- The transverse density of one unit charge. -/
noncomputable def gaussDensity (sx sy x y : ℝ) : ℝ :=
  Real.exp (-x ^ 2 / (2 * sx ^ 2) - y ^ 2 / (2 * sy ^ 2)) / (2 * Real.pi * sx * sy)

/-- The field is differentiable at the point, has no curl, and its divergence is the density divided
by the vacuum permittivity. -/
def MaxwellAt (ρ : ℝ → ℝ → ℝ) (E : ℝ → ℝ → ℝ × ℝ) (x y : ℝ) : Prop :=
  ∃ exx exy eyy : ℝ, HasDerivAt (fun t => (E t y).1) exx x ∧ HasDerivAt (fun t => (E x t).1) exy y ∧
    HasDerivAt (fun t => (E t y).2) exy x ∧ HasDerivAt (fun t => (E x t).2) eyy y ∧
    exx + eyy = ρ x y / 8.854187817620e-12

/-- `Gx` and `Gy` are half of the derivatives of the field. -/
def HalfDerivsAt (E : ℝ → ℝ → ℝ × ℝ) (x y gx gy : ℝ) : Prop :=
  HasDerivAt (fun t => (E t y).1) (2 * gx) x ∧ HasDerivAt (fun t => (E x t).2) (2 * gy) y

theorem eps0_eq : (eps0 : ℝ) = 8.854187817620e-12 := by norm_num [eps0, dec]

/-- The field of an elliptic beam is defined everywhere and solves Maxwell's equations for the
Gaussian density. -/
theorem C58_elliptic {w : ℂ → ℂ} (hw : IsFaddeeva w) {minDiff sx sy : ℝ} (hx : 0 < sx) (hy : 0 < sy) (hne : sx ≠ sy)
    (hd : minDiff ≤ |sx - sy|) :
    ∃ E : ℝ → ℝ → ℝ × ℝ, (∀ x y, gaussE (wRes w) minDiff sx sy x y = .ok (E x y)) ∧
      ∀ x y, MaxwellAt (gaussDensity sx sy) E x y := by
  refine ⟨fun x y => (exG w x y (sx ^ 2) (sy ^ 2), eyG w x y (sx ^ 2) (sy ^ 2)), gaussE_eq hw hx hy hne hd, fun x y => ?_⟩
  have hne2 : sx ^ 2 ≠ sy ^ 2 := fun h => hne ((sq_eq_sq₀ hx.le hy.le).mp h)
  have d1 := hasDerivAt_gauss hw (hasDerivAt_id x) (hasDerivAt_const x y) (hasDerivAt_const x (sx ^ 2))
    (hasDerivAt_const x (sy ^ 2)) (by positivity) (by positivity) hne2
  have d2 := hasDerivAt_gauss hw (hasDerivAt_const y x) (hasDerivAt_id y) (hasDerivAt_const y (sx ^ 2))
    (hasDerivAt_const y (sy ^ 2)) (by positivity) (by positivity) hne2
  simp only [id, mul_zero, mul_one, add_zero, zero_add] at d1 d2
  refine ⟨_, _, _, d1.1, d2.1, d1.2.1, d2.2.1, ?_⟩
  rw [gauss_div w x y (by positivity) (by positivity) hne2, Real.sqrt_sq hx.le, Real.sqrt_sq hy.le, eps0_eq]
  rfl

/-- The field is bounded. -/
theorem C58_bounded {w : ℂ → ℂ} (hw : IsFaddeeva w) {minDiff sx sy : ℝ} (hx : 0 < sx) (hy : 0 < sy) (hne : sx ≠ sy)
    (hd : minDiff ≤ |sx - sy|) :
    ∃ C, ∀ x y, ∃ E : ℝ × ℝ, gaussE (wRes w) minDiff sx sy x y = .ok E ∧ |E.1| ≤ C ∧ |E.2| ≤ C := by
  have key : ∀ {A B a b : ℝ}, 0 < B → B < A → |eA w a b A B| ≤ 2 * fact A B ∧ |eB w a b A B| ≤ 2 * fact A B := by
    intro A B a b hB hAB
    have hs : 0 < sOf A B := Real.sqrt_pos.mpr (by linarith)
    have hA : 0 < A := by linarith
    have hk : 0 < kRatio A B := div_pos (Real.sqrt_pos.mpr hB) (Real.sqrt_pos.mpr hA)
    have he := eps0_pos
    have hp : 0 < Real.sqrt Real.pi := Real.sqrt_pos.mpr Real.pi_pos
    have hF : 0 < fact A B := by unfold fact; positivity
    have hX : xExp a b A B ≤ 1 := by
      unfold xExp
      rw [Real.exp_le_one_iff, neg_div]
      have : 0 ≤ a ^ 2 / (2 * A) := by positivity
      have : 0 ≤ b ^ 2 / (2 * B) := by positivity
      linarith
    have hX0 : 0 < xExp a b A B := Real.exp_pos _
    have pos : ∀ b, 0 ≤ b → ‖fieldC w a b A B‖ ≤ 2 * fact A B := by
      intro b hb
      have hX : xExp a b A B ≤ 1 := by
        unfold xExp
        rw [Real.exp_le_one_iff, neg_div]
        have : 0 ≤ a ^ 2 / (2 * A) := by positivity
        have : 0 ≤ b ^ 2 / (2 * B) := by positivity
        linarith
      have hX0 : 0 < xExp a b A B := Real.exp_pos _
      have h1 : ‖w (zetaC a b A B)‖ ≤ 1 := hw.norm_le (by rw [zetaC_eq]; positivity)
      have h2 : ‖w (etaC a b A B)‖ ≤ 1 := hw.norm_le (by rw [etaC_eq]; positivity)
      unfold fieldC
      rw [norm_mul, Complex.norm_real, Real.norm_eq_abs, abs_of_pos hF, mul_comm]
      refine mul_le_mul_of_nonneg_right ((norm_sub_le _ _).trans ?_) hF.le
      rw [norm_mul, Complex.norm_real, Real.norm_eq_abs, abs_of_pos hX0]
      have := mul_le_one₀ hX (norm_nonneg _) h2
      linarith
    have all : ‖fieldC w a b A B‖ ≤ 2 * fact A B := by
      rcases le_total 0 b with hb | hb
      · exact pos b hb
      · have := pos (-b) (by linarith)
        rwa [fieldC_neg_b hw a b hB hAB, norm_neg, Complex.norm_conj] at this
    exact ⟨(Complex.abs_im_le_norm _).trans all, (Complex.abs_re_le_norm _).trans all⟩
  rcases lt_or_gt_of_ne hne with h | h
  · have hAB : sx ^ 2 < sy ^ 2 := pow_lt_pow_left₀ h hx.le two_ne_zero
    refine ⟨2 * fact (sy ^ 2) (sx ^ 2), fun x y => ⟨_, gaussE_eq hw hx hy hne hd x y, ?_⟩⟩
    simp only [exG, eyG, if_neg (not_lt.mpr hAB.le)]
    exact ⟨(key (by positivity) hAB).2, (key (by positivity) hAB).1⟩
  · have hAB : sy ^ 2 < sx ^ 2 := pow_lt_pow_left₀ h hy.le two_ne_zero
    refine ⟨2 * fact (sx ^ 2) (sy ^ 2), fun x y => ⟨_, gaussE_eq hw hx hy hne hd x y, ?_⟩⟩
    simp only [exG, eyG, if_pos hAB]
    exact key (by positivity) hAB

/-- The field has the symmetries of the density. -/
theorem C58_odd {w : ℂ → ℂ} (hw : IsFaddeeva w) {minDiff sx sy : ℝ} (hx : 0 < sx) (hy : 0 < sy) (hne : sx ≠ sy)
    (hd : minDiff ≤ |sx - sy|) (x y : ℝ) :
    ∃ ex ey : ℝ, gaussE (wRes w) minDiff sx sy x y = .ok (ex, ey) ∧
      gaussE (wRes w) minDiff sx sy (-x) y = .ok (-ex, ey) ∧
      gaussE (wRes w) minDiff sx sy x (-y) = .ok (ex, -ey) ∧
      gaussE (wRes w) minDiff sy sx y x = .ok (ey, ex) := by
  refine ⟨_, _, gaussE_eq hw hx hy hne hd x y, ?_, ?_, ?_⟩
  · rw [gaussE_eq hw hx hy hne hd]
    congr 2 <;> simp only [exG, eyG, eA, eB] <;> split_ifs with h
    · rw [fieldC_neg_a hw]; simp
    · have h' : sx ^ 2 < sy ^ 2 := lt_of_le_of_ne (not_lt.mp h) fun h => hne ((sq_eq_sq₀ hx.le hy.le).mp h)
      rw [fieldC_neg_b hw _ _ (by positivity) h']; simp
    · rw [fieldC_neg_a hw]; simp
    · have h' : sx ^ 2 < sy ^ 2 := lt_of_le_of_ne (not_lt.mp h) fun h => hne ((sq_eq_sq₀ hx.le hy.le).mp h)
      rw [fieldC_neg_b hw _ _ (by positivity) h']; simp
  · rw [gaussE_eq hw hx hy hne hd]
    congr 2 <;> simp only [exG, eyG, eA, eB] <;> split_ifs with h
    · rw [fieldC_neg_b hw _ _ (by positivity) h]; simp
    · rw [fieldC_neg_a hw]; simp
    · rw [fieldC_neg_b hw _ _ (by positivity) h]; simp
    · rw [fieldC_neg_a hw]; simp
  · rw [gaussE_eq hw hy hx hne.symm (by rwa [abs_sub_comm])]
    have h2 : sx ^ 2 ≠ sy ^ 2 := fun h => hne ((sq_eq_sq₀ hx.le hy.le).mp h)
    rcases lt_or_gt_of_ne h2 with h | h
    · simp only [exG, eyG, if_pos h, if_neg (not_lt.mpr h.le)]
    · simp only [exG, eyG, if_pos (show sy ^ 2 < sx ^ 2 from h), if_neg (not_lt.mpr h.le)]

/-- The coefficients `Gx`, `Gy` of an elliptic beam are half of the derivatives of its field. -/
theorem C58_coefficients {w : ℂ → ℂ} (hw : IsFaddeeva w) {minDiff sx sy : ℝ} (hx : 0 < sx) (hy : 0 < sy) (hne : sx ≠ sy)
    (hd : minDiff ≤ |sx - sy|) :
    ∃ E : ℝ → ℝ → ℝ × ℝ, (∀ x y, gaussE (wRes w) minDiff sx sy x y = .ok (E x y)) ∧
      ∀ x y, ∃ gx gy, gaussG (wRes w) minDiff sx sy x y = .ok ⟨(E x y).1, (E x y).2, gx, gy⟩ ∧
        HalfDerivsAt E x y gx gy := by
  refine ⟨fun x y => (exG w x y (sx ^ 2) (sy ^ 2), eyG w x y (sx ^ 2) (sy ^ 2)), gaussE_eq hw hx hy hne hd,
    fun x y => ⟨_, _, gaussG_eq hw hx hy hne hd x y, ?_⟩⟩
  have hne2 : sx ^ 2 ≠ sy ^ 2 := fun h => hne ((sq_eq_sq₀ hx.le hy.le).mp h)
  have d1 := hasDerivAt_gauss hw (hasDerivAt_id x) (hasDerivAt_const x y) (hasDerivAt_const x (sx ^ 2))
    (hasDerivAt_const x (sy ^ 2)) (by positivity) (by positivity) hne2
  have d2 := hasDerivAt_gauss hw (hasDerivAt_const y x) (hasDerivAt_id y) (hasDerivAt_const y (sx ^ 2))
    (hasDerivAt_const y (sy ^ 2)) (by positivity) (by positivity) hne2
  simp only [id, mul_zero, mul_one, add_zero, zero_add] at d1 d2
  exact ⟨d1.1, d2.2.1⟩

/-- `F` has the derivative with the matrix of the rows `m`, along every curve through the point. -/
def SymmetricDerivAt (F : ℝ → ℝ → ℝ → ℝ → Field4 ℝ) (x y p q : ℝ) : Prop :=
  ∃ m : Fin 4 → Fin 4 → ℝ, (∀ i j, m i j = m j i) ∧
    ∀ (cx cy cp cq : ℝ → ℝ) (x' y' p' q' : ℝ), cx 0 = x → cy 0 = y → cp 0 = p → cq 0 = q →
      HasDerivAt cx x' 0 → HasDerivAt cy y' 0 → HasDerivAt cp p' 0 → HasDerivAt cq q' 0 →
      HasDerivAt (fun t => (F (cx t) (cy t) (cp t) (cq t)).ex) (m 0 0 * x' + m 0 1 * y' + m 0 2 * p' + m 0 3 * q') 0 ∧
      HasDerivAt (fun t => (F (cx t) (cy t) (cp t) (cq t)).ey) (m 1 0 * x' + m 1 1 * y' + m 1 2 * p' + m 1 3 * q') 0 ∧
      HasDerivAt (fun t => (F (cx t) (cy t) (cp t) (cq t)).gx) (m 2 0 * x' + m 2 1 * y' + m 2 2 * p' + m 2 3 * q') 0 ∧
      HasDerivAt (fun t => (F (cx t) (cy t) (cp t) (cq t)).gy) (m 3 0 * x' + m 3 1 * y' + m 3 2 * p' + m 3 3 * q') 0

/-- The field and the coefficients together are, as functions of the coordinates and of the squares of
the sizes, a field without curl: `Gx` and `Gy` give the force along the squares of the sizes. -/
theorem C58_closed {w : ℂ → ℂ} (hw : IsFaddeeva w) :
    ∃ F : ℝ → ℝ → ℝ → ℝ → Field4 ℝ,
      (∀ minDiff sx sy x y : ℝ, 0 < sx → 0 < sy → sx ≠ sy → minDiff ≤ |sx - sy| →
        gaussG (wRes w) minDiff sx sy x y = .ok (F x y (sx ^ 2) (sy ^ 2))) ∧
      ∀ x y p q : ℝ, 0 < p → 0 < q → p ≠ q → SymmetricDerivAt F x y p q := by
  refine ⟨fun x y p q => ⟨exG w x y p q, eyG w x y p q, gxG w x y p q, gyG w x y p q⟩,
    fun minDiff sx sy x y hx hy hne hd => gaussG_eq hw hx hy hne hd x y, fun x y p q hp hq hne => ?_⟩
  refine ⟨![![2 * gxG w x y p q, mXY w x y p q, mXP w x y p q, mXQ w x y p q],
    ![mXY w x y p q, 2 * gyG w x y p q, mYP w x y p q, mYQ w x y p q],
    ![mXP w x y p q, mYP w x y p q, mPP w x y p q, mPQ w x y p q],
    ![mXQ w x y p q, mYQ w x y p q, mPQ w x y p q, mQQ w x y p q]], ?_, ?_⟩
  · intro i j
    fin_cases i <;> fin_cases j <;> rfl
  · intro cx cy cp cq x' y' p' q' hx hy hp' hq' dx dy dp dq
    subst hx hy hp' hq'
    exact hasDerivAt_gauss hw dx dy dp dq hp hq hne

/-- Sizes closer than `min_sigma_diff`: the field and the coefficients are those of a round beam with
the mean size, away from the axis. -/
theorem C58_round {w : ℝ → ℝ → Res (ℝ × ℝ)} {minDiff sx sy : ℝ} (hx : 0 < sx) (hy : 0 < sy) (hd : |sx - sy| < minDiff) :
    ∃ E : ℝ → ℝ → ℝ × ℝ, ∀ x y : ℝ, 1e-20 ≤ x ^ 2 + y ^ 2 →
      gaussE w minDiff sx sy x y = .ok (E x y) ∧
      MaxwellAt (gaussDensity ((sx + sy) / 2) ((sx + sy) / 2)) E x y ∧
      ∃ gx gy, gaussG w minDiff sx sy x y = .ok ⟨(E x y).1, (E x y).2, gx, gy⟩ ∧ HalfDerivsAt E x y gx gy := by
  have hs : 0 < (sx + sy) / 2 := by linarith
  refine ⟨fun x y => (rX x y (((sx + sy) / 2) ^ 2), rY x y (((sx + sy) / 2) ^ 2)), fun x y hr => ?_⟩
  have hr' : 1 / 10 ^ 20 ≤ x ^ 2 + y ^ 2 := by norm_num at hr ⊢; linarith
  have h0 : 0 < x ^ 2 + y ^ 2 := lt_of_lt_of_le (by norm_num) hr'
  have d1 := hasDerivAt_rX (hasDerivAt_id x) (hasDerivAt_const x y) (hasDerivAt_const x (((sx + sy) / 2) ^ 2))
    (by positivity) h0.ne'
  have d2 := hasDerivAt_rX (hasDerivAt_const y x) (hasDerivAt_id y) (hasDerivAt_const y (((sx + sy) / 2) ^ 2))
    (by positivity) h0.ne'
  have d3 := hasDerivAt_rY (hasDerivAt_id x) (hasDerivAt_const x y) (hasDerivAt_const x (((sx + sy) / 2) ^ 2))
    (by positivity) h0.ne'
  have d4 := hasDerivAt_rY (hasDerivAt_const y x) (hasDerivAt_id y) (hasDerivAt_const y (((sx + sy) / 2) ^ 2))
    (by positivity) h0.ne'
  simp only [id, mul_zero, mul_one, add_zero, zero_add, sub_zero] at d1 d2 d3 d4
  refine ⟨?_, ⟨_, _, _, d1, d2, d3, d4, ?_⟩, _, _, gaussG_round (by linarith) hd hr', ?_, ?_⟩
  · unfold gaussE
    rw [if_pos (by rwa [fabs_eq]), show dec 5 1 * (sx + sy) = (sx + sy) / 2 by norm_num [dec]; ring]
    exact fieldRound_eq hs hr'
  · rw [round_div (by positivity) h0.ne', eps0_eq]
    unfold gaussDensity
    have e : -x ^ 2 / (2 * ((sx + sy) / 2) ^ 2) - y ^ 2 / (2 * ((sx + sy) / 2) ^ 2) =
        -(x ^ 2 + y ^ 2) / (2 * ((sx + sy) / 2) ^ 2) := by ring
    rw [e]
    ring
  · exact d1.congr_deriv (by ring)
  · exact d4.congr_deriv (by ring)

/-- With an approximation of the complex error function, as `cerrf` is one, the error of the field is
bounded by the error of the approximation. -/
theorem C58_error {w : ℂ → ℂ} (hw : IsFaddeeva w) {wr : ℝ → ℝ → Res (ℝ × ℝ)} {ε : ℝ} (ha : Approximates w ε wr)
    {minDiff sx sy : ℝ} (hx : 0 < sx) (hy : 0 < sy) (hne : sx ≠ sy) (hd : minDiff ≤ |sx - sy|) (x y : ℝ) :
    ∃ E E' : ℝ × ℝ, gaussE (wRes w) minDiff sx sy x y = .ok E ∧ gaussE wr minDiff sx sy x y = .ok E' ∧
      |E'.1 - E.1| ≤ ε / (8.854187817620e-12 * Real.sqrt (2 * Real.pi * |sx ^ 2 - sy ^ 2|)) ∧
      |E'.2 - E.2| ≤ ε / (8.854187817620e-12 * Real.sqrt (2 * Real.pi * |sx ^ 2 - sy ^ 2|)) := by
  have hfact : ∀ {A B : ℝ}, B < A → 2 * ε * fact A B = ε / (8.854187817620e-12 * Real.sqrt (2 * Real.pi * |A - B|)) := by
    intro A B h
    rw [← eps0_eq, abs_of_pos (by linarith), show 2 * Real.pi * (A - B) = Real.pi * (2 * (A - B)) by ring,
      Real.sqrt_mul Real.pi_pos.le]
    unfold fact sOf
    have he := eps0_pos
    have hp : 0 < Real.sqrt Real.pi := Real.sqrt_pos.mpr Real.pi_pos
    have hs : 0 < Real.sqrt (2 * (A - B)) := Real.sqrt_pos.mpr (by linarith)
    field_simp
  have hsign : ∀ {c u v δ : ℝ}, |u - v| ≤ δ → |(if c < 0 then -u else u) - (if c < 0 then -v else v)| ≤ δ := by
    intro c u v δ h
    split_ifs
    · rw [show -u - -v = -(u - v) by ring, abs_neg]; exact h
    · exact h
  have hdd : ¬ fabs (sx - sy) < minDiff := by rw [fabs_eq]; exact not_lt.mpr hd
  rcases lt_or_gt_of_ne hne with h | h
  · have hAB : sx ^ 2 < sy ^ 2 := pow_lt_pow_left₀ h hx.le two_ne_zero
    obtain ⟨p, h1, h2, h3⟩ := ellipHalf_approx ha hx h (abs_nonneg y) (abs_nonneg x)
    obtain ⟨c1, c2⟩ := fieldC_abs hw y x (by positivity) hAB
    rw [hfact hAB, abs_sub_comm (sy ^ 2)] at h2 h3
    refine ⟨_, ((if x < 0 then -p.2 else p.2), (if y < 0 then -p.1 else p.1)), gaussE_eq hw hx hy hne hd x y, ?_, ?_, ?_⟩
    · unfold gaussE fieldEllip
      rw [if_neg hdd]
      simp only [sub_zero, if_neg (show ¬ sx > sy by linarith), if_pos h, fabs_eq, h1, Res.ok_bind, Res.pure_eq]
    · simp only [exG, if_neg (not_lt.mpr hAB.le), eB, ← c2]
      exact hsign h3
    · simp only [eyG, if_neg (not_lt.mpr hAB.le), eA, ← c1]
      exact hsign h2
  · have hAB : sy ^ 2 < sx ^ 2 := pow_lt_pow_left₀ h hy.le two_ne_zero
    obtain ⟨p, h1, h2, h3⟩ := ellipHalf_approx ha hy h (abs_nonneg x) (abs_nonneg y)
    obtain ⟨c1, c2⟩ := fieldC_abs hw x y (by positivity) hAB
    rw [hfact hAB] at h2 h3
    refine ⟨_, ((if x < 0 then -p.1 else p.1), (if y < 0 then -p.2 else p.2)), gaussE_eq hw hx hy hne hd x y, ?_, ?_, ?_⟩
    · unfold gaussE fieldEllip
      rw [if_neg hdd]
      simp only [sub_zero, if_pos (show sx > sy from h), fabs_eq, h1, Res.ok_bind, Res.pure_eq]
    · simp only [exG, if_pos hAB, eA, ← c1]
      exact hsign h2
    · simp only [eyG, if_pos hAB, eB, ← c2]
      exact hsign h3

/-- Near the axis of a round beam the code takes `sqrt(r²)/(2π ε0 σ)` for the factor of the field: its
derivatives at the axis are zero, and Maxwell's equation does not hold there. -/
theorem C58_axis_violated {w : ℝ → ℝ → Res (ℝ × ℝ)} {minDiff s : ℝ} (hs : 0 < s) (hd : 0 < minDiff) :
    ∃ E : ℝ → ℝ → ℝ × ℝ, (∀ x y, gaussE w minDiff s s x y = .ok (E x y)) ∧ ¬ MaxwellAt (gaussDensity s s) E 0 0 := by
  have he := eps0_pos
  have hp := Real.pi_pos
  have e5 : dec 5 1 * (s + s) = s := by norm_num [dec]; ring
  have n2 : (2 : ℝ) * Real.pi * eps0 * s ≠ 0 := by positivity
  have small : ∀ x y : ℝ, x ^ 2 + y ^ 2 < 1 / 10 ^ 20 →
      gaussE w minDiff s s x y = .ok (Real.sqrt (x ^ 2 + y ^ 2) / (2 * Real.pi * eps0 * s) * x,
        Real.sqrt (x ^ 2 + y ^ 2) / (2 * Real.pi * eps0 * s) * y) := by
    intro x y h
    unfold gaussE fieldRound
    rw [if_pos (by rw [fabs_eq]; simpa using hd), e5]
    simp only [show (x - 0) * (x - 0) + (y - 0) * (y - 0) = x ^ 2 + y ^ 2 by ring]
    rw [if_pos (by norm_num [dec] at h ⊢; linarith), csqrt_ok (by positivity)]
    simp only [Res.ok_bind, Nat.cast_ofNat, pi_real, cdiv_ok n2, Res.pure_eq, sub_zero]
  have total : ∀ x y, ∃ e, gaussE w minDiff s s x y = .ok e := by
    intro x y
    by_cases h : x ^ 2 + y ^ 2 < 1 / 10 ^ 20
    · exact ⟨_, small x y h⟩
    · refine ⟨(rX x y (s ^ 2), rY x y (s ^ 2)), ?_⟩
      unfold gaussE
      rw [if_pos (by rw [fabs_eq]; simpa using hd), e5]
      exact fieldRound_eq hs (not_lt.mp h)
  choose E hE using total
  refine ⟨E, hE, ?_⟩
  rintro ⟨exx, exy, eyy, h1, -, -, h4, h5⟩
  have lim : ∀ x : ℝ, x ^ 2 < 1 / 10 ^ 20 → (E x 0).1 = |x| / (2 * Real.pi * eps0 * s) * x ∧
      (E 0 x).2 = |x| / (2 * Real.pi * eps0 * s) * x := by
    intro x hx
    have a := (hE x 0).symm.trans (small x 0 (by simpa using hx))
    have b := (hE 0 x).symm.trans (small 0 x (by simpa using hx))
    rw [Res.ok_inj] at a b
    rw [a, b]
    simp [Real.sqrt_sq_eq_abs]
  have hsq : HasDerivAt (fun x : ℝ => |x| / (2 * Real.pi * eps0 * s) * x) 0 0 := by
    rw [hasDerivAt_iff_tendsto_slope_zero]
    simp only [zero_add, abs_zero, zero_div, zero_mul, sub_zero, smul_eq_mul]
    have : Tendsto (fun x : ℝ => |x| / (2 * Real.pi * eps0 * s)) (nhdsWithin 0 {0}ᶜ) (nhds 0) := by
      have : Tendsto (fun x : ℝ => |x| / (2 * Real.pi * eps0 * s)) (nhds 0) (nhds (|0| / (2 * Real.pi * eps0 * s))) :=
        (continuous_abs.div_const _).tendsto 0
      simp only [abs_zero, zero_div] at this
      exact this.mono_left nhdsWithin_le_nhds
    refine this.congr' ?_
    filter_upwards [self_mem_nhdsWithin] with x hx
    have hx0 : x ≠ 0 := hx
    field_simp
  have hev : ∀ᶠ x : ℝ in nhds 0, x ^ 2 < 1 / 10 ^ 20 :=
    ((continuous_pow 2).tendsto (0 : ℝ)).eventually (gt_mem_nhds (by norm_num))
  have e1 : exx = 0 := h1.unique (hsq.congr_of_eventuallyEq (hev.mono fun x hx => (lim x hx).1))
  have e2 : eyy = 0 := h4.unique (hsq.congr_of_eventuallyEq (hev.mono fun x hx => (lim x hx).2))
  rw [e1, e2] at h5
  have : 0 < gaussDensity s s 0 0 := by unfold gaussDensity; positivity
  have : 0 < gaussDensity s s 0 0 / 8.854187817620e-12 := by positivity
  linarith

/-- On the axis of a round beam the coefficients are computed with a division by zero. -/
theorem C58_axis_division_violated (w : ℝ → ℝ → Res (ℝ × ℝ)) {minDiff s : ℝ} (hd : 0 < minDiff) :
    gaussG w minDiff s s 0 0 = .ub := by
  unfold gaussG
  rw [if_pos (by rw [fabs_eq]; simpa using hd)]
  simp only [mul_zero, add_zero, cdiv_zero, Res.ub_bind]
  cases fieldRound (dec 5 1 * (s + s)) 0 0 <;> rfl

/-- Equal sizes with `min_sigma_diff ≤ 0`: a division by zero. -/
theorem C58_equal_sizes_violated (w : ℝ → ℝ → Res (ℝ × ℝ)) {minDiff : ℝ} (hd : minDiff ≤ 0) (s x y : ℝ) :
    gaussE w minDiff s s x y = .ub := by
  unfold gaussE fieldEllip
  rw [if_neg (by rw [fabs_eq]; simpa using hd)]
  simp only [gt_iff_lt, lt_self_iff_false, if_false, cdiv_zero, Res.ub_bind]

/-- The exact function exists, and beams of 1 mm and 2 mm meet the hypotheses. -/
example : ∃ w, IsFaddeeva w ∧ ∃ E : ℝ → ℝ → ℝ × ℝ,
    (∀ x y, gaussE (wRes w) 1e-10 1e-3 2e-3 x y = .ok (E x y)) ∧ ∀ x y, MaxwellAt (gaussDensity 1e-3 2e-3) E x y := by
  obtain ⟨w, hw⟩ := exists_faddeeva
  exact ⟨w, hw, C58_elliptic hw (by norm_num) (by norm_num) (by norm_num) (by norm_num [abs_of_neg])⟩

example {w : ℂ → ℂ} : Approximates w 0 (wRes w) := fun u v _ _ => ⟨_, rfl, by simp, by simp⟩

end SixTrack
