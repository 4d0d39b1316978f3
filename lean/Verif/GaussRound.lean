import Verif.GaussUnified

/-!
# The field of a round Gaussian beam, and the error made by an approximation of `w`
-/

namespace SixTrack
namespace Beam

open Complex Elem

/-- The factor of the field of a round beam; `r = x² + y²`, `P` the square of the size. -/
noncomputable def rTemp (r P : ℝ) : ℝ := (1 - Real.exp (-r / (2 * P))) / (2 * Real.pi * eps0 * r)
noncomputable def rX (x y P : ℝ) : ℝ := rTemp (x ^ 2 + y ^ 2) P * x
noncomputable def rY (x y P : ℝ) : ℝ := rTemp (x ^ 2 + y ^ 2) P * y
/-- The derivative of `rTemp` along `r`. -/
noncomputable def rD (r P : ℝ) : ℝ := (pEps * Real.exp (-r / (2 * P)) / (2 * P) - rTemp r P) / r
/-- The derivatives along `x`, `y` and both. -/
noncomputable def rXX (x y P : ℝ) : ℝ := rTemp (x ^ 2 + y ^ 2) P + 2 * x ^ 2 * rD (x ^ 2 + y ^ 2) P
noncomputable def rXY (x y P : ℝ) : ℝ := 2 * x * y * rD (x ^ 2 + y ^ 2) P
noncomputable def rYY (x y P : ℝ) : ℝ := rTemp (x ^ 2 + y ^ 2) P + 2 * y ^ 2 * rD (x ^ 2 + y ^ 2) P
/-- The derivative along `P` of the potential, and its derivatives. -/
noncomputable def rG (x y P : ℝ) : ℝ := pEps * Real.exp (-(x ^ 2 + y ^ 2) / (2 * P)) / (2 * P)

section
variable {x y P : ℝ → ℝ} {x' y' P' t : ℝ}
  (hx : HasDerivAt x x' t) (hy : HasDerivAt y y' t) (hP : HasDerivAt P P' t) (hP0 : 0 < P t)
include hx hy hP hP0

theorem hasDerivAt_rG : HasDerivAt (fun t => rG (x t) (y t) (P t))
    (-x t / P t * rG (x t) (y t) (P t) * x' - y t / P t * rG (x t) (y t) (P t) * y' +
      ((x t ^ 2 + y t ^ 2) / (2 * P t) - 1) / P t * rG (x t) (y t) (P t) * P') t := by
  have d := ((((((hx.pow 2).add (hy.pow 2)).neg).div (hP.const_mul 2) (by positivity)).exp).const_mul pEps).div
    (hP.const_mul 2) (by positivity)
  refine d.congr_deriv ?_
  simp only [Pi.add_apply, Pi.div_apply, Pi.neg_apply, Pi.pow_apply, Nat.cast_ofNat, rG]
  field_simp
  ring

theorem hasDerivAt_rTemp (hr : x t ^ 2 + y t ^ 2 ≠ 0) :
    HasDerivAt (fun t => rTemp (x t ^ 2 + y t ^ 2) (P t))
    (rD (x t ^ 2 + y t ^ 2) (P t) * (2 * x t * x' + 2 * y t * y') - rG (x t) (y t) (P t) / P t * P') t := by
  have he := eps0_pos
  have hp := Real.pi_pos
  have dr := (hx.pow 2).add (hy.pow 2)
  have d := (((dr.neg.div (hP.const_mul 2) (by positivity)).exp).const_sub 1).div (dr.const_mul (2 * Real.pi * eps0))
    (mul_ne_zero (by positivity) hr)
  refine d.congr_deriv ?_
  simp only [Pi.add_apply, Pi.div_apply, Pi.neg_apply, Pi.pow_apply, Nat.cast_ofNat, rG, rD, rTemp, pEps]
  field_simp
  ring

theorem hasDerivAt_rX (hr : x t ^ 2 + y t ^ 2 ≠ 0) : HasDerivAt (fun t => rX (x t) (y t) (P t))
    (rXX (x t) (y t) (P t) * x' + rXY (x t) (y t) (P t) * y' - x t / P t * rG (x t) (y t) (P t) * P') t := by
  refine ((hasDerivAt_rTemp hx hy hP hP0 hr).mul hx).congr_deriv ?_
  unfold rXX rXY
  ring

theorem hasDerivAt_rY (hr : x t ^ 2 + y t ^ 2 ≠ 0) : HasDerivAt (fun t => rY (x t) (y t) (P t))
    (rXY (x t) (y t) (P t) * x' + rYY (x t) (y t) (P t) * y' - y t / P t * rG (x t) (y t) (P t) * P') t := by
  refine ((hasDerivAt_rTemp hx hy hP hP0 hr).mul hy).congr_deriv ?_
  unfold rYY rXY
  ring
end

theorem round_div {x y P : ℝ} (hP : 0 < P) (hr : x ^ 2 + y ^ 2 ≠ 0) :
    rXX x y P + rYY x y P = Real.exp (-(x ^ 2 + y ^ 2) / (2 * P)) / (2 * Real.pi * P) / eps0 := by
  have he := eps0_pos
  have hp := Real.pi_pos
  unfold rXX rYY rD pEps
  generalize Real.exp _ = e
  field_simp
  ring

theorem fieldRound_eq {s x y : ℝ} (hs : 0 < s) (hr : 1 / 10 ^ 20 ≤ x ^ 2 + y ^ 2) :
    fieldRound s x y = .ok (rX x y (s ^ 2), rY x y (s ^ 2)) := by
  have he := eps0_pos
  have hp := Real.pi_pos
  have h0 : 0 < x ^ 2 + y ^ 2 := lt_of_lt_of_le (by norm_num) hr
  have e0 : (x - 0) * (x - 0) + (y - 0) * (y - 0) = x ^ 2 + y ^ 2 := by ring
  have n1 : s * s ≠ 0 := by positivity
  have n2 : (2 : ℝ) * Real.pi * eps0 * (x ^ 2 + y ^ 2) ≠ 0 := by positivity
  unfold fieldRound
  simp only [e0]
  rw [if_neg (by norm_num [dec] at hr ⊢; linarith)]
  simp only [cdiv_ok n1, Nat.cast_ofNat, pi_real, cdiv_ok n2, Res.ok_bind, Res.pure_eq, sub_zero, rX, rY, rTemp, exp_real]
  have e1 : -dec 5 1 * (x ^ 2 + y ^ 2) / (s * s) = -(x ^ 2 + y ^ 2) / (2 * s ^ 2) := by
    norm_num [dec]; ring
  rw [e1]

theorem gaussG_round {w : ℝ → ℝ → Res (ℝ × ℝ)} {minDiff sx sy x y : ℝ} (hs : 0 < sx + sy)
    (hd : |sx - sy| < minDiff) (hr : 1 / 10 ^ 20 ≤ x ^ 2 + y ^ 2) :
    gaussG w minDiff sx sy x y = .ok ⟨rX x y (((sx + sy) / 2) ^ 2), rY x y (((sx + sy) / 2) ^ 2),
      rXX x y (((sx + sy) / 2) ^ 2) / 2, rYY x y (((sx + sy) / 2) ^ 2) / 2⟩ := by
  have he := eps0_pos
  have hp := Real.pi_pos
  have h0 : 0 < x ^ 2 + y ^ 2 := lt_of_lt_of_le (by norm_num) hr
  unfold gaussG
  rw [if_pos (by rwa [fabs_eq])]
  have e5 : dec 5 1 * (sx + sy) = (sx + sy) / 2 := by norm_num [dec]; ring
  simp only [e5]
  have hs2 : 0 < (sx + sy) / 2 := by linarith
  generalize (sx + sy) / 2 = s at *
  have e0 : x * x + y * y = x ^ 2 + y ^ 2 := by ring
  have n1 : (2 : ℝ) * (x ^ 2 + y ^ 2) ≠ 0 := by positivity
  have n2 : (2 : ℝ) * Real.pi * eps0 * s * s ≠ 0 := by positivity
  have n3 : (2 : ℝ) * s * s ≠ 0 := by positivity
  have e1 : -(x ^ 2 + y ^ 2) / (2 * s * s) = -(x ^ 2 + y ^ 2) / (2 * s ^ 2) := by ring
  simp only [fieldRound_eq hs2 hr, Res.ok_bind, e0, Nat.cast_ofNat, pi_real, cdiv_ok n1, cdiv_ok n2, cdiv_ok n3, e1,
    Res.pure_eq, Res.ok_inj, Field4.mk.injEq, true_and, rX, rY, rXX, rYY, rD, pEps, exp_real]
  generalize rTemp (x ^ 2 + y ^ 2) (s ^ 2) = T
  generalize Real.exp (-(x ^ 2 + y ^ 2) / (2 * s ^ 2)) = e
  constructor <;> field_simp <;> ring

/-- `wr` approximates `w` in the first quadrant. -/
def Approximates (w : ℂ → ℂ) (ε : ℝ) (wr : ℝ → ℝ → Res (ℝ × ℝ)) : Prop :=
  ∀ u v : ℝ, 0 ≤ u → 0 ≤ v → ∃ p : ℝ × ℝ, wr u v = .ok p ∧
    |p.1 - (w ⟨u, v⟩).re| ≤ ε ∧ |p.2 - (w ⟨u, v⟩).im| ≤ ε

theorem ellipHalf_approx {w : ℂ → ℂ} {ε : ℝ} {wr : ℝ → ℝ → Res (ℝ × ℝ)} (ha : Approximates w ε wr)
    {s1 s2 : ℝ} (h2 : 0 < s2) (h1 : s2 < s1) {a b : ℝ} (ha0 : 0 ≤ a) (hb0 : 0 ≤ b) :
    ∃ p : ℝ × ℝ, ellipHalf wr s1 s2 a b = .ok p ∧
      |p.1 - eA w a b (s1 ^ 2) (s2 ^ 2)| ≤ 2 * ε * fact (s1 ^ 2) (s2 ^ 2) ∧
      |p.2 - eB w a b (s1 ^ 2) (s2 ^ 2)| ≤ 2 * ε * fact (s1 ^ 2) (s2 ^ 2) := by
  have h10 : 0 < s1 := by linarith
  have hAB : s2 ^ 2 < s1 ^ 2 := pow_lt_pow_left₀ h1 h2.le two_ne_zero
  have h : 0 < 2 * (s1 ^ 2 - s2 ^ 2) := by linarith
  have hs : 0 < sOf (s1 ^ 2) (s2 ^ 2) := Real.sqrt_pos.mpr h
  have hp : 0 < Real.sqrt Real.pi := Real.sqrt_pos.mpr Real.pi_pos
  have he := eps0_pos
  have e0 : (2 : ℝ) * (s1 * s1 - s2 * s2) = 2 * (s1 ^ 2 - s2 ^ 2) := by ring
  obtain ⟨p, hp1, hp2, hp3⟩ := ha (a / sOf (s1 ^ 2) (s2 ^ 2)) (b / sOf (s1 ^ 2) (s2 ^ 2)) (by positivity) (by positivity)
  obtain ⟨q, hq1, hq2, hq3⟩ := ha (s2 / s1 * a / sOf (s1 ^ 2) (s2 ^ 2)) (s1 / s2 * b / sOf (s1 ^ 2) (s2 ^ 2))
    (by positivity) (by positivity)
  have n1 : (2 : ℝ) * eps0 * sqrtPi * sOf (s1 ^ 2) (s2 ^ 2) ≠ 0 := by
    rw [sqrtPi_real]; positivity
  have n2 : (2 : ℝ) * s1 * s1 ≠ 0 := by positivity
  have n3 : (2 : ℝ) * s2 * s2 ≠ 0 := by positivity
  unfold ellipHalf
  simp only [Nat.cast_ofNat, e0, csqrt_ok h.le, Res.ok_bind]
  rw [show Real.sqrt (2 * (s1 ^ 2 - s2 ^ 2)) = sOf (s1 ^ 2) (s2 ^ 2) from rfl]
  simp only [cdiv_ok n1, cdiv_ok h10.ne', cdiv_ok h2.ne', cdiv_ok hs.ne', cdiv_ok n2, cdiv_ok n3, Res.ok_bind, hp1, hq1,
    Res.pure_eq, Res.ok_inj]
  have ez : (⟨a / sOf (s1 ^ 2) (s2 ^ 2), b / sOf (s1 ^ 2) (s2 ^ 2)⟩ : ℂ) = zetaC a b (s1 ^ 2) (s2 ^ 2) :=
    (zetaC_eq _ _ _ _).symm
  have ee : (⟨s2 / s1 * a / sOf (s1 ^ 2) (s2 ^ 2), s1 / s2 * b / sOf (s1 ^ 2) (s2 ^ 2)⟩ : ℂ) =
      etaC a b (s1 ^ 2) (s2 ^ 2) := by
    rw [etaC_eq, kRatio_of_sq h2 h10]
    congr 2
    field_simp
  have ex : FieldOps.exp (-a * a / (2 * s1 * s1) - b * b / (2 * s2 * s2)) = xExp a b (s1 ^ 2) (s2 ^ 2) := by
    rw [exp_real, xExp]
    congr 1
    ring
  rw [ez] at hp2 hp3
  rw [ee] at hq2 hq3
  rw [ex]
  have hX0 : 0 < xExp a b (s1 ^ 2) (s2 ^ 2) := Real.exp_pos _
  have hX1 : xExp a b (s1 ^ 2) (s2 ^ 2) ≤ 1 := by
    unfold xExp
    rw [Real.exp_le_one_iff]
    have : 0 ≤ a ^ 2 / (2 * s1 ^ 2) := by positivity
    have : 0 ≤ b ^ 2 / (2 * s2 ^ 2) := by positivity
    rw [neg_div]
    linarith
  have hF : 0 < fact (s1 ^ 2) (s2 ^ 2) := by unfold fact; positivity
  have eF : 1 / (2 * eps0 * sqrtPi * sOf (s1 ^ 2) (s2 ^ 2)) = fact (s1 ^ 2) (s2 ^ 2) := by rw [sqrtPi_real, fact]
  rw [eF]
  have hε : 0 ≤ ε := (abs_nonneg _).trans hp2
  have key : ∀ p q z e : ℝ, |p - z| ≤ ε → |q - e| ≤ ε →
      |fact (s1 ^ 2) (s2 ^ 2) * (p - q * xExp a b (s1 ^ 2) (s2 ^ 2)) -
        fact (s1 ^ 2) (s2 ^ 2) * (z - xExp a b (s1 ^ 2) (s2 ^ 2) * e)| ≤ 2 * ε * fact (s1 ^ 2) (s2 ^ 2) := by
    intro p q z e h1 h2
    rw [show fact (s1 ^ 2) (s2 ^ 2) * (p - q * xExp a b (s1 ^ 2) (s2 ^ 2)) -
        fact (s1 ^ 2) (s2 ^ 2) * (z - xExp a b (s1 ^ 2) (s2 ^ 2) * e) =
        fact (s1 ^ 2) (s2 ^ 2) * ((p - z) - (q - e) * xExp a b (s1 ^ 2) (s2 ^ 2)) by ring, abs_mul, abs_of_pos hF, mul_comm]
    refine mul_le_mul_of_nonneg_right ?_ hF.le
    refine (abs_sub _ _).trans ?_
    rw [abs_mul, abs_of_pos hX0]
    have := mul_le_of_le_one_right (abs_nonneg (q - e)) hX1
    linarith
  have e1 : eA w a b (s1 ^ 2) (s2 ^ 2) = fact (s1 ^ 2) (s2 ^ 2) * ((w (zetaC a b (s1 ^ 2) (s2 ^ 2))).im -
      xExp a b (s1 ^ 2) (s2 ^ 2) * (w (etaC a b (s1 ^ 2) (s2 ^ 2))).im) := by
    unfold eA fieldC
    rw [Complex.im_ofReal_mul, Complex.sub_im, Complex.im_ofReal_mul]
  have e2 : eB w a b (s1 ^ 2) (s2 ^ 2) = fact (s1 ^ 2) (s2 ^ 2) * ((w (zetaC a b (s1 ^ 2) (s2 ^ 2))).re -
      xExp a b (s1 ^ 2) (s2 ^ 2) * (w (etaC a b (s1 ^ 2) (s2 ^ 2))).re) := by
    unfold eB fieldC
    rw [Complex.re_ofReal_mul, Complex.sub_re, Complex.re_ofReal_mul]
  rw [e1, e2]
  exact ⟨_, rfl, key _ _ _ _ hp3 hq3, key _ _ _ _ hp2 hq2⟩

end Beam
end SixTrack
