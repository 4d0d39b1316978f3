import Verif.GaussField

/-!
# The field functions of the model with the exact complex error function
-/

namespace SixTrack
namespace Beam

open Complex Elem

/-- A complex function as the argument `w` of the field functions. -/
def wRes (w : ℂ → ℂ) (x y : ℝ) : Res (ℝ × ℝ) := .ok ((w ⟨x, y⟩).re, (w ⟨x, y⟩).im)

theorem zetaC_eq (a b A B : ℝ) : zetaC a b A B = ⟨a / sOf A B, b / sOf A B⟩ := by
  apply Complex.ext <;> simp [zetaC, Complex.div_ofReal_re, Complex.div_ofReal_im]

theorem etaC_eq (a b A B : ℝ) :
    etaC a b A B = ⟨kRatio A B * a / sOf A B, b / kRatio A B / sOf A B⟩ := by
  have h : ((b : ℂ) / kRatio A B) = ((b / kRatio A B : ℝ) : ℂ) := by push_cast; rfl
  unfold etaC
  rw [h]
  apply Complex.ext <;> simp [Complex.div_ofReal_re, Complex.div_ofReal_im]

theorem sqrtPi_real : (sqrtPi : ℝ) = Real.sqrt Real.pi := rfl

theorem kRatio_of_sq {s1 s2 : ℝ} (h2 : 0 < s2) (h1 : 0 < s1) : kRatio (s1 ^ 2) (s2 ^ 2) = s2 / s1 := by
  unfold kRatio
  rw [Real.sqrt_sq h2.le, Real.sqrt_sq h1.le]

theorem ellipHalf_eq (w : ℂ → ℂ) {s1 s2 : ℝ} (h2 : 0 < s2) (h1 : s2 < s1) (a b : ℝ) :
    ellipHalf (wRes w) s1 s2 a b =
      .ok ((fieldC w a b (s1 ^ 2) (s2 ^ 2)).im, (fieldC w a b (s1 ^ 2) (s2 ^ 2)).re) := by
  have h10 : 0 < s1 := by linarith
  have hAB : s2 ^ 2 < s1 ^ 2 := pow_lt_pow_left₀ h1 h2.le two_ne_zero
  have h : 0 < 2 * (s1 ^ 2 - s2 ^ 2) := by linarith
  have hs : 0 < sOf (s1 ^ 2) (s2 ^ 2) := Real.sqrt_pos.mpr h
  have hp : 0 < Real.sqrt Real.pi := Real.sqrt_pos.mpr Real.pi_pos
  have he := eps0_pos
  have e0 : (2 : ℝ) * (s1 * s1 - s2 * s2) = 2 * (s1 ^ 2 - s2 ^ 2) := by ring
  unfold ellipHalf
  simp only [Nat.cast_ofNat, e0, csqrt_ok h.le, Res.ok_bind]
  rw [show Real.sqrt (2 * (s1 ^ 2 - s2 ^ 2)) = sOf (s1 ^ 2) (s2 ^ 2) from rfl]
  have n1 : (2 : ℝ) * eps0 * sqrtPi * sOf (s1 ^ 2) (s2 ^ 2) ≠ 0 := by
    rw [sqrtPi_real]; positivity
  have n2 : (2 : ℝ) * s1 * s1 ≠ 0 := by positivity
  have n3 : (2 : ℝ) * s2 * s2 ≠ 0 := by positivity
  simp only [cdiv_ok n1, cdiv_ok h10.ne', cdiv_ok h2.ne', cdiv_ok hs.ne', cdiv_ok n2, cdiv_ok n3, Res.ok_bind, wRes,
    Res.pure_eq, Res.ok_inj]
  have ez : (⟨a / sOf (s1 ^ 2) (s2 ^ 2), b / sOf (s1 ^ 2) (s2 ^ 2)⟩ : ℂ) = zetaC a b (s1 ^ 2) (s2 ^ 2) :=
    (zetaC_eq _ _ _ _).symm
  have ee : (⟨s2 / s1 * a / sOf (s1 ^ 2) (s2 ^ 2), s1 / s2 * b / sOf (s1 ^ 2) (s2 ^ 2)⟩ : ℂ) =
      etaC a b (s1 ^ 2) (s2 ^ 2) := by
    rw [etaC_eq, kRatio_of_sq h2 h10]
    congr 2
    field_simp
  have ex : FieldOps.exp (-a * a / (2 * s1 * s1) - b * b / (2 * s2 * s2)) = xExp a b (s1 ^ 2) (s2 ^ 2) := by
    rw [exp_real, xExp]
    congr 1
    ring
  rw [ez, ee, ex]
  unfold fieldC
  rw [Complex.im_ofReal_mul, Complex.re_ofReal_mul, Complex.sub_im, Complex.sub_re, Complex.im_ofReal_mul,
    Complex.re_ofReal_mul]
  simp only [fact, sqrtPi_real, Prod.mk.injEq]
  constructor <;> ring

section
variable {w : ℂ → ℂ} (hw : IsFaddeeva w) (a b A B : ℝ)
include hw

theorem fieldC_neg_a : fieldC w (-a) b A B = (starRingEnd ℂ) (fieldC w a b A B) := by
  have ez : zetaC (-a) b A B = -(starRingEnd ℂ) (zetaC a b A B) := by
    rw [zetaC_eq, zetaC_eq]; apply Complex.ext <;> simp [neg_div]
  have ee : etaC (-a) b A B = -(starRingEnd ℂ) (etaC a b A B) := by
    rw [etaC_eq, etaC_eq]; apply Complex.ext <;> simp [neg_div]
  have ex : xExp (-a) b A B = xExp a b A B := by simp [xExp]
  unfold fieldC
  rw [ez, ee, ex, hw.conj, hw.conj]
  simp

variable {A B} (hB : 0 < B) (hAB : B < A)
include hB hAB

theorem exp_rel : Complex.exp (-zetaC a b A B ^ 2) = xExp a b A B * Complex.exp (-etaC a b A B ^ 2) := by
  unfold xExp
  rw [ofReal_exp, ← Complex.exp_add]
  congr 1
  have hA0 : 0 < A := by linarith
  have hs : 0 < sOf A B := Real.sqrt_pos.mpr (by linarith)
  have hk : 0 < kRatio A B := div_pos (Real.sqrt_pos.mpr hB) (Real.sqrt_pos.mpr hA0)
  have hsC : ((sOf A B : ℝ) : ℂ) ≠ 0 := by exact_mod_cast hs.ne'
  have hkC : ((kRatio A B : ℝ) : ℂ) ≠ 0 := by exact_mod_cast hk.ne'
  have hiA : (A : ℂ)⁻¹ = 2 * (1 - (kRatio A B : ℂ) ^ 2) * ((sOf A B : ℂ)⁻¹) ^ 2 := by
    exact_mod_cast congrArg (fun x : ℝ => (x : ℂ)) (inv_A hB hAB)
  have hiB : (B : ℂ)⁻¹ = 2 * (((kRatio A B : ℂ)⁻¹) ^ 2 - 1) * ((sOf A B : ℂ)⁻¹) ^ 2 := by
    exact_mod_cast congrArg (fun x : ℝ => (x : ℂ)) (inv_B hB hAB)
  unfold zetaC etaC
  push_cast
  simp only [div_eq_mul_inv, mul_inv, hiA, hiB]
  field_simp
  ring_nf
  simp only [I_sq]
  ring

theorem fieldC_neg_b : fieldC w a (-b) A B = -(starRingEnd ℂ) (fieldC w a b A B) := by
  have ez : zetaC a (-b) A B = -(starRingEnd ℂ) (-zetaC a b A B) := by
    rw [zetaC_eq, zetaC_eq]; apply Complex.ext <;> simp [neg_div]
  have ee : etaC a (-b) A B = -(starRingEnd ℂ) (-etaC a b A B) := by
    rw [etaC_eq, etaC_eq]; apply Complex.ext <;> simp [neg_div]
  have ex : xExp a (-b) A B = xExp a b A B := by simp [xExp]
  have hr := exp_rel hw a b hB hAB
  unfold fieldC
  rw [ez, ee, ex, hw.conj, hw.conj, hw.neg, hw.neg, hr]
  simp only [map_mul, map_sub, conj_ofReal]
  ring

/-- The field for both signs of the coordinates. -/
theorem fieldC_abs :
    (if a < 0 then -(fieldC w |a| |b| A B).im else (fieldC w |a| |b| A B).im) = (fieldC w a b A B).im ∧
    (if b < 0 then -(fieldC w |a| |b| A B).re else (fieldC w |a| |b| A B).re) = (fieldC w a b A B).re := by
  have h1 : fieldC w |a| |b| A B = if a < 0 then (if b < 0 then -(fieldC w a b A B) else (starRingEnd ℂ) (fieldC w a b A B))
      else (if b < 0 then -(starRingEnd ℂ) (fieldC w a b A B) else fieldC w a b A B) := by
    by_cases ha : a < 0 <;> by_cases hb : b < 0
    · rw [if_pos ha, if_pos hb, abs_of_neg ha, abs_of_neg hb, fieldC_neg_a hw, fieldC_neg_b hw _ _ hB hAB]
      simp
    · rw [if_pos ha, if_neg hb, abs_of_neg ha, abs_of_nonneg (not_lt.mp hb), fieldC_neg_a hw]
    · rw [if_neg ha, if_pos hb, abs_of_nonneg (not_lt.mp ha), abs_of_neg hb, fieldC_neg_b hw _ _ hB hAB]
    · rw [if_neg ha, if_neg hb, abs_of_nonneg (not_lt.mp ha), abs_of_nonneg (not_lt.mp hb)]
  rw [h1]
  by_cases ha : a < 0 <;> by_cases hb : b < 0 <;> simp [ha, hb]
end

theorem fieldEllip_x {w : ℂ → ℂ} (hw : IsFaddeeva w) {sx sy : ℝ} (hy : 0 < sy) (h : sy < sx) (x y : ℝ) :
    fieldEllip (wRes w) sx sy x y =
      .ok ((fieldC w x y (sx ^ 2) (sy ^ 2)).im, (fieldC w x y (sx ^ 2) (sy ^ 2)).re) := by
  have hAB : sy ^ 2 < sx ^ 2 := pow_lt_pow_left₀ h hy.le two_ne_zero
  have hc := fieldC_abs hw x y (by positivity) hAB
  unfold fieldEllip
  simp only [sub_zero, if_pos (show sx > sy from h), ellipHalf_eq w hy h, Res.ok_bind, fabs_eq, hc.1, hc.2, Res.pure_eq]

theorem fieldEllip_y {w : ℂ → ℂ} (hw : IsFaddeeva w) {sx sy : ℝ} (hx : 0 < sx) (h : sx < sy) (x y : ℝ) :
    fieldEllip (wRes w) sx sy x y =
      .ok ((fieldC w y x (sy ^ 2) (sx ^ 2)).re, (fieldC w y x (sy ^ 2) (sx ^ 2)).im) := by
  have hAB : sx ^ 2 < sy ^ 2 := pow_lt_pow_left₀ h hx.le two_ne_zero
  have hc := fieldC_abs hw y x (by positivity) hAB
  unfold fieldEllip
  simp only [sub_zero, if_neg (show ¬ sx > sy by linarith), if_pos h, ellipHalf_eq w hx h, Res.ok_bind, fabs_eq, hc.1, hc.2,
    Res.pure_eq]

end Beam
end SixTrack
