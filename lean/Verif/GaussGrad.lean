import Verif.GaussModel

/-!
# The field and its coefficients are a gradient in the coordinates and the squares of the sizes
-/

namespace SixTrack
namespace Beam

open Complex Elem

/-- The field along the larger size `a`, the smaller size `b`, and the coefficients of both. -/
noncomputable def eA (w : ℂ → ℂ) (a b A B : ℝ) : ℝ := (fieldC w a b A B).im
noncomputable def eB (w : ℂ → ℂ) (a b A B : ℝ) : ℝ := (fieldC w a b A B).re
noncomputable def pEps : ℝ := 1 / (2 * Real.pi * eps0)
noncomputable def gA (w : ℂ → ℂ) (a b A B : ℝ) : ℝ :=
  -(1 / sOf A B ^ 2) * (a * eA w a b A B + b * eB w a b A B + pEps * (kRatio A B * xExp a b A B - 1))
noncomputable def gB (w : ℂ → ℂ) (a b A B : ℝ) : ℝ :=
  (1 / sOf A B ^ 2) * (a * eA w a b A B + b * eB w a b A B + pEps * (xExp a b A B / kRatio A B - 1))

/-- The matrix of the second derivatives. -/
noncomputable def j12 (w : ℂ → ℂ) (a b A B : ℝ) : ℝ := -(2 / sOf A B ^ 2) * (a * eB w a b A B - b * eA w a b A B)
noncomputable def j13 (w : ℂ → ℂ) (a b A B : ℝ) : ℝ :=
  -(1 / sOf A B ^ 2) * (eA w a b A B + a * (2 * gA w a b A B) + b * j12 w a b A B -
    pEps * kRatio A B * xExp a b A B * a / A)
noncomputable def j14 (w : ℂ → ℂ) (a b A B : ℝ) : ℝ :=
  (1 / sOf A B ^ 2) * (eA w a b A B - a * (2 * gB w a b A B) + b * j12 w a b A B)
noncomputable def j23 (w : ℂ → ℂ) (a b A B : ℝ) : ℝ :=
  -(1 / sOf A B ^ 2) * (eB w a b A B + a * j12 w a b A B - b * (2 * gA w a b A B))
noncomputable def j24 (w : ℂ → ℂ) (a b A B : ℝ) : ℝ :=
  (1 / sOf A B ^ 2) * (eB w a b A B + a * j12 w a b A B + b * (2 * gB w a b A B) -
    pEps * xExp a b A B / kRatio A B * b / B)
noncomputable def j33 (w : ℂ → ℂ) (a b A B : ℝ) : ℝ :=
  -(1 / sOf A B ^ 2) * (2 * gA w a b A B + a * j13 w a b A B + b * j23 w a b A B +
    pEps * kRatio A B * xExp a b A B * (-1 / (2 * A) + a ^ 2 / (2 * A ^ 2)))
noncomputable def j34 (w : ℂ → ℂ) (a b A B : ℝ) : ℝ :=
  -(1 / sOf A B ^ 2) * (-2 * gA w a b A B + a * j14 w a b A B + b * j24 w a b A B +
    pEps * kRatio A B * xExp a b A B * (1 / (2 * B) + b ^ 2 / (2 * B ^ 2)))
noncomputable def j44 (w : ℂ → ℂ) (a b A B : ℝ) : ℝ :=
  (1 / sOf A B ^ 2) * (2 * gB w a b A B + a * j14 w a b A B + b * j24 w a b A B +
    pEps * xExp a b A B / kRatio A B * (-1 / (2 * B) + b ^ 2 / (2 * B ^ 2)))

section
variable (w : ℂ → ℂ) (a b : ℝ) {A B : ℝ} (hB : 0 < B) (hAB : B < A)

include hAB in
theorem cFact : 2 * fact A B / (Real.sqrt Real.pi * sOf A B) = 2 * pEps / sOf A B ^ 2 := by
  have hs : 0 < sOf A B := Real.sqrt_pos.mpr (by linarith)
  have he := eps0_pos
  have hp : 0 < Real.sqrt Real.pi := Real.sqrt_pos.mpr Real.pi_pos
  have hpp : Real.pi = Real.sqrt Real.pi ^ 2 := (Real.sq_sqrt Real.pi_pos.le).symm
  unfold fact pEps
  generalize Real.sqrt Real.pi = q at *
  rw [hpp]
  field_simp

include hAB

theorem fieldA_parts : (fieldA w a b A B).im = 2 * gA w a b A B ∧ (fieldA w a b A B).re = j12 w a b A B := by
  have hs : 0 < sOf A B := Real.sqrt_pos.mpr (by linarith)
  unfold fieldA gA j12 eA eB
  rw [cFact hAB]
  have e : -2 * ((a : ℂ) + b * I) / sOf A B ^ 2 = ⟨-2 * a / sOf A B ^ 2, -2 * b / sOf A B ^ 2⟩ := by
    have : ((sOf A B : ℂ)) ^ 2 = ((sOf A B ^ 2 : ℝ) : ℂ) := by push_cast; rfl
    rw [this]
    generalize sOf A B ^ 2 = S
    apply Complex.ext <;> simp [Complex.div_ofReal_re, Complex.div_ofReal_im]
  have e2 : I * (1 - (kRatio A B : ℂ) * xExp a b A B) * ((2 * pEps / sOf A B ^ 2 : ℝ) : ℂ) =
      ⟨0, (1 - kRatio A B * xExp a b A B) * (2 * pEps / sOf A B ^ 2)⟩ := by
    generalize 2 * pEps / sOf A B ^ 2 = c
    apply Complex.ext <;> simp
  rw [e, e2]
  constructor
  · rw [Complex.add_im, Complex.mul_im]
    simp only []
    field_simp
    ring
  · rw [Complex.add_re, Complex.mul_re]
    simp only []
    field_simp
    ring

theorem fieldB_parts : (fieldB w a b A B).im = j12 w a b A B ∧ (fieldB w a b A B).re = 2 * gB w a b A B := by
  have hs : 0 < sOf A B := Real.sqrt_pos.mpr (by linarith)
  unfold fieldB gB j12 eA eB
  rw [cFact hAB]
  have e : -2 * I * ((a : ℂ) + b * I) / sOf A B ^ 2 = ⟨2 * b / sOf A B ^ 2, -2 * a / sOf A B ^ 2⟩ := by
    have : ((sOf A B : ℂ)) ^ 2 = ((sOf A B ^ 2 : ℝ) : ℂ) := by push_cast; rfl
    rw [this]
    generalize sOf A B ^ 2 = S
    apply Complex.ext <;> simp [Complex.div_ofReal_re, Complex.div_ofReal_im]
  have e2 : (1 - (xExp a b A B : ℂ) / kRatio A B) * ((2 * pEps / sOf A B ^ 2 : ℝ) : ℂ) =
      ⟨(1 - xExp a b A B / kRatio A B) * (2 * pEps / sOf A B ^ 2), 0⟩ := by
    generalize 2 * pEps / sOf A B ^ 2 = c
    apply Complex.ext <;> simp [Complex.div_ofReal_re, Complex.div_ofReal_im]
  rw [e, e2]
  constructor
  · rw [Complex.sub_im, Complex.mul_im]
    simp only []
    field_simp
    ring
  · rw [Complex.sub_re, Complex.mul_re]
    simp only []
    field_simp
    ring

include hB

theorem fieldAA_parts : (fieldAA w a b A B).im = j13 w a b A B ∧ (fieldAA w a b A B).re = j23 w a b A B := by
  have hs : 0 < sOf A B := Real.sqrt_pos.mpr (by linarith)
  have hA : 0 < A := by linarith
  have hA' := fieldA_parts w a b hAB
  unfold fieldAA
  rw [cFact hAB]
  have e : ((a : ℂ) + b * I) / sOf A B ^ 2 = ⟨a / sOf A B ^ 2, b / sOf A B ^ 2⟩ := by
    have : ((sOf A B : ℂ)) ^ 2 = ((sOf A B ^ 2 : ℝ) : ℂ) := by push_cast; rfl
    rw [this]
    generalize sOf A B ^ 2 = S
    apply Complex.ext <;> simp [Complex.div_ofReal_re, Complex.div_ofReal_im]
  have e1 : -fieldC w a b A B / sOf A B ^ 2 = ⟨-eB w a b A B / sOf A B ^ 2, -eA w a b A B / sOf A B ^ 2⟩ := by
    have : ((sOf A B : ℂ)) ^ 2 = ((sOf A B ^ 2 : ℝ) : ℂ) := by push_cast; rfl
    rw [this]
    generalize sOf A B ^ 2 = S
    apply Complex.ext <;> simp [Complex.div_ofReal_re, Complex.div_ofReal_im, eA, eB]
  have e2 : I * ((kRatio A B : ℂ) * a * xExp a b A B / (2 * A)) * ((2 * pEps / sOf A B ^ 2 : ℝ) : ℂ) =
      ⟨0, kRatio A B * a * xExp a b A B / (2 * A) * (2 * pEps / sOf A B ^ 2)⟩ := by
    have : (kRatio A B : ℂ) * a * xExp a b A B / (2 * A) = ((kRatio A B * a * xExp a b A B / (2 * A) : ℝ) : ℂ) := by
      push_cast; rfl
    rw [this]
    generalize 2 * pEps / sOf A B ^ 2 = c
    generalize kRatio A B * a * xExp a b A B / (2 * A) = d
    generalize b * xExp a b A B / (2 * kRatio A B * B) = d
    apply Complex.ext <;> simp
  rw [e, e1, e2]
  constructor
  · rw [Complex.add_im, Complex.sub_im, Complex.mul_im, hA'.1, hA'.2]
    unfold j13
    field_simp
    ring
  · rw [Complex.add_re, Complex.sub_re, Complex.mul_re, hA'.1, hA'.2]
    unfold j23
    field_simp
    ring

theorem fieldBB_parts : (fieldBB w a b A B).im = j14 w a b A B ∧ (fieldBB w a b A B).re = j24 w a b A B := by
  have hs : 0 < sOf A B := Real.sqrt_pos.mpr (by linarith)
  have hA : 0 < A := by linarith
  have hk : 0 < kRatio A B := div_pos (Real.sqrt_pos.mpr hB) (Real.sqrt_pos.mpr hA)
  have hA' := fieldB_parts w a b hAB
  unfold fieldBB
  rw [cFact hAB]
  have e : I * ((a : ℂ) + b * I) / sOf A B ^ 2 = ⟨-b / sOf A B ^ 2, a / sOf A B ^ 2⟩ := by
    have : ((sOf A B : ℂ)) ^ 2 = ((sOf A B ^ 2 : ℝ) : ℂ) := by push_cast; rfl
    rw [this]
    generalize sOf A B ^ 2 = S
    apply Complex.ext <;> simp [Complex.div_ofReal_re, Complex.div_ofReal_im]
  have e1 : fieldC w a b A B / sOf A B ^ 2 = ⟨eB w a b A B / sOf A B ^ 2, eA w a b A B / sOf A B ^ 2⟩ := by
    have : ((sOf A B : ℂ)) ^ 2 = ((sOf A B ^ 2 : ℝ) : ℂ) := by push_cast; rfl
    rw [this]
    generalize sOf A B ^ 2 = S
    apply Complex.ext <;> simp [Complex.div_ofReal_re, Complex.div_ofReal_im, eA, eB]
  have e2 : ((b : ℂ) * xExp a b A B / (2 * kRatio A B * B)) * ((2 * pEps / sOf A B ^ 2 : ℝ) : ℂ) =
      ⟨b * xExp a b A B / (2 * kRatio A B * B) * (2 * pEps / sOf A B ^ 2), 0⟩ := by
    have : (b : ℂ) * xExp a b A B / (2 * kRatio A B * B) = ((b * xExp a b A B / (2 * kRatio A B * B) : ℝ) : ℂ) := by
      push_cast; rfl
    rw [this]
    generalize 2 * pEps / sOf A B ^ 2 = c
    generalize kRatio A B * a * xExp a b A B / (2 * A) = d
    generalize b * xExp a b A B / (2 * kRatio A B * B) = d
    apply Complex.ext <;> simp
  rw [e, e1, e2]
  constructor
  · rw [Complex.sub_im, Complex.sub_im, Complex.mul_im, hA'.1, hA'.2]
    unfold j14
    field_simp
    ring
  · rw [Complex.sub_re, Complex.sub_re, Complex.mul_re, hA'.1, hA'.2]
    unfold j24
    field_simp
    ring

/-- The other expressions for the mixed entries. -/
theorem j_symm :
    j14 w a b A B = (1 / sOf A B ^ 2) * (eA w a b A B + a * (2 * gA w a b A B) + b * j12 w a b A B -
      pEps * xExp a b A B / kRatio A B * a / A) ∧
    j23 w a b A B = -(1 / sOf A B ^ 2) * (eB w a b A B + a * j12 w a b A B + b * (2 * gB w a b A B) -
      pEps * kRatio A B * xExp a b A B * b / B) ∧
    j34 w a b A B = (1 / sOf A B ^ 2) * (-2 * gB w a b A B + a * j13 w a b A B + b * j23 w a b A B +
      pEps * xExp a b A B / kRatio A B * (1 / (2 * A) + a ^ 2 / (2 * A ^ 2))) := by
  have hs : 0 < sOf A B := Real.sqrt_pos.mpr (by linarith)
  have hA : 0 < A := by linarith
  have hk : 0 < kRatio A B := div_pos (Real.sqrt_pos.mpr hB) (Real.sqrt_pos.mpr hA)
  have hiA := inv_A hB hAB
  have hiB := inv_B hB hAB
  unfold j34 j24 j14 j13 j23 j12 gA gB
  simp only [div_eq_mul_inv, mul_inv, ← inv_pow, hiA, hiB]
  generalize eA w a b A B = u
  generalize eB w a b A B = v
  generalize xExp a b A B = X
  generalize pEps = p
  generalize kRatio A B = k at *
  generalize sOf A B = s at *
  refine ⟨?_, ?_, ?_⟩ <;> field_simp <;> ring

end

section
variable {w : ℂ → ℂ} (hw : IsFaddeeva w) {a b A B : ℝ → ℝ} {a' b' A' B' t : ℝ}
  (ha : HasDerivAt a a' t) (hb : HasDerivAt b b' t)
  (hA : HasDerivAt A A' t) (hB : HasDerivAt B B' t) (hB0 : 0 < B t) (hAB : B t < A t)
include hw ha hb hA hB hB0 hAB

theorem hasDerivAt_eA : HasDerivAt (fun t => eA w (a t) (b t) (A t) (B t))
    (2 * gA w (a t) (b t) (A t) (B t) * a' + j12 w (a t) (b t) (A t) (B t) * b' +
      j13 w (a t) (b t) (A t) (B t) * A' + j14 w (a t) (b t) (A t) (B t) * B') t := by
  have h := hasDerivAt_fieldC hw ha hb hA hB hB0 hAB
  have h2 := Complex.imCLM.hasFDerivAt.comp_hasDerivAt t h
  refine h2.congr_deriv ?_
  have p1 := fieldA_parts w (a t) (b t) hAB
  have p2 := fieldB_parts w (a t) (b t) hAB
  have p3 := fieldAA_parts w (a t) (b t) hB0 hAB
  have p4 := fieldBB_parts w (a t) (b t) hB0 hAB
  simp only [Complex.imCLM_apply, Complex.add_im, Complex.im_mul_ofReal, p1.1, p2.1, p3.1, p4.1]

theorem hasDerivAt_eB : HasDerivAt (fun t => eB w (a t) (b t) (A t) (B t))
    (j12 w (a t) (b t) (A t) (B t) * a' + 2 * gB w (a t) (b t) (A t) (B t) * b' +
      j23 w (a t) (b t) (A t) (B t) * A' + j24 w (a t) (b t) (A t) (B t) * B') t := by
  have h := hasDerivAt_fieldC hw ha hb hA hB hB0 hAB
  have h2 := Complex.reCLM.hasFDerivAt.comp_hasDerivAt t h
  refine h2.congr_deriv ?_
  have p1 := fieldA_parts w (a t) (b t) hAB
  have p2 := fieldB_parts w (a t) (b t) hAB
  have p3 := fieldAA_parts w (a t) (b t) hB0 hAB
  have p4 := fieldBB_parts w (a t) (b t) hB0 hAB
  simp only [Complex.reCLM_apply, Complex.add_re, Complex.re_mul_ofReal, p1.2, p2.2, p3.2, p4.2]

theorem hasDerivAt_gA : HasDerivAt (fun t => gA w (a t) (b t) (A t) (B t))
    (j13 w (a t) (b t) (A t) (B t) * a' + j23 w (a t) (b t) (A t) (B t) * b' +
      j33 w (a t) (b t) (A t) (B t) * A' + j34 w (a t) (b t) (A t) (B t) * B') t := by
  have hA0 : 0 < A t := by linarith
  have hs : 0 < sOf (A t) (B t) := Real.sqrt_pos.mpr (by linarith)
  have hk : 0 < kRatio (A t) (B t) := div_pos (Real.sqrt_pos.mpr hB0) (Real.sqrt_pos.mpr hA0)
  have d1 := hasDerivAt_eA hw ha hb hA hB hB0 hAB
  have d2 := hasDerivAt_eB hw ha hb hA hB hB0 hAB
  have d3 := hasDerivAt_sOf hA hB hAB
  have d4 := hasDerivAt_kRatio hA hB hB0 hAB
  have d5 := hasDerivAt_xExp ha hb hA hB hB0 hAB
  have hj := j_symm w (a t) (b t) hB0 hAB
  have d := (((hasDerivAt_const t (1 : ℝ)).div (d3.pow 2) (pow_ne_zero 2 hs.ne')).neg).mul
    (((ha.mul d1).add (hb.mul d2)).add (((d4.mul d5).sub_const 1).const_mul pEps))
  refine d.congr_deriv ?_
  have hg := gA.eq_1 w (a t) (b t) (A t) (B t)
  have e3 := j13.eq_1 w (a t) (b t) (A t) (B t)
  have e33 := j33.eq_1 w (a t) (b t) (A t) (B t)
  have e34 := j34.eq_1 w (a t) (b t) (A t) (B t)
  simp only [Pi.add_apply, Pi.mul_apply, Pi.div_apply, Pi.neg_apply, Pi.pow_apply, Nat.cast_ofNat]
  linear_combination (norm := (field_simp; ring)) -a' * e3 - b' * hj.2.1 - A' * e33 - B' * e34 +
    2 / sOf (A t) (B t) ^ 2 * (A' - B') * hg

theorem hasDerivAt_gB : HasDerivAt (fun t => gB w (a t) (b t) (A t) (B t))
    (j14 w (a t) (b t) (A t) (B t) * a' + j24 w (a t) (b t) (A t) (B t) * b' +
      j34 w (a t) (b t) (A t) (B t) * A' + j44 w (a t) (b t) (A t) (B t) * B') t := by
  have hA0 : 0 < A t := by linarith
  have hs : 0 < sOf (A t) (B t) := Real.sqrt_pos.mpr (by linarith)
  have hk : 0 < kRatio (A t) (B t) := div_pos (Real.sqrt_pos.mpr hB0) (Real.sqrt_pos.mpr hA0)
  have d1 := hasDerivAt_eA hw ha hb hA hB hB0 hAB
  have d2 := hasDerivAt_eB hw ha hb hA hB hB0 hAB
  have d3 := hasDerivAt_sOf hA hB hAB
  have d4 := hasDerivAt_kRatio hA hB hB0 hAB
  have d5 := hasDerivAt_xExp ha hb hA hB hB0 hAB
  have hj := j_symm w (a t) (b t) hB0 hAB
  have d := (((hasDerivAt_const t (1 : ℝ)).div (d3.pow 2) (pow_ne_zero 2 hs.ne'))).mul
    (((ha.mul d1).add (hb.mul d2)).add (((d5.div d4 hk.ne').sub_const 1).const_mul pEps))
  refine d.congr_deriv ?_
  have hg := gB.eq_1 w (a t) (b t) (A t) (B t)
  have e3 := j24.eq_1 w (a t) (b t) (A t) (B t)
  have e33 := j44.eq_1 w (a t) (b t) (A t) (B t)
  simp only [Pi.add_apply, Pi.mul_apply, Pi.div_apply, Pi.pow_apply, Nat.cast_ofNat]
  linear_combination (norm := (field_simp; ring)) -a' * hj.1 - b' * e3 - A' * hj.2.2 - B' * e33 +
    2 / sOf (A t) (B t) ^ 2 * (A' - B') * hg

end
end Beam
end SixTrack
