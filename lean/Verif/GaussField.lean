import Verif.Faddeeva
import Verif.BeamFieldsReal
import Mathlib.Analysis.SpecialFunctions.Sqrt

/-!
# The field of an elliptic Gaussian beam: derivatives

`A > B` are the squares of the beam sizes along `a` and `b`.
-/

namespace SixTrack
namespace Beam

open Complex

/-- `S` of the code, `sqrt(2 (A - B))`. -/
noncomputable def sOf (A B : ℝ) : ℝ := Real.sqrt (2 * (A - B))

/-- The ratio of the sizes. -/
noncomputable def kRatio (A B : ℝ) : ℝ := Real.sqrt B / Real.sqrt A

/-- The exponential of the code. -/
noncomputable def xExp (a b A B : ℝ) : ℝ := Real.exp (-a ^ 2 / (2 * A) - b ^ 2 / (2 * B))

/-- The factor of the code. -/
noncomputable def fact (A B : ℝ) : ℝ := 1 / (2 * eps0 * Real.sqrt Real.pi * sOf A B)

noncomputable def zetaC (a b A B : ℝ) : ℂ := ((a : ℂ) + b * I) / sOf A B
noncomputable def etaC (a b A B : ℝ) : ℂ := ((kRatio A B : ℂ) * a + b / kRatio A B * I) / sOf A B

/-- `E_b + i E_a`. -/
noncomputable def fieldC (w : ℂ → ℂ) (a b A B : ℝ) : ℂ :=
  fact A B * (w (zetaC a b A B) - xExp a b A B * w (etaC a b A B))

theorem eps0_pos : (0 : ℝ) < eps0 := by norm_num [eps0, dec]

section
variable {a b A B : ℝ → ℝ} {a' b' A' B' t : ℝ} (ha : HasDerivAt a a' t) (hb : HasDerivAt b b' t)
  (hA : HasDerivAt A A' t) (hB : HasDerivAt B B' t) (hB0 : 0 < B t) (hAB : B t < A t)
include hA hB hB0 hAB

omit hB0 in
theorem hasDerivAt_sOf : HasDerivAt (fun t => sOf (A t) (B t)) ((A' - B') / sOf (A t) (B t)) t := by
  have h : 0 < 2 * (A t - B t) := by linarith
  refine (((hA.sub hB).const_mul 2).sqrt h.ne').congr_deriv ?_
  show _ / (2 * sOf (A t) (B t)) = _
  have : 0 < sOf (A t) (B t) := Real.sqrt_pos.mpr h
  field_simp

omit hB0 in
theorem hasDerivAt_fact : HasDerivAt (fun t => fact (A t) (B t))
    (-fact (A t) (B t) * (A' - B') / sOf (A t) (B t) ^ 2) t := by
  have h : 0 < 2 * (A t - B t) := by linarith
  have hs : 0 < sOf (A t) (B t) := Real.sqrt_pos.mpr h
  have he := eps0_pos
  have hp : 0 < Real.sqrt Real.pi := Real.sqrt_pos.mpr Real.pi_pos
  have := ((hasDerivAt_const t (1 : ℝ)).div ((hasDerivAt_sOf hA hB hAB).const_mul
    (2 * eps0 * Real.sqrt Real.pi)) (by positivity))
  refine this.congr_deriv ?_
  unfold fact
  field_simp
  ring

theorem hasDerivAt_kRatio : HasDerivAt (fun t => kRatio (A t) (B t))
    (kRatio (A t) (B t) * (B' / (2 * B t) - A' / (2 * A t))) t := by
  have hA0 : 0 < A t := by linarith
  have hsA : 0 < Real.sqrt (A t) := Real.sqrt_pos.mpr hA0
  have hsB : 0 < Real.sqrt (B t) := Real.sqrt_pos.mpr hB0
  refine ((hB.sqrt hB0.ne').div (hA.sqrt hA0.ne') hsA.ne').congr_deriv ?_
  unfold kRatio
  have eA : A t = Real.sqrt (A t) ^ 2 := (Real.sq_sqrt hA0.le).symm
  have eB : B t = Real.sqrt (B t) ^ 2 := (Real.sq_sqrt hB0.le).symm
  generalize Real.sqrt (A t) = x at *
  generalize Real.sqrt (B t) = y at *
  rw [eA, eB]
  field_simp

include ha hb in
theorem hasDerivAt_xExp : HasDerivAt (fun t => xExp (a t) (b t) (A t) (B t))
    (xExp (a t) (b t) (A t) (B t) * (-(a t) * a' / A t - b t * b' / B t +
      a t ^ 2 * A' / (2 * A t ^ 2) + b t ^ 2 * B' / (2 * B t ^ 2))) t := by
  have hA0 : 0 < A t := by linarith
  have := ((((ha.pow 2).neg).div (hA.const_mul 2) (by positivity)).sub
    ((hb.pow 2).div (hB.const_mul 2) (by positivity))).exp
  refine this.congr_deriv ?_
  simp only [xExp, Pi.sub_apply, Pi.div_apply, Pi.neg_apply, Pi.pow_apply, Nat.cast_ofNat]
  congr 1
  field_simp
  ring

end

theorem kRatio_sq {A B : ℝ} (hB : 0 < B) (hAB : B < A) : kRatio A B ^ 2 = B / A := by
  unfold kRatio
  rw [div_pow, Real.sq_sqrt hB.le, Real.sq_sqrt (by linarith)]

theorem sOf_sq {A B : ℝ} (hAB : B < A) : sOf A B ^ 2 = 2 * (A - B) := Real.sq_sqrt (by linarith)

theorem inv_A {A B : ℝ} (hB : 0 < B) (hAB : B < A) :
    A⁻¹ = 2 * (1 - kRatio A B ^ 2) * ((sOf A B)⁻¹) ^ 2 := by
  rw [inv_pow, sOf_sq hAB, kRatio_sq hB hAB]
  have h1 : A - B ≠ 0 := by linarith
  have h2 : A ≠ 0 := by linarith
  field_simp

theorem inv_B {A B : ℝ} (hB : 0 < B) (hAB : B < A) :
    B⁻¹ = 2 * (((kRatio A B)⁻¹) ^ 2 - 1) * ((sOf A B)⁻¹) ^ 2 := by
  rw [inv_pow, inv_pow, sOf_sq hAB, kRatio_sq hB hAB]
  have h1 : A - B ≠ 0 := by linarith
  have h2 : A ≠ 0 := by linarith
  field_simp

/-- The derivatives of `fieldC`. -/
noncomputable def fieldA (w : ℂ → ℂ) (a b A B : ℝ) : ℂ :=
  -2 * ((a : ℂ) + b * I) / sOf A B ^ 2 * fieldC w a b A B +
    I * (1 - kRatio A B * xExp a b A B) * (2 * fact A B / (Real.sqrt Real.pi * sOf A B) : ℝ)
noncomputable def fieldB (w : ℂ → ℂ) (a b A B : ℝ) : ℂ :=
  -2 * I * ((a : ℂ) + b * I) / sOf A B ^ 2 * fieldC w a b A B -
    (1 - xExp a b A B / kRatio A B) * (2 * fact A B / (Real.sqrt Real.pi * sOf A B) : ℝ)
noncomputable def fieldAA (w : ℂ → ℂ) (a b A B : ℝ) : ℂ :=
  -fieldC w a b A B / sOf A B ^ 2 - ((a : ℂ) + b * I) / sOf A B ^ 2 * fieldA w a b A B +
    I * (kRatio A B * a * xExp a b A B / (2 * A)) * (2 * fact A B / (Real.sqrt Real.pi * sOf A B) : ℝ)
noncomputable def fieldBB (w : ℂ → ℂ) (a b A B : ℝ) : ℂ :=
  fieldC w a b A B / sOf A B ^ 2 - I * ((a : ℂ) + b * I) / sOf A B ^ 2 * fieldB w a b A B -
    (b * xExp a b A B / (2 * kRatio A B * B)) * (2 * fact A B / (Real.sqrt Real.pi * sOf A B) : ℝ)

theorem hasDerivAt_fieldC {w : ℂ → ℂ} (hw : IsFaddeeva w) {a b A B : ℝ → ℝ} {a' b' A' B' t : ℝ}
    (ha : HasDerivAt a a' t) (hb : HasDerivAt b b' t)
    (hA : HasDerivAt A A' t) (hB : HasDerivAt B B' t) (hB0 : 0 < B t) (hAB : B t < A t) :
    HasDerivAt (fun t => fieldC w (a t) (b t) (A t) (B t))
      (fieldA w (a t) (b t) (A t) (B t) * a' + fieldB w (a t) (b t) (A t) (B t) * b' +
       fieldAA w (a t) (b t) (A t) (B t) * A' + fieldBB w (a t) (b t) (A t) (B t) * B') t := by
  have hA0 : 0 < A t := by linarith
  have h : 0 < 2 * (A t - B t) := by linarith
  have hs : 0 < sOf (A t) (B t) := Real.sqrt_pos.mpr h
  have hs2 : sOf (A t) (B t) ^ 2 = 2 * (A t - B t) := Real.sq_sqrt h.le
  have hk : 0 < kRatio (A t) (B t) := div_pos (Real.sqrt_pos.mpr hB0) (Real.sqrt_pos.mpr hA0)
  have ds := (hasDerivAt_sOf hA hB hAB).ofReal_comp
  have dk := (hasDerivAt_kRatio hA hB hB0 hAB).ofReal_comp
  have dX := (hasDerivAt_xExp ha hb hA hB hB0 hAB).ofReal_comp
  have dK := (hasDerivAt_fact hA hB hAB).ofReal_comp
  have hsC : ((sOf (A t) (B t) : ℝ) : ℂ) ≠ 0 := by exact_mod_cast hs.ne'
  have hkC : ((kRatio (A t) (B t) : ℝ) : ℂ) ≠ 0 := by exact_mod_cast hk.ne'
  have dz := (ha.ofReal_comp.add (hb.ofReal_comp.mul_const I)).div ds hsC
  have de := ((dk.mul ha.ofReal_comp).add ((hb.ofReal_comp.div dk hkC).mul_const I)).div ds hsC
  have dW := (hw.deriv (zetaC (a t) (b t) (A t) (B t))).comp t dz
  have dV := (hw.deriv (etaC (a t) (b t) (A t) (B t))).comp t de
  refine (dK.mul (dW.sub (dX.mul dV))).congr_deriv ?_
  have hiA : (A t : ℂ)⁻¹ = 2 * (1 - (kRatio (A t) (B t) : ℂ) ^ 2) * ((sOf (A t) (B t) : ℂ)⁻¹) ^ 2 := by
    exact_mod_cast congrArg (fun x : ℝ => (x : ℂ)) (inv_A hB0 hAB)
  have hiB : (B t : ℂ)⁻¹ = 2 * (((kRatio (A t) (B t) : ℂ)⁻¹) ^ 2 - 1) * ((sOf (A t) (B t) : ℂ)⁻¹) ^ 2 := by
    exact_mod_cast congrArg (fun x : ℝ => (x : ℂ)) (inv_B hB0 hAB)
  have hq : ((Real.sqrt Real.pi : ℝ) : ℂ) ≠ 0 := by
    exact_mod_cast (Real.sqrt_pos.mpr Real.pi_pos).ne'
  simp only [Function.comp_apply, Pi.mul_apply, Pi.sub_apply, Pi.add_apply, Pi.div_apply, fieldAA, fieldBB, fieldA,
    fieldB, fieldC]
  rw [show ((kRatio (A t) (B t) : ℂ) * (a t : ℂ) + (b t : ℂ) / (kRatio (A t) (B t) : ℂ) * I) / (sOf (A t) (B t) : ℂ) =
      etaC (a t) (b t) (A t) (B t) from rfl,
    show ((a t : ℂ) + (b t : ℂ) * I) / (sOf (A t) (B t) : ℂ) = zetaC (a t) (b t) (A t) (B t) from rfl]
  generalize w (zetaC (a t) (b t) (A t) (B t)) = W
  generalize w (etaC (a t) (b t) (A t) (B t)) = U
  unfold zetaC etaC
  push_cast
  generalize (xExp (a t) (b t) (A t) (B t) : ℂ) = X
  generalize (fact (A t) (B t) : ℂ) = K
  simp only [div_eq_mul_inv, mul_inv, ← inv_pow, hiA, hiB]
  generalize (kRatio (A t) (B t) : ℂ) = k at *
  generalize (sOf (A t) (B t) : ℂ) = s at *
  generalize ((Real.sqrt Real.pi : ℝ) : ℂ) = q at *
  clear dK dX dk ds dz de dW dV hiA hiB
  generalize (a t : ℂ) = aa
  generalize (b t : ℂ) = bb
  generalize (a' : ℂ) = a1
  generalize (b' : ℂ) = b1
  generalize (A' : ℂ) = A1
  generalize (B' : ℂ) = B1
  field_simp
  ring_nf
  simp only [I_sq, I_pow_three, I_pow_four]
  ring

end Beam
end SixTrack
