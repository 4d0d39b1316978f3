import Mathlib.Analysis.Complex.HasPrimitives
import Mathlib.Analysis.Complex.RealDeriv
import Mathlib.Analysis.Calculus.MeanValue
import Mathlib.Analysis.SpecialFunctions.ExpDeriv
import Mathlib.Analysis.Calculus.Deriv.Star
import Mathlib.Tactic.LinearCombination

/-!
# The complex error function

The function which `cerrf` approximates: `w(z) = exp(-z²) (1 + 2 i / √π ∫₀ᶻ exp(t²) dt)`.  It is the
only solution of its differential equation with `w(0) = 1`.
-/

namespace SixTrack
namespace Beam

open Complex

/-- `w` is the complex error function. -/
structure IsFaddeeva (w : ℂ → ℂ) : Prop where
  deriv : ∀ z, HasDerivAt w (-2 * z * w z + 2 * I / (Real.sqrt Real.pi : ℝ)) z
  zero : w 0 = 1

theorem hasDerivAt_expSq (z : ℂ) : HasDerivAt (fun z : ℂ => exp (z ^ 2)) (2 * z * exp (z ^ 2)) z := by
  have := ((hasDerivAt_id z).pow 2).cexp
  refine this.congr_deriv ?_
  simp only [Nat.cast_ofNat, id, Pi.pow_apply]; ring

theorem exists_faddeeva : ∃ w, IsFaddeeva w := by
  have hd : Differentiable ℂ fun z : ℂ => exp (z ^ 2) := fun z => (hasDerivAt_expSq z).differentiableAt
  obtain ⟨g, g0, hg⟩ := hd.isExactOn_univ.with_val_at 0 0
  refine ⟨fun z => exp (-z ^ 2) * (1 + 2 * I / (Real.sqrt Real.pi : ℝ) * g z), fun z => ?_, by simp [g0]⟩
  have h1 : HasDerivAt (fun z : ℂ => exp (-z ^ 2)) (-2 * z * exp (-z ^ 2)) z := by
    have := (((hasDerivAt_id z).pow 2).neg).cexp
    refine this.congr_deriv ?_
    simp only [Nat.cast_ofNat, id, Pi.pow_apply, Pi.neg_apply]; ring
  have h2 := h1.mul (((hg z (Set.mem_univ z)).const_mul (2 * I / (Real.sqrt Real.pi : ℝ))).const_add 1)
  refine h2.congr_deriv ?_
  have e : exp (-z ^ 2) * exp (z ^ 2) = 1 := by rw [← exp_add]; simp
  linear_combination (2 * I / (Real.sqrt Real.pi : ℝ)) * e

/-- A solution of `g' = -2 z g` is `g(0) exp(-z²)`. -/
theorem eq_of_ode {g : ℂ → ℂ} (h : ∀ z, HasDerivAt g (-2 * z * g z) z) (z : ℂ) :
    g z = g 0 * exp (-z ^ 2) := by
  have h1 : ∀ z, HasDerivAt (fun z => g z * exp (z ^ 2)) 0 z := fun z =>
    ((h z).mul (hasDerivAt_expSq z)).congr_deriv (by ring)
  have h2 := is_const_of_deriv_eq_zero (fun z => (h1 z).differentiableAt) (fun z => (h1 z).deriv) z 0
  simp only [zero_pow (two_ne_zero), exp_zero, mul_one] at h2
  rw [← h2, mul_assoc, ← exp_add]; simp

theorem IsFaddeeva.unique {w v : ℂ → ℂ} (hw : IsFaddeeva w) (hv : IsFaddeeva v) : w = v := by
  have h : ∀ z, HasDerivAt (fun z => w z - v z) (-2 * z * (w z - v z)) z := fun z =>
    ((hw.deriv z).sub (hv.deriv z)).congr_deriv (by ring)
  funext z
  have := eq_of_ode h z
  simp only [hw.zero, hv.zero, sub_self, zero_mul] at this
  exact sub_eq_zero.mp this

theorem IsFaddeeva.neg {w : ℂ → ℂ} (hw : IsFaddeeva w) (z : ℂ) : w (-z) = 2 * exp (-z ^ 2) - w z := by
  have h : ∀ z, HasDerivAt (fun z => w (-z) + w z) (-2 * z * (w (-z) + w z)) z := fun z =>
    (((hw.deriv (-z)).comp z (hasDerivAt_neg z)).add (hw.deriv z)).congr_deriv (by ring)
  have := eq_of_ode h z
  simp only [neg_zero, hw.zero] at this
  linear_combination this

theorem IsFaddeeva.conj {w : ℂ → ℂ} (hw : IsFaddeeva w) (z : ℂ) :
    w (-(starRingEnd ℂ) z) = (starRingEnd ℂ) (w z) := by
  have hv : IsFaddeeva fun z => (starRingEnd ℂ) (w (-(starRingEnd ℂ) z)) := by
    refine ⟨fun z => ?_, by simp [hw.zero]⟩
    have h1 : HasDerivAt (fun z => w (-z)) (-(-2 * -(starRingEnd ℂ) z * w (-(starRingEnd ℂ) z) +
        2 * I / (Real.sqrt Real.pi : ℝ))) ((starRingEnd ℂ) z) :=
      ((hw.deriv (-(starRingEnd ℂ) z)).comp _ (hasDerivAt_neg _)).congr_deriv (by ring)
    have h2 := h1.conj_conj
    rw [Complex.conj_conj] at h2
    refine h2.congr_deriv ?_
    simp only [map_neg, map_add, map_mul, map_div₀, Complex.conj_conj, conj_I, conj_ofReal]
    have h2 : (starRingEnd ℂ) 2 = 2 := conj_eq_iff_re.mpr (by simp)
    rw [h2]
    ring
  have h2 := congrFun (hw.unique hv) z
  rw [h2, Complex.conj_conj]

end Beam
end SixTrack
