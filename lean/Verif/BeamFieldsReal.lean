import Verif.BeamFields
import Verif.ElementsReal
import Mathlib.Analysis.SpecialFunctions.Pow.Real
import Mathlib.Analysis.SpecialFunctions.Gamma.Basic
import Mathlib.Tactic.LinearCombination

/-!
# Real numbers for the beam fields
-/

namespace SixTrack
namespace Beam

open Elem

/-- The functions of the mathematics library on the real numbers. -/
noncomputable instance : FieldOps ℝ where
  exp := Real.exp
  pow := fun a b => a ^ b
  powi := fun a n => a ^ n
  tgamma := Real.Gamma
  trunc := fun a => if 0 ≤ a then ⌊a⌋ else ⌈a⌉

theorem cdiv_ok {a b : ℝ} (h : b ≠ 0) : cdiv a b = .ok (a / b) := if_neg h

theorem csqrt_ok {a : ℝ} (h : 0 ≤ a) : csqrt a = .ok (Real.sqrt a) := if_neg (not_lt.mpr h)

theorem cdiv_zero (a : ℝ) : cdiv a 0 = .ub := if_pos rfl

theorem fabs_eq (a : ℝ) : fabs a = |a| := by
  unfold fabs
  split
  · rw [abs_of_neg (by assumption)]
  · rw [abs_of_nonneg (by linarith)]

@[simp] theorem exp_real (a : ℝ) : FieldOps.exp a = Real.exp a := rfl
@[simp] theorem pow_real (a b : ℝ) : FieldOps.pow a b = a ^ b := rfl
@[simp] theorem powi_real (a : ℝ) (n : Int) : FieldOps.powi a n = a ^ n := rfl
@[simp] theorem tgamma_real (a : ℝ) : FieldOps.tgamma a = Real.Gamma a := rfl
theorem half_eq (a : ℝ) : half a = a / 2 := by simp only [half, dec]; norm_num; ring

end Beam
end SixTrack
