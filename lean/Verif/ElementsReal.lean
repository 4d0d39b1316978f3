import Verif.ElementObjects
import Mathlib.Analysis.SpecialFunctions.Trigonometric.Basic
import Mathlib.Analysis.SpecialFunctions.Sqrt

/-!
# The element maps on the real numbers

The theorems about the maps are about exact real arithmetic: `double` is modelled as `ℝ`.
-/

namespace SixTrack
namespace Elem

noncomputable instance : RealOps ℝ where
  sqrt := Real.sqrt
  sin := Real.sin
  cos := Real.cos
  pi := Real.pi

@[simp] theorem sqrt_real (x : ℝ) : (RealOps.sqrt x : ℝ) = Real.sqrt x := rfl
@[simp] theorem sin_real (x : ℝ) : (RealOps.sin x : ℝ) = Real.sin x := rfl
@[simp] theorem cos_real (x : ℝ) : (RealOps.cos x : ℝ) = Real.cos x := rfl
@[simp] theorem pi_real : (RealOps.pi : ℝ) = Real.pi := rfl

attribute [ext] Coord

/-- The particle used in examples: `rvv`, `rpp` and so on as after `update_delta` with `delta = 0`. -/
noncomputable def sample : Coord ℝ where
  q0 := 1
  mass0 := 3
  beta0 := 4 / 5
  gamma0 := 5 / 3
  p0c := 4
  s := 0
  x := 1 / 10
  y := 1 / 5
  px := 1 / 3
  py := -1 / 4
  zeta := 1 / 7
  psigma := 0
  delta := 0
  rpp := 1
  rvv := 1
  chi := 1
  chargeRatio := 1

end Elem
end SixTrack
