import Verif.Basic
import Mathlib.Algebra.Field.Defs
import Mathlib.Tactic.Ring

/-!
# `pow_int_exp`

The variant that is compiled for C, i.e. without OpenCL's `pown` and without `std::pow`.
-/

namespace SixTrack
namespace Beam

variable {K : Type} [Field K]

/-- The body of `pow_int_exp` for a non-negative exponent (math_functions.h:903-973). -/
def powPos (base : K) (n : Nat) : K :=
  match n with
  | 0 => 1
  | 1 => base
  | 2 => base * base
  | 3 => base * base * base
  | 4 =>
    let squ := base * base
    squ * squ
  | 5 =>
    let squ := base * base
    squ * squ * base
  | 6 =>
    let cub := base * base * base
    cub * cub
  | 7 =>
    let cub := base * base * base
    cub * cub * base
  | 8 =>
    let squ := base * base
    let quad := squ * squ
    quad * quad
  | k + 9 =>
    let squ := base * base
    let quad := squ * squ
    let base8 := quad * quad
    powPos base8 ((k + 9) / 8) * powPos base8 ((k + 9) - (k + 9) / 8 * 8)
termination_by n
decreasing_by all_goals omega

/-- `pow_int_exp` (math_functions.h:885-978): `llabs` overflows for the least 64 bit integer; the reciprocal of
zero is a division by zero. -/
def powInt [DecidableEq K] (base : K) (n : Int) : Res K :=
  if n ≤ -2 ^ 63 ∨ 2 ^ 63 ≤ n then .ub
  else
    let r := powPos base n.natAbs
    if 0 ≤ n then .ok r else if r = 0 then .ub else .ok (1 / r)

end Beam
end SixTrack
