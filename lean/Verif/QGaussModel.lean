import Verif.BeamFields

/-!
# The remaining functions of the q-Gaussian distribution

The constant, the density and `sqrt(beta)` are in `Verif.BeamFields`, where the space-charge map uses
them.
-/

namespace SixTrack
namespace Beam

open Elem

variable {K : Type} [Field K] [LinearOrder K] [FieldOps K]

/-- `Math_q_gauss_min_support` (math_qgauss.h:92-101); the arguments are asserted to be in range. -/
def minSupport (q sqrtBeta : K) : Res K :=
  if q < ((3 : Nat) : K) ∧ sqrtBeta > 0 then
    if q ≥ 1 then .ok (-((10 : K) ^ 10))
    else do
      let s ← csqrt (sqrtBeta * sqrtBeta * (1 - q))
      cdiv (-1) s
  else .ub

/-- `Math_q_gauss_max_support` (math_qgauss.h:103-112). -/
def maxSupport (q sqrtBeta : K) : Res K :=
  if q < ((3 : Nat) : K) ∧ sqrtBeta > 0 then
    if q ≥ 1 then .ok ((10 : K) ^ 10)
    else do
      let s ← csqrt (sqrtBeta * sqrtBeta * (1 - q))
      cdiv 1 s
  else .ub

/-- `Math_q_gauss_shifted` (math_qgauss.h:181-186). -/
def qGaussShifted (x q sqrtBeta cq mu : K) : Res K := qGauss (x - mu) q sqrtBeta cq

/-- `SCQGaussProfile_set_q_param` (be_beamfields.h:2948-2964) for an existing element: the status
(`false` is a failure) and the element. -/
def setQ (sc : SCQGauss K) (q : K) : Res (Bool × SCQGauss K) :=
  if q < ((3 : Nat) : K) then do
    let cq ← cqOf q
    return (true, { sc with qParam := q, cq := cq })
  else return (false, sc)

end Beam
end SixTrack
