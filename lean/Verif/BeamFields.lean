import Verif.Elements
import Mathlib.Algebra.Order.Field.Basic
import Mathlib.Logic.Function.Basic

/-!
# Fields of Gaussian beams, beam-beam and space-charge elements

Source: `sixtracklib/common/be_beamfields/` (`faddeeva_cern.h`, `gauss_fields.h`, `be_beamfields.h`,
`track.h`), `sixtracklib/common/internal/math_qgauss.h`.

* Exact arithmetic in an ordered field instead of `double`.  A division by zero is undefined
  (C17 6.5.5); a square root of a negative number and a gamma function outside of its range are
  treated in the same way, so that a result `ok` means that every operation was defined.
* `SIXTRL_PI` and `SIXTRL_SQRT_PI` stand for the numbers whose digits they are; the other literals
  are taken exactly as written.
* The complex error function is an argument `w` of the field functions.  The code passes `cerrf`;
  theorems about the field also take the function which `cerrf` approximates.
-/

namespace SixTrack
namespace Beam

open Elem

/-- Further functions of the mathematics library; `trunc` is the conversion to an integer, `powi` is
`pow` with an integral exponent. -/
class FieldOps (K : Type) extends RealOps K where
  exp : K → K
  pow : K → K → K
  powi : K → Int → K
  tgamma : K → K
  trunc : K → Int

export FieldOps (exp)

variable {K : Type} [Field K] [LinearOrder K] [FieldOps K]

/-- Division. -/
def cdiv (a b : K) : Res K := if b = 0 then .ub else .ok (a / b)

/-- `sqrt`. -/
def csqrt (a : K) : Res K := if a < 0 then .ub else .ok (sqrt a)

/-- `fabs`. -/
def fabs (a : K) : K := if a < 0 then -a else a

/-- A decimal number `m · 10⁻ᵉ`. -/
def dec (m e : Nat) : K := (m : K) / (10 : K) ^ e

/-! ### The complex error function -/

/-- The local arrays `Rx[33]`, `Ry[33]` of `cerrf`; entries are uninitialised at first. -/
abbrev Arr (K : Type) := Nat → Option (K × K)

/-- Read `Rx[i]`, `Ry[i]`. -/
def rdR (r : Arr K) (i : Int) : Res (K × K) :=
  if 0 ≤ i ∧ i < 33 then
    match r i.toNat with
    | some v => .ok v
    | none => .ub
  else .ub

/-- Assign `Rx[i]`, `Ry[i]`. -/
def wrR (r : Arr K) (i : Int) (v : K × K) : Res (Arr K) :=
  if 0 ≤ i ∧ i < 33 then .ok (Function.update r i.toNat (some v)) else .ub

/-- `0.5 * Tx / Tn`, `0.5 * Ty / Tn` of the continued fraction (faddeeva_cern.h:77-81, 101-105), `a`
being `Rx[n]`, `Ry[n]`. -/
def cfStep (xh yh : K) (n : Nat) (a : K × K) : Res (K × K) := do
  let tx := xh + (n : K) * a.1
  let ty := yh - (n : K) * a.2
  let tn := tx * tx + ty * ty
  let rx ← cdiv (dec 5 1 * tx) tn
  let ry ← cdiv (dec 5 1 * ty) tn
  return (rx, ry)

/-- `for (n = nu; n > 0; n--)` (faddeeva_cern.h:76-82). -/
def cfLoop (xh yh : K) : Nat → Arr K → Res (Arr K)
  | 0, r => .ok r
  | n + 1, r => do
    let a ← rdR r ((n : Int) + 1)
    let b ← cfStep xh yh (n + 1) a
    let r ← wrR r n b
    cfLoop xh yh n r

/-- `for (n = nc; n > 0; n--)` (faddeeva_cern.h:86-91); the result is `(Sx, Sy)`. -/
def sumLoop (h : K) (r : Arr K) : Nat → K → K → K → Res (K × K)
  | 0, _, sx, sy => .ok (sx, sy)
  | n + 1, xl, sx, sy => do
    let a ← rdR r n
    let saux := sx + xl
    sumLoop h r n (h * xl) (a.1 * saux - a.2 * sy) (a.1 * sy + a.2 * saux)

/-- `for (n = 9; n > 0; n--)` (faddeeva_cern.h:100-106) on `Rx[0]`, `Ry[0]`. -/
def farLoop (xh yh : K) : Nat → K × K → Res (K × K)
  | 0, a => .ok a
  | n + 1, a => do
    let b ← cfStep xh yh (n + 1) a
    farLoop xh yh n b

/-- `xLim`, `yLim`, `a_constant` (faddeeva_cern.h:56-58). -/
def xLim : K := dec 533 2
def yLim : K := dec 429 2
def aConst : K := dec 112837916709551 14

/-- The first branch of `cerrf` (faddeeva_cern.h:66-94). -/
def cerrfNear (x y : K) : Res (K × K) := do
  let s ← csqrt (1 - (x / xLim) * (x / xLim))
  let q := (1 - y / yLim) * s
  let h ← cdiv 1 (dec 32 1 * q)
  let nc := 7 + FieldOps.trunc (((23 : Nat) : K) * q)
  let xl := FieldOps.powi h (1 - nc)
  let hh ← cdiv (dec 5 1) h
  let xh := y + hh
  let nu := 10 + FieldOps.trunc (((21 : Nat) : K) * q)
  let r ← wrR (fun _ => none) nu (0, 0)
  let r ← cfLoop xh x nu.toNat r
  let s ← sumLoop h r nc.toNat xl 0 0
  return (aConst * s.1, aConst * s.2)

/-- The second branch of `cerrf` (faddeeva_cern.h:95-109). -/
def cerrfFar (x y : K) : Res (K × K) := do
  let r ← farLoop y x 9 (0, 0)
  return (aConst * r.1, aConst * r.2)

/-- `cerrf` for a point of the first quadrant (faddeeva_cern.h:63-110). -/
def cerrfQuad (x y : K) : Res (K × K) := do
  let w ← if y < yLim ∧ x < xLim then cerrfNear x y else cerrfFar x y
  return (if y = 0 then exp (-x * x) else w.1, w.2)

/-- `cerrf` (faddeeva_cern.h:45-120). -/
def cerrf (inRe inIm : K) : Res (K × K) := do
  let x := fabs inRe
  let y := fabs inIm
  let w ← cerrfQuad x y
  if inIm < 0 then
    let wx := ((2 : Nat) : K) * exp (y * y - x * x) * RealOps.cos (((2 : Nat) : K) * x * y) - w.1
    let wy := -((2 : Nat) : K) * exp (y * y - x * x) * RealOps.sin (((2 : Nat) : K) * x * y) - w.2
    return (wx, if 0 < inRe then -wy else wy)
  else return (w.1, if inRe < 0 then -w.2 else w.2)

/-! ### The field of a Gaussian beam -/

/-- `SIXTRL_EPSILON_0` (constants.h:14-16). -/
def eps0 : K := dec 8854187817620 24

/-- `SIXTRL_SQRT_PI` (constants.h:30-32). -/
def sqrtPi : K := sqrt RealOps.pi

/-- `get_transv_field_gauss_round` (gauss_fields.h:56-70) with `Delta_x = Delta_y = 0`, as it is called;
the result is `(Ex, Ey)`. -/
def fieldRound (sigma x y : K) : Res (K × K) := do
  let r2 := (x - 0) * (x - 0) + (y - 0) * (y - 0)
  let temp ←
    if r2 < dec 1 20 then do
      let s ← csqrt r2
      cdiv s (((2 : Nat) : K) * RealOps.pi * eps0 * sigma)
    else do
      let a ← cdiv (-(dec 5 1) * r2) (sigma * sigma)
      cdiv (1 - exp a) (((2 : Nat) : K) * RealOps.pi * eps0 * r2)
  return (temp * (x - 0), temp * (y - 0))

/-- One branch of `get_transv_field_gauss_ellip` (gauss_fields.h:95-114; 115-134 with `x` and `y`
exchanged): `s1 > s2` are the sizes along `a` and `b`; the result is the field along `a` and `b`. -/
def ellipHalf (w : K → K → Res (K × K)) (s1 s2 a b : K) : Res (K × K) := do
  let s ← csqrt (((2 : Nat) : K) * (s1 * s1 - s2 * s2))
  let factBE ← cdiv 1 (((2 : Nat) : K) * eps0 * sqrtPi * s)
  let k21 ← cdiv s2 s1
  let etaRe := k21 * a
  let k12 ← cdiv s1 s2
  let etaIm := k12 * b
  let zr ← cdiv a s
  let zi ← cdiv b s
  let wz ← w zr zi
  let er ← cdiv etaRe s
  let ei ← cdiv etaIm s
  let we ← w er ei
  let e1 ← cdiv (-a * a) (((2 : Nat) : K) * s1 * s1)
  let e2 ← cdiv (b * b) (((2 : Nat) : K) * s2 * s2)
  let expBE := exp (e1 - e2)
  return (factBE * (wz.2 - we.2 * expBE), factBE * (wz.1 - we.1 * expBE))

/-- `get_transv_field_gauss_ellip` (gauss_fields.h:72-146) with `Delta_x = Delta_y = 0`, as it is
called. -/
def fieldEllip (w : K → K → Res (K × K)) (sigmaX sigmaY x y : K) : Res (K × K) := do
  let abx := fabs (x - 0)
  let aby := fabs (y - 0)
  let e ←
    if sigmaX > sigmaY then ellipHalf w sigmaX sigmaY abx aby
    else if sigmaX < sigmaY then do
      let f ← ellipHalf w sigmaY sigmaX aby abx
      pure (f.2, f.1)
    else do
      let inf ← cdiv (1 : K) 0
      pure (inf, inf)
  return (if x - 0 < 0 then -e.1 else e.1, if y - 0 < 0 then -e.2 else e.2)

/-- `Ex`, `Ey`, `Gx`, `Gy`. -/
structure Field4 (K : Type) where
  ex : K
  ey : K
  gx : K
  gy : K

/-- `get_Ex_Ey_Gx_Gy_gauss` (gauss_fields.h:150-208) with `skip_Gs = 0`. -/
def gaussG (w : K → K → Res (K × K)) (minDiff sigmaX sigmaY x y : K) : Res (Field4 K) := do
  if fabs (sigmaX - sigmaY) < minDiff then
    let sigma := dec 5 1 * (sigmaX + sigmaY)
    let e ← fieldRound sigma x y
    let k ← cdiv 1 (((2 : Nat) : K) * (x * x + y * y))
    let p ← cdiv 1 (((2 : Nat) : K) * RealOps.pi * eps0 * sigma * sigma)
    let a ← cdiv (-(x * x + y * y)) (((2 : Nat) : K) * sigma * sigma)
    let gx := k * (y * e.2 - x * e.1 + p * x * x * exp a)
    let gy := k * (x * e.1 - y * e.2 + p * y * y * exp a)
    return ⟨e.1, e.2, gx, gy⟩
  else
    let e ← fieldEllip w sigmaX sigmaY x y
    let sig11 := sigmaX * sigmaX
    let sig33 := sigmaY * sigmaY
    let k ← cdiv 1 (((2 : Nat) : K) * (sig11 - sig33))
    let p ← cdiv 1 (((2 : Nat) : K) * RealOps.pi * eps0)
    let ryx ← cdiv sigmaY sigmaX
    let rxy ← cdiv sigmaX sigmaY
    let a1 ← cdiv (-x * x) (((2 : Nat) : K) * sig11)
    let a2 ← cdiv (y * y) (((2 : Nat) : K) * sig33)
    let gx := -k * (x * e.1 + y * e.2 + p * (ryx * exp (a1 - a2) - 1))
    let gy := k * (x * e.1 + y * e.2 + p * (rxy * exp (a1 - a2) - 1))
    return ⟨e.1, e.2, gx, gy⟩

/-- `get_Ex_Ey_Gx_Gy_gauss` with `skip_Gs = 1`: only `Ex` and `Ey` are set. -/
def gaussE (w : K → K → Res (K × K)) (minDiff sigmaX sigmaY x y : K) : Res (K × K) :=
  if fabs (sigmaX - sigmaY) < minDiff then fieldRound (dec 5 1 * (sigmaX + sigmaY)) x y
  else fieldEllip w sigmaX sigmaY x y

/-! ### Kicks -/

/-- `SIXTRL_QELEM` (constants.h:34-36). -/
def qElem : K := dec 160217662 27

/-- `PhysConst_charge0_si` (physics_constants.h:64-66). -/
def charge0 : K := dec 1602176634 28

/-- `NS(BB4D_data)` (be_beamfields.h:43-56). -/
structure BB4D (K : Type) where
  qPart : K
  nPart : K
  sigmaX : K
  sigmaY : K
  betaS : K
  minSigmaDiff : K
  deltaX : K
  deltaY : K
  dpxSub : K
  dpySub : K
  enabled : K

/-- `Track_particle_beam_beam_4d` (be_beamfields/track.h:89-149). -/
def beamBeam4D (w : K → K → Res (K × K)) (bb : BB4D K) (c : Coord K) : Res (Coord K) := do
  if bb.enabled > 0 then
    let charge := 1 * c.q0 * qElem
    let x := c.x - bb.deltaX
    let y := c.y - bb.deltaY
    let beta ← cdiv c.beta0 c.rvv
    let p0c := c.p0c * qElem
    let e ← gaussE w bb.minSigmaDiff bb.sigmaX bb.sigmaY x y
    let factKick ← cdiv (c.chi * bb.nPart * bb.qPart * charge * (1 + beta * bb.betaS))
      (p0c * (beta + bb.betaS))
    return { c with
      px := c.px + (factKick * e.1 - bb.dpxSub)
      py := c.py + (factKick * e.2 - bb.dpySub) }
  else return c

/-- `NS(SCCoasting)` (be_beamfields.h:418-430). -/
structure SCCoasting (K : Type) where
  nPart : K
  circumference : K
  sigmaX : K
  sigmaY : K
  length : K
  xCo : K
  yCo : K
  minSigmaDiff : K
  enabled : Nat

/-- `Track_particle_space_charge_coasting` (be_beamfields/track.h:154-198); the member `enabled` is not read. -/
def scCoasting (w : K → K → Res (K × K)) (sc : SCCoasting K) (c : Coord K) : Res (Coord K) := do
  let charge := charge0 * c.q0
  let pc0 := c.p0c * charge0
  let factKick ← cdiv (sc.nPart * sc.length * c.chi * c.chargeRatio * charge * charge *
    (1 - c.beta0 * c.beta0)) (sc.circumference * pc0 * c.beta0 * c.rvv)
  let e ← gaussE w sc.minSigmaDiff sc.sigmaX sc.sigmaY (c.x - sc.xCo) (c.y - sc.yCo)
  return { c with px := c.px + factKick * e.1, py := c.py + factKick * e.2 }

/-- `SIXTRL_MATH_QGAUSSIAN_Q_EPS` (math_qgauss.h:12-14). -/
def qEps : K := dec 1 6

/-- `Math_q_gauss_exp_q` (math_qgauss.h:114-134). -/
def expQ (x q : K) : Res K :=
  let omq := 1 - q
  let aomq := if omq ≥ 0 then omq else -omq
  if aomq ≥ qEps then do
    let u := 1 + omq * x
    let u := if u < 0 then 0 else u
    let e ← cdiv 1 omq
    if u = 0 ∧ e < 0 then .ub else return FieldOps.pow u e
  else return exp x

/-- `NS(gamma)` (math_functions.h:829-841): the function overflows outside of the asserted range. -/
def gammaC (a : K) : Res K := if 0 < a ∧ a ≤ dec 1717 1 then .ok (FieldOps.tgamma a) else .ub

/-- `Math_q_gauss_cq` (math_qgauss.h:136-160). -/
def cqOf (q : K) : Res K :=
  let cq : K := sqrtPi
  if q ≥ 1 + qEps then do
    let qm1 := q - 1
    let a ← cdiv (((3 : Nat) : K) - q) (((2 : Nat) : K) * qm1)
    let g1 ← gammaC a
    let s ← csqrt qm1
    let b ← cdiv 1 qm1
    let g2 ← gammaC b
    cdiv (cq * g1) (s * g2)
  else if q ≤ 1 - qEps then do
    let omq := 1 - q
    let tmq := ((3 : Nat) : K) - q
    let b ← cdiv 1 omq
    let g1 ← gammaC b
    let s ← csqrt omq
    let a ← cdiv tmq (((2 : Nat) : K) * omq)
    let g2 ← gammaC a
    cdiv (cq * (((2 : Nat) : K) * g1)) (tmq * s * g2)
  else return cq

/-- `Math_q_gauss_sqrt_beta_from_gauss_sigma` (math_qgauss.h:162-167). -/
def sqrtBetaOf (sigma : K) : Res K := cdiv 1 (sqrt ((2 : Nat) : K) * sigma)

/-- `Math_q_gauss` (math_qgauss.h:169-179). -/
def qGauss (x q sqrtBeta cq : K) : Res K := do
  let k ← cdiv sqrtBeta cq
  let e ← expQ (-(sqrtBeta * sqrtBeta * x * x)) q
  return k * e

/-- `NS(SCQGaussProfile)` (be_beamfields.h:638-652). -/
structure SCQGauss (K : Type) where
  nPart : K
  bunchlengthRms : K
  sigmaX : K
  sigmaY : K
  length : K
  xCo : K
  yCo : K
  minSigmaDiff : K
  qParam : K
  cq : K
  enabled : Nat

/-- `Track_particle_space_charge_qgaussian_profile` (be_beamfields/track.h:203-268); the member
`enabled` is not read. -/
def scQGauss (w : K → K → Res (K × K)) (sc : SCQGauss K) (c : Coord K) : Res (Coord K) := do
  let charge := charge0 * c.q0
  let beta := c.beta0 * c.rvv
  let pc0 := c.p0c * charge0
  let z ← cdiv c.zeta c.rvv
  let k := c.chi * c.chargeRatio * sc.length * charge * charge * (1 - c.beta0 * beta) * sc.nPart
  let sb ← sqrtBetaOf sc.bunchlengthRms
  let g ← qGauss z sc.qParam sb sc.cq
  let factKick ← cdiv (k * g) (pc0 * beta)
  let e ← gaussE w sc.minSigmaDiff sc.sigmaX sc.sigmaY (c.x - sc.xCo) (c.y - sc.yCo)
  return { c with px := c.px + factKick * e.1, py := c.py + factKick * e.2 }

/-- `NS(SCInterpolatedProfile)` (be_beamfields.h:1281-1294); `density` is what
`LineDensityProfileData_interpolate_value` gives, `none` if there is no profile. -/
structure SCInterpolated (K : Type) where
  nPart : K
  sigmaX : K
  sigmaY : K
  length : K
  xCo : K
  yCo : K
  fallback : K
  minSigmaDiff : K
  enabled : Nat
  density : Option (K → Res K)

/-- `Track_particle_space_charge_interpolated_profile` (be_beamfields/track.h:273-337);
the member `enabled` is not read. -/
def scInterpolated (w : K → K → Res (K × K)) (sc : SCInterpolated K) (c : Coord K) :
    Res (Coord K) := do
  let charge := charge0 * c.q0
  let beta := c.beta0 * c.rvv
  let pc0 := c.p0c * charge0
  let k := c.chi * c.chargeRatio * sc.length * sc.nPart * charge * charge * (1 - c.beta0 * beta)
  let d ← match sc.density with
    | some f => f c.zeta
    | none => .ok sc.fallback
  let factKick ← cdiv (k * d) (pc0 * beta)
  let e ← gaussE w sc.minSigmaDiff sc.sigmaX sc.sigmaY (c.x - sc.xCo) (c.y - sc.yCo)
  return { c with px := c.px + factKick * e.1, py := c.py + factKick * e.2 }

/-! ### Six-dimensional beam-beam interaction -/

/-- `NS(BB6D_boost_data)` (be_beamfields.h:201-207). -/
structure Boost (K : Type) where
  sphi : K
  cphi : K
  tphi : K
  salpha : K
  calpha : K

/-- The variables of the boosted frame. -/
structure Star (K : Type) where
  x : K
  px : K
  y : K
  py : K
  sigma : K
  delta : K

/-- `BeamBeam6D_boost` (be_beamfields.h:2101-2161). -/
def boost (b : Boost K) (v : Star K) : Res (Star K) := do
  let s ← csqrt ((1 + v.delta) * (1 + v.delta) - v.px * v.px - v.py * v.py)
  let h := v.delta + 1 - s
  let ax ← cdiv v.px b.cphi
  let bx ← cdiv (h * b.calpha * b.tphi) b.cphi
  let px := ax - bx
  let ay ← cdiv v.py b.cphi
  let by' ← cdiv (h * b.salpha * b.tphi) b.cphi
  let py := ay - by'
  let delta := v.delta - v.px * b.calpha * b.tphi - v.py * b.salpha * b.tphi + h * b.tphi * b.tphi
  let pz ← csqrt ((1 + delta) * (1 + delta) - px * px - py * py)
  let hx ← cdiv px pz
  let hy ← cdiv py pz
  let r ← cdiv (delta + 1) pz
  let hs := 1 - r
  let l11 := 1 + hx * b.calpha * b.sphi
  let l12 := hx * b.salpha * b.sphi
  let l13 := b.calpha * b.tphi
  let l21 := hy * b.calpha * b.sphi
  let l22 := 1 + hy * b.salpha * b.sphi
  let l23 := b.salpha * b.tphi
  let l31 := hs * b.calpha * b.sphi
  let l32 := hs * b.salpha * b.sphi
  let l33 ← cdiv 1 b.cphi
  return {
    x := l11 * v.x + l12 * v.y + l13 * v.sigma
    px := px
    y := l21 * v.x + l22 * v.y + l23 * v.sigma
    py := py
    sigma := l31 * v.x + l32 * v.y + l33 * v.sigma
    delta := delta }

/-- `BeamBeam6D_inv_boost` (be_beamfields.h:2163-2235). -/
def invBoost (b : Boost K) (v : Star K) : Res (Star K) := do
  let pz ← csqrt ((1 + v.delta) * (1 + v.delta) - v.px * v.px - v.py * v.py)
  let hx ← cdiv v.px pz
  let hy ← cdiv v.py pz
  let r ← cdiv (v.delta + 1) pz
  let hs := 1 - r
  let ic ← cdiv 1 b.cphi
  let det := ic + (hx * b.calpha + hy * b.salpha - hs * b.sphi) * b.tphi
  let i11 ← cdiv (ic + b.salpha * b.tphi * (hy - hs * b.salpha * b.sphi)) det
  let i12 ← cdiv (b.salpha * b.tphi * (hs * b.calpha * b.sphi - hx)) det
  let i13 ← cdiv (-b.tphi * (b.calpha - hx * b.salpha * b.salpha * b.sphi +
    hy * b.calpha * b.salpha * b.sphi)) det
  let i21 ← cdiv (b.calpha * b.tphi * (-hy + hs * b.salpha * b.sphi)) det
  let i22 ← cdiv (ic + b.calpha * b.tphi * (hx - hs * b.calpha * b.sphi)) det
  let i23 ← cdiv (-b.tphi * (b.salpha - hy * b.calpha * b.calpha * b.sphi +
    hx * b.calpha * b.salpha * b.sphi)) det
  let i31 ← cdiv (-hs * b.calpha * b.sphi) det
  let i32 ← cdiv (-hs * b.salpha * b.sphi) det
  let i33 ← cdiv (1 + hx * b.calpha * b.sphi + hy * b.salpha * b.sphi) det
  let h := (v.delta + 1 - pz) * b.cphi * b.cphi
  let px := v.px * b.cphi + h * b.calpha * b.tphi
  let py := v.py * b.cphi + h * b.salpha * b.tphi
  return {
    x := i11 * v.x + i12 * v.y + i13 * v.sigma
    px := px
    y := i21 * v.x + i22 * v.y + i23 * v.sigma
    py := py
    sigma := i31 * v.x + i32 * v.y + i33 * v.sigma
    delta := v.delta + px * b.calpha * b.tphi + py * b.salpha * b.tphi - h * b.tphi * b.tphi }

/-- `NS(BB6D_Sigmas)` (be_beamfields.h:209-220). -/
structure Sigmas (K : Type) where
  s11 : K
  s12 : K
  s13 : K
  s14 : K
  s22 : K
  s23 : K
  s24 : K
  s33 : K
  s34 : K
  s44 : K

/-- `mysign` (be_beamfields.h:2097-2099). -/
def mysign (a : K) : K := (if a ≥ 0 then 1 else 0) - (if a < 0 then 1 else 0)

/-- What `BeamBeam6D_propagate_Sigma_matrix` returns. -/
structure Shape (K : Type) where
  s11 : K
  s33 : K
  cosT : K
  sinT : K
  dS11 : K
  dS33 : K
  dCos : K
  dSin : K

/-- The half of a number, `0.5 * a`. -/
def half (a : K) : K := dec 5 1 * a

/-- `BeamBeam6D_propagate_Sigma_matrix` (be_beamfields.h:2237-2385) with
`handle_singularities = 1`, as it is called. -/
def propagate (d : Sigmas K) (S threshold : K) : Res (Shape K) := do
  let s11 := d.s11 + ((2 : Nat) : K) * d.s12 * S + d.s22 * S * S
  let s33 := d.s33 + ((2 : Nat) : K) * d.s34 * S + d.s44 * S * S
  let s13 := d.s13 + (d.s14 + d.s23) * S + d.s24 * S * S
  let s12 := d.s12 + d.s22 * S
  let s14 := d.s14 + d.s24 * S
  let s22 := d.s22 + 0 * S
  let s23 := d.s23 + d.s24 * S
  let s24 := d.s24 + 0 * S
  let s34 := d.s34 + d.s44 * S
  let s44 := d.s44 + 0 * S
  let R := s11 - s33
  let W := s11 + s33
  let T := R * R + ((4 : Nat) : K) * s13 * s13
  let dR := ((2 : Nat) : K) * (d.s12 - d.s34) + ((2 : Nat) : K) * S * (d.s22 - d.s44)
  let dW := ((2 : Nat) : K) * (d.s12 + d.s34) + ((2 : Nat) : K) * S * (d.s22 + d.s44)
  let d13 := d.s14 + d.s23 + ((2 : Nat) : K) * d.s24 * S
  let dT := ((2 : Nat) : K) * R * dR + ((8 : Nat) : K) * s13 * d13
  let signR := mysign R
  if T < threshold then
    let a := s12 - s34
    let b := s22 - s44
    let c := s14 + s23
    let e := s24
    let rt ← csqrt (a * a + c * c)
    if rt * rt * rt < threshold then
      let cos2 ← if fabs e > threshold then do
          let n ← csqrt (b * b + ((4 : Nat) : K) * e * e)
          cdiv (fabs b) n
        else pure 1
      let cosT ← csqrt (half (1 + cos2))
      let sn ← csqrt (half (1 - cos2))
      return ⟨half W, half W, cosT, mysign b * mysign e * sn, half dW, half dW, 0, 0⟩
    else
      let cos2 ← cdiv (fabs (((2 : Nat) : K) * a)) (((2 : Nat) : K) * rt)
      let cosT ← csqrt (half (1 + cos2))
      let sn ← csqrt (half (1 - cos2))
      let sinT := mysign a * mysign c * sn
      let u1 ← cdiv (half b) rt
      let u2 ← cdiv (a * (a * b + ((2 : Nat) : K) * c * e)) (((2 : Nat) : K) * rt * rt * rt)
      let dCos2 := mysign a * (u1 - u2)
      let kc ← cdiv 1 (((4 : Nat) : K) * cosT)
      let dCos := kc * dCos2
      let dSin ← if fabs sinT > threshold then do
          let ks ← cdiv (-1) (((4 : Nat) : K) * sinT)
          pure (ks * dCos2)
        else cdiv e (((2 : Nat) : K) * a)
      return ⟨half W, half W, cosT, sinT, half dW + mysign a * rt, half dW - mysign a * rt, dCos, dSin⟩
  else
    let rT ← csqrt T
    let cos2 ← cdiv (signR * R) rT
    let cosT ← csqrt (half (1 + cos2))
    let sn ← csqrt (half (1 - cos2))
    let sinT := signR * mysign s13 * sn
    let u1 ← cdiv dR rT
    let u2 ← cdiv R (((2 : Nat) : K) * rT * rT * rT)
    let dCos2 := signR * (u1 - u2 * dT)
    let kc ← cdiv 1 (((4 : Nat) : K) * cosT)
    let dCos := kc * dCos2
    let dSin ← if fabs sinT < threshold then cdiv (s14 + s23) R
      else do
        let ks ← cdiv (-1) (((4 : Nat) : K) * sinT)
        pure (ks * dCos2)
    let u3 ← cdiv (dec 5 1) rT
    return ⟨half (W + signR * rT), half (W - signR * rT), cosT, sinT,
      half (dW + signR * u3 * dT), half (dW - signR * u3 * dT), dCos, dSin⟩

/-- One slice of the strong beam: the entries of `N_part_per_slice`, `x_slices_star`,
`y_slices_star`, `sigma_slices_star`. -/
structure Slice (K : Type) where
  nPart : K
  x : K
  y : K
  sigma : K

/-- `NS(BB6D_data)` (be_beamfields.h:222-250); the four arrays are a list of `N_slices` slices. -/
structure BB6D (K : Type) where
  qPart : K
  parboost : Boost K
  sigmas : Sigmas K
  minSigmaDiff : K
  threshold : K
  deltaX : K
  deltaY : K
  xCO : K
  pxCO : K
  yCO : K
  pyCO : K
  sigmaCO : K
  deltaCO : K
  dxSub : K
  dpxSub : K
  dySub : K
  dpySub : K
  dsigmaSub : K
  ddeltaSub : K
  enabled : K
  slices : List (Slice K)

/-- The kick of one slice (be_beamfields/track.h:412-481). -/
def sliceKick (w : K → K → Res (K × K)) (bb : BB6D K) (q0 P0 : K) (v : Star K) (sl : Slice K) :
    Res (Star K) := do
  let ksl ← cdiv (sl.nPart * bb.qPart * q0) (P0 * cLight)
  let S := half (v.sigma - sl.sigma)
  let sh ← propagate bb.sigmas S bb.threshold
  let xbar := v.x + v.px * S - sl.x
  let ybar := v.y + v.py * S - sl.y
  let xhat := xbar * sh.cosT + ybar * sh.sinT
  let yhat := -xbar * sh.sinT + ybar * sh.cosT
  let dxhat := xbar * sh.dCos + ybar * sh.dSin
  let dyhat := -xbar * sh.dSin + ybar * sh.dCos
  let sx ← csqrt sh.s11
  let sy ← csqrt sh.s33
  let f ← gaussG w bb.minSigmaDiff sx sy xhat yhat
  let fxh := ksl * f.ex
  let fyh := ksl * f.ey
  let gxh := ksl * f.gx
  let gyh := ksl * f.gy
  let fx := fxh * sh.cosT - fyh * sh.sinT
  let fy := fxh * sh.sinT + fyh * sh.cosT
  let fz := half (fxh * dxhat + fyh * dyhat + gxh * sh.dS11 + gyh * sh.dS33)
  return { v with
    delta := v.delta + fz + half (fx * (v.px + half fx) + fy * (v.py + half fy))
    x := v.x - S * fx
    px := v.px + fx
    y := v.y - S * fy
    py := v.py + fy }

/-- `Track_particle_beam_beam_6d` (be_beamfields/track.h:342-507). -/
def beamBeam6D (w : K → K → Res (K × K)) (bb : BB6D K) (c : Coord K) : Res (Coord K) := do
  if bb.enabled > 0 then
    let q0 := qElem * c.q0
    let P0 := c.p0c / cLight * qElem
    let v ← boost bb.parboost
      { x := c.x - bb.xCO - bb.deltaX
        px := c.px - bb.pxCO
        y := c.y - bb.yCO - bb.deltaY
        py := c.py - bb.pyCO
        sigma := c.zeta - bb.sigmaCO
        delta := c.delta - bb.deltaCO }
    let v ← bb.slices.foldlM (sliceKick w bb q0 P0) v
    let v ← invBoost bb.parboost v
    return updateDelta
      { c with
        x := v.x + bb.xCO + bb.deltaX - bb.dxSub
        px := v.px + bb.pxCO - bb.dpxSub
        y := v.y + bb.yCO + bb.deltaY - bb.dySub
        py := v.py + bb.pyCO - bb.dpySub
        zeta := v.sigma + bb.sigmaCO - bb.dsigmaSub }
      (v.delta + bb.deltaCO - bb.ddeltaSub)
  else return c

end Beam
end SixTrack
