import Verif.Track
import Verif.Monitor
import Mathlib.Order.Defs.Unbundled

/-!
# Beam elements: the maps and the dispatcher

Source: `sixtracklib/common/be_*/track.h`, `sixtracklib/common/track/track.h`,
`sixtracklib/common/particles.h`.

The maps are written once, for any type `K` of numbers that has the operations the code uses.  The
theorems take `K = ℝ` (`Verif.Props.Elements` and others) or the real numbers with a NaN
(`Verif.Props.Apertures`); rounding is not modelled.  A C expression is translated with the same
operations in the same order; numerals are casts of natural numbers.
-/

namespace SixTrack
namespace Elem

/-- The functions of the mathematics library that the maps call (and `SIXTRL_PI`, `definitions.h`). -/
class RealOps (K : Type) where
  sqrt : K → K
  sin : K → K
  cos : K → K
  pi : K

export RealOps (sqrt)

/-- The coordinates of one particle: one entry of each of the real attributes of `NS(Particles)`
(particles.h:60-90). -/
structure Coord (K : Type) where
  q0 : K
  mass0 : K
  beta0 : K
  gamma0 : K
  p0c : K
  s : K
  x : K
  y : K
  px : K
  py : K
  zeta : K
  psigma : K
  delta : K
  rpp : K
  rvv : K
  chi : K
  chargeRatio : K
  deriving DecidableEq, Repr

/-- A particle with its coordinates. -/
abbrev Particle (K : Type) := Track.Part (Coord K)

variable {K : Type} [Zero K] [One K] [Add K] [Sub K] [Mul K] [Div K] [Neg K] [NatCast K]
variable [LT K] [LE K] [DecidableLT K] [DecidableLE K] [RealOps K]

/-! ### Particle energy -/

/-- `Particles_get_energy0_value` (particles.h:5220-5234). -/
def energy0 (c : Coord K) : K := sqrt (c.p0c * c.p0c + c.mass0 * c.mass0)

/-- `Particles_get_mass_ratio_value` (particles.h:5828-5837). -/
def massRatio (c : Coord K) : K := c.chargeRatio / c.chi

/-- `Particles_get_energy_value` (particles.h:5236-5253). -/
def energy (c : Coord K) : K :=
  (c.psigma * c.beta0 * c.p0c + sqrt (c.p0c * c.p0c + c.mass0 * c.mass0)) * massRatio c

/-- `Particles_add_to_energy_value` (particles.h:5255-5297). -/
def addToEnergy (c : Coord K) (dE : K) : Coord K :=
  let deltaBeta0 := c.delta * c.beta0
  let ptauBeta0 := dE / energy0 c +
    sqrt (deltaBeta0 * deltaBeta0 + ((2 : Nat) : K) * deltaBeta0 * c.beta0 + 1) - 1
  let ptau := ptauBeta0 / c.beta0
  let psigma := ptau / c.beta0
  let delta := sqrt (ptau * ptau + ((2 : Nat) : K) * psigma + 1) - 1
  let onePlusDelta := delta + 1
  let rvv := onePlusDelta / (1 + ptauBeta0)
  { c with
    delta := delta
    psigma := psigma
    zeta := c.zeta * (rvv / c.rvv)
    rvv := rvv
    rpp := 1 / onePlusDelta }

/-- `Particles_update_delta_value` (particles.h:5459-5497). -/
def updateDelta (c : Coord K) (newDelta : K) : Coord K :=
  let deltaBeta0 := newDelta * c.beta0
  let ptauBeta0 :=
    sqrt (deltaBeta0 * deltaBeta0 + ((2 : Nat) : K) * deltaBeta0 * c.beta0 + 1) - 1
  let onePlusDelta := 1 + newDelta
  { c with
    delta := newDelta
    rvv := onePlusDelta / (1 + ptauBeta0)
    rpp := 1 / onePlusDelta
    psigma := ptauBeta0 / (c.beta0 * c.beta0) }

/-! ### Drifts -/

/-- `Track_particle_drift` (be_drift/track.h:45-69). -/
def drift (length : K) (c : Coord K) : Coord K :=
  let xp := c.px * c.rpp
  let yp := c.py * c.rpp
  let dzeta := c.rvv - (1 + (xp * xp + yp * yp) / ((2 : Nat) : K))
  { c with
    x := c.x + xp * length
    y := c.y + yp * length
    s := c.s + length
    zeta := c.zeta + length * dzeta }

/-- `Track_particle_drift_exact` (be_drift/track.h:73-100). -/
def driftExact (length : K) (c : Coord K) : Coord K :=
  let opd := c.delta + 1
  let lpzi := length / sqrt (opd * opd - (c.px * c.px + c.py * c.py))
  { c with
    x := c.x + c.px * lpzi
    y := c.y + c.py * lpzi
    s := c.s + length
    zeta := c.zeta + (c.rvv * length - opd * lpzi) }

/-! ### Thin elements -/

/-- `NS(Multipole)` (be_multipole.h:24-33); `bal` is the array at `bal_addr`. -/
structure Multipole (K : Type) where
  order : Nat
  length : K
  hxl : K
  hyl : K
  bal : Nat → K

/-- The loop of `Track_particle_multipole` (be_multipole/track.h:67-82): `n` is `index_x / 2`. -/
def horner (bal : Nat → K) (x y : K) : Nat → K → K → K × K
  | 0, dpx, dpy => (dpx, dpy)
  | n + 1, dpx, dpy =>
    let zre := dpx * x - dpy * y
    let zim := dpx * y + dpy * x
    horner bal x y n (bal (2 * n) + zre) (bal (2 * n + 1) + zim)

/-- `Track_particle_multipole` (be_multipole/track.h:38-112). -/
def multipole (mp : Multipole K) (c : Coord K) : Coord K :=
  let d := horner mp.bal c.x c.y mp.order (mp.bal (2 * mp.order)) (mp.bal (2 * mp.order + 1))
  let dpx := -c.chi * d.1
  let dpy := c.chi * d.2
  if 0 < mp.hxl ∨ 0 < mp.hyl ∨ mp.hxl < 0 ∨ mp.hyl < 0 then
    let hxlx := c.x * mp.hxl
    let hyly := c.y * mp.hyl
    let dpx := dpx + (mp.hxl + mp.hxl * c.delta)
    let dpy := dpy - (mp.hyl + mp.hyl * c.delta)
    let dp := if 0 < mp.length then
        (dpx - c.chi * mp.bal 0 * hxlx / mp.length, dpy + c.chi * mp.bal 1 * hyly / mp.length)
      else (dpx, dpy)
    { c with
      zeta := c.zeta + c.chi * (hyly - hxlx)
      px := c.px + dp.1
      py := c.py + dp.2 }
  else { c with px := c.px + dpx, py := c.py + dpy }

/-- `Track_particle_xy_shift` (be_xyshift/track.h:38-56). -/
def xyShift (dx dy : K) (c : Coord K) : Coord K :=
  { c with x := c.x + -dx, y := c.y + -dy }

/-- `Track_particle_srotation` (be_srotation/track.h:38-70). -/
def sRotation (cosZ sinZ : K) (c : Coord K) : Coord K :=
  { c with
    x := cosZ * c.x + sinZ * c.y
    y := -sinZ * c.x + cosZ * c.y
    px := cosZ * c.px + sinZ * c.py
    py := -sinZ * c.px + cosZ * c.py }

/-- `Track_particle_dipedge` (be_dipedge/track.h:37-51). -/
def dipEdge (r21 r43 : K) (c : Coord K) : Coord K :=
  { c with px := c.px + r21 * c.x, py := c.py + r43 * c.y }

/-- Speed of light, `SIXTRL_C_LIGHT` and `PhysConst_clight` (definitions.h). -/
def cLight : K := ((299792458 : Nat) : K)

/-- `NS(Cavity)` (be_cavity.h). -/
structure Cavity (K : Type) where
  voltage : K
  frequency : K
  lag : K

/-- `MathConst_deg2rad` and `DEG2RAD` (be_cavity/track.h:45). -/
def deg2rad : K := RealOps.pi / ((180 : Nat) : K)

/-- `Track_particle_cavity` (be_cavity/track.h:38-68). -/
def cavity (cv : Cavity K) (c : Coord K) : Coord K :=
  let kFactor : K := (((2 : Nat) : K) * RealOps.pi) / cLight
  let q := c.q0 * c.chargeRatio
  let tau := c.zeta / (c.beta0 * c.rvv)
  let phase := deg2rad * cv.lag - kFactor * cv.frequency * tau
  addToEnergy c (q * cv.voltage * RealOps.sin phase)

/-- `NS(RFMultipole)` (be_rfmultipole.h); `bal` and `phase` are the arrays at `bal_addr` and
`phase_addr`. -/
structure RFMultipole (K : Type) where
  order : Nat
  voltage : K
  frequency : K
  lag : K
  bal : Nat → K
  phase : Nat → K

/-- The variables of the loop of `Track_particle_rf_multipole`. -/
structure RFAcc (K : Type) where
  dpx : K
  dpy : K
  dptr : K
  zre : K
  zim : K

/-- One pass of the loop (be_rfmultipole/track.h:79-103). -/
def rfStep (bal phase : Nat → K) (ktau x y : K) (a : RFAcc K) (kk : Nat) : RFAcc K :=
  let pn := deg2rad * phase (2 * kk) - ktau
  let ps := deg2rad * phase (2 * kk + 1) - ktau
  let bn := bal (2 * kk)
  let bs := bal (2 * kk + 1)
  let cn := RealOps.cos pn
  let cs := RealOps.cos ps
  let sn := RealOps.sin pn
  let ss := RealOps.sin ps
  let dpx := a.dpx + (cn * (bn * a.zre) - cs * (bs * a.zim))
  let dpy := a.dpy + (cs * (bs * a.zre) + cn * (bn * a.zim))
  let zret := a.zre * x - a.zim * y
  let zim := a.zim * x + a.zre * y
  ⟨dpx, dpy, a.dptr + (sn * (bn * zret) - ss * (bs * zim)), zret, zim⟩

/-- The loop `for kk = 0 .. order` (be_rfmultipole/track.h:73-103). -/
def rfLoop (bal phase : Nat → K) (ktau x y : K) (order : Nat) : RFAcc K :=
  (List.range (order + 1)).foldl (rfStep bal phase ktau x y) ⟨0, 0, 0, 1, 0⟩

/-- `Track_particle_rf_multipole` (be_rfmultipole/track.h:39-122); `PhysConst_charge0` is 1. -/
def rfMultipole (rf : RFMultipole K) (c : Coord K) : Coord K :=
  let k : K := rf.frequency * (((2 : Nat) : K) * RealOps.pi) / cLight
  let q := c.q0 * c.chargeRatio * 1
  let ktau := k * c.zeta / (c.beta0 * c.rvv)
  let a := rfLoop rf.bal rf.phase ktau c.x c.y rf.order
  let cavEnergy := q * (rf.voltage * RealOps.sin (rf.lag * deg2rad - ktau))
  let rfEnergy := -q * ((k * c.p0c) * a.dptr)
  addToEnergy { c with px := c.px + -c.chi * a.dpx, py := c.py + c.chi * a.dpy }
    (cavEnergy + rfEnergy)

/-! ### Apertures -/

/-- `state & b` for a truth value `b` (0 or 1) on a two's complement integer. -/
def maskState (s : Int) (b : Prop) [Decidable b] : Int := if b then s % 2 else 0

/-- `( real_t )( ( ZERO < x ) - ( real_t )( x < ZERO ) )` (be_limit/track.h:82). -/
def sign (x : K) : K := (if 0 < x then 1 else 0) - (if x < 0 then 1 else 0)

/-- The test of `Track_particle_limit_global` (be_limit/track.h:82-86). -/
def insideGlobal (xLimit yLimit : K) (c : Coord K) : Prop :=
  sign c.x * c.x < xLimit ∧ sign c.y * c.y < yLimit

/-- `NS(LimitRect)` (be_limit_rect.h). -/
structure LimitRect (K : Type) where
  minX : K
  maxX : K
  minY : K
  maxY : K

/-- The test of `Track_particle_limit_rect` (be_limit/track.h:105-109). -/
def insideRect (l : LimitRect K) (c : Coord K) : Prop :=
  c.x ≥ l.minX ∧ c.x ≤ l.maxX ∧ c.y ≥ l.minY ∧ c.y ≤ l.maxY

/-- `NS(LimitEllipse)` (be_limit_ellipse.h): squares of the half axes and their product. -/
structure LimitEllipse (K : Type) where
  aSqu : K
  bSqu : K
  abSqu : K

/-- The test of `Track_particle_limit_ellipse` (be_limit/track.h:123-140). -/
def insideEllipse (l : LimitEllipse K) (c : Coord K) : Prop :=
  c.x * c.x * l.bSqu + c.y * c.y * l.aSqu ≤ l.abSqu

/-- `NS(LimitRectEllipse)` (be_limit_rect_ellipse.h). -/
structure LimitRectEllipse (K : Type) where
  maxX : K
  maxY : K
  aSqu : K
  bSqu : K
  abSqu : K

/-- The test of `Track_particle_limit_rect_ellipse` (be_limit/track.h:152-162). -/
def insideRectEllipse (l : LimitRectEllipse K) (c : Coord K) : Prop :=
  c.x ≤ l.maxX ∧ c.x ≥ -l.maxX ∧ c.y ≤ l.maxY ∧ c.y ≥ -l.maxY ∧
    c.x * c.x * l.bSqu + c.y * c.y * l.aSqu ≤ l.abSqu

instance (a b : K) (c : Coord K) : Decidable (insideGlobal a b c) := by
  unfold insideGlobal; infer_instance
instance (l : LimitRect K) (c : Coord K) : Decidable (insideRect l c) := by
  unfold insideRect; infer_instance
instance (l : LimitEllipse K) (c : Coord K) : Decidable (insideEllipse l c) := by
  unfold insideEllipse; infer_instance
instance (l : LimitRectEllipse K) (c : Coord K) : Decidable (insideRectEllipse l c) := by
  unfold insideRectEllipse; infer_instance

/-! ### The dispatcher -/

/-- `SIXTRL_APERTURE_CHECK_AT_DRIFT` (generated/config.h.template:68-71, cmake/SetupFeatures.cmake:104-106). -/
inductive ApertureCheck where
  | never
  | conditional
  | always
  deriving DecidableEq, Repr

/-- Values of the configuration macros `SIXTRL_TRACK_*`. -/
inductive MapFlag where
  | enabled
  | skip
  | disabled
  deriving DecidableEq, Repr

/-- Compile-time configuration (generated/config.h.template). -/
structure Config (K : Type) where
  check : ApertureCheck
  /-- `SIXTRL_APERTURE_CHECK_MIN_DRIFT_LENGTH`: documented as the length from which on drifts are
  checked in the conditional setting, but never read by the dispatcher -/
  minDriftLength : K
  xLimit : K
  yLimit : K
  beamBeam4D : MapFlag
  beamBeam6D : MapFlag
  spaceCharge : MapFlag
  triCub : MapFlag

/-- Kinds of beam-field elements. -/
inductive FieldKind where
  | beamBeam4D
  | beamBeam6D
  | scCoasting
  | scQGaussian
  | scInterpolated
  deriving DecidableEq, Repr

/-- A beam element of the lattice.  The maps of beam fields and of `TriCub` (which never fail and do
not touch the state) are given as functions. -/
inductive Element (K : Type) where
  | drift (length : K)
  | driftExact (length : K)
  | multipole (m : Multipole K)
  | rfMultipole (m : RFMultipole K)
  | cavity (c : Cavity K)
  | xyShift (dx dy : K)
  | sRotation (cosZ sinZ : K)
  /-- a monitor, the number of particles of its output object, and where that object starts in the
  output records -/
  | monitor (m : Monitor.Mon) (size : Int) (base : Nat)
  | limitRect (l : LimitRect K)
  | limitEllipse (l : LimitEllipse K)
  | limitRectEllipse (l : LimitRectEllipse K)
  | dipEdge (r21 r43 : K)
  | field (kind : FieldKind) (f : Coord K → Coord K)
  | triCub (f : Coord K → Coord K)
  | triCubData
  /-- an object of any other type id -/
  | other

/-- What is recorded by a monitor: the whole particle. -/
abbrev Record (K : Type) := Track.Part (Coord K)

/-- The map succeeded and left the state alone. -/
def moved (p : Particle K) (c : Coord K) : Track.Outcome (Coord K) (Record K) :=
  ⟨0, c, p.state, none⟩

/-- An aperture: `Particles_update_state_value_if_not_already_lost` (particles.h:6487-6498). -/
def limited (p : Particle K) (b : Prop) [Decidable b] :
    Track.Outcome (Coord K) (Record K) :=
  ⟨0, p.coord, maskState p.state b, none⟩

/-- A failure that leaves the particle as it is. -/
def refused (p : Particle K) : Track.Outcome (Coord K) (Record K) :=
  ⟨-1, p.coord, p.state, none⟩

/-- Is the global aperture check done after a drift of this length?  (track.h:237-270; with the
conditional setting the length is compared with the *value of the setting*, which is 1,
track.h:256-258, 298-300.) -/
def checksDrift (cfg : Config K) (length : K) : Prop :=
  match cfg.check with
  | .always => True
  | .conditional => length ≥ ((1 : Nat) : K)
  | .never => False

instance (cfg : Config K) (length : K) : Decidable (checksDrift cfg length) := by
  unfold checksDrift; split <;> infer_instance

/-- A drift and the global aperture check after it (track.h:231-273, 275-315). -/
def drifted (cfg : Config K) (p : Particle K) (length : K) (c : Coord K) :
    Track.Outcome (Coord K) (Record K) :=
  if checksDrift cfg length then
    ⟨0, c, maskState p.state (insideGlobal cfg.xLimit cfg.yLimit c), none⟩
  else moved p c

/-- A map that can be switched off by the configuration (e.g. track.h:452-478). -/
def flagged (flag : MapFlag) (p : Particle K) (f : Coord K → Coord K) :
    Track.Outcome (Coord K) (Record K) :=
  match flag with
  | .enabled => moved p (f p.coord)
  | .skip => moved p p.coord
  | .disabled => refused p

/-- The default branch: the particle is marked as lost (track.h:616-620). -/
def rejected (p : Particle K) : Track.Outcome (Coord K) (Record K) :=
  ⟨-1, p.coord, 0, none⟩

/-- `Track_particle_beam_element_obj_dispatcher` (track.h:180-623).  Undefined behaviour can only come
from the index arithmetic of a monitor. -/
def dispatch (cfg : Config K) (e : Element K) (p : Particle K) :
    Res (Track.Outcome (Coord K) (Record K)) :=
  match e with
  | .drift l => .ok (drifted cfg p l (drift l p.coord))
  | .driftExact l => .ok (drifted cfg p l (driftExact l p.coord))
  | .multipole m => .ok (moved p (multipole m p.coord))
  | .rfMultipole m => .ok (moved p (rfMultipole m p.coord))
  | .cavity c => .ok (moved p (cavity c p.coord))
  | .xyShift dx dy => .ok (moved p (xyShift dx dy p.coord))
  | .sRotation c s => .ok (moved p (sRotation c s p.coord))
  | .monitor m size base =>
    if m.outAddr ≠ 0 then do
      let i ← m.storeIndex p.atTurn p.id
      if 0 ≤ i then
        if i < size then return ⟨0, p.coord, p.state, some (base + i.toNat, p)⟩
        else return ⟨-1, p.coord, 0, none⟩
      else return moved p p.coord
    else .ok (moved p p.coord)
  | .limitRect l => .ok (limited p (insideRect l p.coord))
  | .limitEllipse l => .ok (limited p (insideEllipse l p.coord))
  | .limitRectEllipse l => .ok (limited p (insideRectEllipse l p.coord))
  | .dipEdge r21 r43 => .ok (moved p (dipEdge r21 r43 p.coord))
  | .field .beamBeam4D f => .ok (flagged cfg.beamBeam4D p f)
  | .field .beamBeam6D f => .ok (flagged cfg.beamBeam6D p f)
  | .field .scCoasting f => .ok (flagged cfg.spaceCharge p f)
  | .field .scQGaussian f => .ok (flagged cfg.spaceCharge p f)
  | .field .scInterpolated f =>
    -- the `case` label stands inside the `#if` of the enabled setting (track.h:583-612)
    .ok (if cfg.spaceCharge = .enabled then moved p (f p.coord) else rejected p)
  | .triCub f => .ok (flagged cfg.triCub p f)
  | .triCubData =>
    .ok (if cfg.triCub = .disabled then refused p else moved p p.coord)
  | .other => .ok (rejected p)

/-- The dispatcher as the meaning of elements for the tracking loops of `Verif.Track`.  A run in which
a monitor's index arithmetic overflows is undefined: then anything may happen, so the theorems are
about every choice of `undef`. -/
def sem (cfg : Config K)
    (undef : Element K → Particle K → Track.Outcome (Coord K) (Record K)) :
    Track.Sem (Element K) (Coord K) (Record K) where
  dispatch e p :=
    match dispatch cfg e p with
    | .ok o => o
    | .ub => undef e p
  zeroS c := { c with s := 0 }

end Elem
end SixTrack
