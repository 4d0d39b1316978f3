import Verif.ElementObjects
import Verif.Interpol
import Verif.QGaussModel
import Verif.Buffer.Generic

/-!
# Line density profiles, beam-beam and space-charge elements as objects

Source: `sixtracklib/common/be_beamfields/be_beamfields.h`, `be_beamfields.c`,
`sixtracklib/common/internal/math_interpol.h`.

The arrays of a line density profile live in a memory of real-number cells as in
`Verif/ElementObjects.lean`: an address counts cells and 0 is the null pointer.  Both arrays have
`capacity` cells (that is what `LineDensityProfileData_attributes_counts` gives to the buffer); what
reads behind them is undefined.  The data of a beam-beam element are 64-bit words, `data_size` of
them.  Exact arithmetic; `malloc` of the temporary memory of the cubic preparation succeeds.
-/

namespace SixTrack
namespace Elem

variable {K : Type}

/-! ### `NS(LineDensityProfileData)` -/

/-- `NS(LineDensityProfileData)` (be_beamfields.h:887-897).  `method`: 0 linear, 1 cubic, 255 none
(math_interpol.h:37-43). -/
structure LdObj (K : Type) where
  method : Nat
  capacity : Int
  valuesAddr : Nat
  derivAddr : Nat
  z0 : K
  dz : K
  numValues : Int

/-- `LineDensityProfileData_clear` (be_beamfields.h:3083-3105). -/
def LdObj.cleared [Zero K] [One K] : LdObj K := ⟨255, 2, 0, 0, 0, 1, 0⟩

/-- The object that `LineDensityProfileData_new` (be_beamfields.c:1366-1423) hands to the buffer, or
nothing. -/
def LdObj.newHandle [Zero K] [One K] (capacity : Int) : Option (LdObj K) :=
  if 0 < capacity then some { LdObj.cleared with capacity := capacity, numValues := capacity } else none

/-- The object that `LineDensityProfileData_add` (be_beamfields.c:1425-1502) hands to the buffer, or
nothing.  Lines 1466-1467 both set `z0`. -/
def LdObj.addHandle [Zero K] [One K] (method : Nat) (n : Int) (valuesAddr derivAddr : Nat) (z0 dz : K)
    (capacity : Int) : Option (LdObj K) :=
  let n := if n < 0 then 0 else n
  let capacity := if capacity < n ∧ 0 < n then n else capacity
  if 0 < capacity then
    let d : LdObj K := LdObj.cleared
    let d := { d with capacity := capacity }
    let d := { d with numValues := n }
    let d := { d with method := method }
    let d := { d with valuesAddr := valuesAddr }
    let d := { d with z0 := z0 }
    let d := { d with z0 := dz }
    some { d with derivAddr := derivAddr }
  else none

/-- `LineDensityProfileData_can_be_added` (be_beamfields.c:1318-1364): `Buffer_can_add_object` gets two
data pointers and null pointers for their sizes and counts, which
`ManagedBuffer_predict_required_num_slots` reads (managed_buffer.h:305-311) if appending is allowed. -/
def LdObj.canBeAdded (s : Buf.St) (capacity : Int) : Res Bool :=
  if 0 < s.buf.slot ∧ 0 < capacity then
    if s.buf.allowAppend then .ub else .ok false
  else .ok false

/-- The cells of the two arrays. -/
def LdObj.values (d : LdObj K) (mem : Nat → K) (i : Nat) : K := mem (d.valuesAddr + i)
def LdObj.derivs (d : LdObj K) (mem : Nat → K) (i : Nat) : K := mem (d.derivAddr + i)

section Interpolate
variable [Field K] [LinearOrder K] [FloorRing K]

/-- `LineDensityProfileData_z_max` (be_beamfields.h:3357-3365). -/
def LdObj.zMax (d : LdObj K) : K := d.z0 + d.dz * d.numValues

/-- What an evaluation needs before it reads the arrays: the addresses (asserted in
be_beamfields.h:3390-3394) and a step that can be divided by. -/
def LdObj.guarded (d : LdObj K) (r : Res K) : Res K :=
  if d.valuesAddr = 0 ∨ d.derivAddr = 0 ∨ d.dz = 0 then .ub else r

/-- `LineDensityProfileData_interpolate_value` (be_beamfields.h:3385-3410) with `Math_interpol_y_equ`
(math_interpol.h:901-920). -/
def LdObj.value (d : LdObj K) (mem : Nat → K) (z : K) : Res K :=
  if z ≤ d.zMax ∧ d.z0 ≤ z then
    if d.method = 0 then
      d.guarded (Interpol.linearY z d.z0 d.dz (d.values mem) (d.derivs mem) d.capacity.toNat)
    else if d.method = 1 then
      d.guarded (Interpol.cubicY z d.z0 d.dz (d.values mem) (d.derivs mem) d.capacity.toNat)
    else .ok 0
  else .ok 0

/-- `LineDensityProfileData_interpolate_1st_derivative` (be_beamfields.h:3412-3437). -/
def LdObj.deriv1 (d : LdObj K) (mem : Nat → K) (z : K) : Res K :=
  if z ≤ d.zMax ∧ d.z0 ≤ z then
    if d.method = 0 then d.guarded (Interpol.linearYp z d.z0 d.dz (d.derivs mem) d.capacity.toNat)
    else if d.method = 1 then
      d.guarded (Interpol.cubicYp z d.z0 d.dz (d.values mem) (d.derivs mem) d.capacity.toNat)
    else .ok 0
  else .ok 0

/-- `LineDensityProfileData_interpolate_2nd_derivative` (be_beamfields.h:3439-3464); for the linear
method the result is 0 (math_interpol.h:686-708). -/
def LdObj.deriv2 (d : LdObj K) (mem : Nat → K) (z : K) : Res K :=
  if z ≤ d.zMax ∧ d.z0 ≤ z then
    if d.method = 1 then
      d.guarded (Interpol.cubicYpp z d.z0 d.dz (d.derivs mem) d.capacity.toNat)
    else .ok 0
  else .ok 0

/-- `LineDensityProfileData_prepare_interpolation_ext` (be_beamfields.c:1071-1104) with
`LineDensityProfileData_prepare_interpolation` (be_beamfields.h:3470-3496) and `Math_interpol_prepare_equ`
(math_interpol.h:604-645; cubic: natural at both ends): whether it succeeds, and the memory.  The two
arrays do not overlap. -/
def LdObj.prepare (d : LdObj K) (mem : Nat → K) : Res (Bool × (Nat → K)) :=
  let n := d.numValues.toNat
  if 1 < d.numValues ∧ (d.method = 0 ∨ d.method = 1) ∧ d.valuesAddr ≠ 0 ∧ d.derivAddr ≠ 0 ∧
      d.derivAddr ≠ d.valuesAddr then
    if d.capacity < d.numValues then .ub
    else
      let r := if d.method = 0 then Interpol.linearPrepare (d.derivs mem) (d.values mem) d.dz n
        else Interpol.cubicPrepare (d.derivs mem) (d.values mem) d.dz n .natural .natural 0 0
      .ok (r.2, fillCells mem d.derivAddr r.1 0 n)
  else .ok (false, mem)

end Interpolate

/-- The loop of `LineDensityProfileData_copy` (be_beamfields.h:3661-3665). -/
def ldCopyLoop (mem : Nat → K) (dv dd sv sd : Nat) : Nat → Nat → (Nat → K)
  | _, 0 => mem
  | k, n + 1 =>
    let m1 := Particles.setAt mem (dv + k) (mem (sv + k))
    let m2 := Particles.setAt m1 (dd + k) (m1 (sd + k))
    ldCopyLoop m2 dv dd sv sd (k + 1) n

/-- `LineDensityProfileData_copy` (be_beamfields.h:3607-3677) between two different objects. -/
def LdObj.copy (dst src : LdObj K) (mem : Nat → K) : Res (Int × LdObj K × (Nat → K)) :=
  if src.numValues ≤ dst.capacity ∧ dst.valuesAddr ≠ src.valuesAddr ∧ dst.valuesAddr ≠ 0 ∧
      src.valuesAddr ≠ 0 ∧ dst.derivAddr ≠ src.derivAddr ∧ dst.derivAddr ≠ 0 ∧ src.derivAddr ≠ 0 then
    if src.capacity < src.numValues then .ub
    else .ok (0, { dst with method := src.method, numValues := src.numValues, z0 := src.z0, dz := src.dz },
      ldCopyLoop mem dst.valuesAddr dst.derivAddr src.valuesAddr src.derivAddr 0 src.numValues.toNat)
  else .ok (-1, dst, mem)

/-! ### `NS(BeamBeam4D)` and `NS(BeamBeam6D)` -/

/-- `NS(BeamBeam4D)` and `NS(BeamBeam6D)` (be_beamfields.h:36-41, 194-199): both are a number of words
and an address. -/
structure BbObj where
  size : Nat
  addr : Nat
  deriving DecidableEq, Repr

/-- Words of `NS(BB4D_data)` and `NS(BB6D_data)` (be_beamfields.h:43-56, 222-249). -/
def bb4dWords : Nat := 11
def bb6dWords : Nat := 38

/-- `BeamBeam4D_set_data_size` (be_beamfields.h:1707-1729), `BeamBeam6D_set_data_size` likewise:
the status and the element. -/
def BbObj.setSize (words : Nat) (b : BbObj) (size : Nat) : Int × BbObj :=
  if size = 0 ∨ words ≤ size then (0, { b with size := size }) else (-1, b)

/-- `BeamBeam4D_copy` (be_beamfields.h:1806-1846) and `BeamBeam6D_copy` (2053-2093) between two
different elements: `*dst_data = *src_data` assigns the struct, `words` words.  It is undefined
if one of the two data blocks is smaller than the struct. -/
def BbObj.copy (words : Nat) (dst src : BbObj) (mem : Nat → Nat) : Res (Int × BbObj × (Nat → Nat)) :=
  if dst.addr ≠ 0 ∧ src.addr ≠ 0 ∧ src.size ≤ dst.size ∧ dst.addr ≠ src.addr then
    if dst.size < words ∨ src.size < words then .ub
    else
      let mem := fillCells mem dst.addr (fun i => mem (src.addr + i)) 0 words
      let r := dst.setSize words src.size
      .ok (r.1, r.2, mem)
  else .ok (-1, dst, mem)

/-- `SIXTRL_BB_GET_PTR` (be_beamfields.h:23-27): entry `i` of the array whose member is word `field`
(34: particles per slice, 35: x, 36: y, 37: sigma; be_beamfields.h:245-248). -/
def BbObj.slice (b : BbObj) (mem : Nat → Nat) (field i : Nat) : Nat :=
  mem (b.addr + field + mem (b.addr + field) + 1 + i)

end Elem

/-! ### Space charge elements -/

namespace Beam
open Elem

variable {K : Type} [Field K] [LinearOrder K] [FieldOps K]

/-- The setters of `enabled` after its getters (be_beamfields.h:2520-2526, 2602-2610;
the same for the other two elements). -/
def copyEnabled (e : Nat) : Nat := if e = 1 then 1 else 0

/-- `SCCoasting_clear` (be_beamfields.h:2398-2417). -/
def SCCoasting.clear (_ : SCCoasting K) : SCCoasting K := ⟨0, 1, 1, 1, 0, 0, 0, dec 1 10, 1⟩

/-- `SCCoasting_copy` (be_beamfields.h:2654-2700) between two different elements. -/
def SCCoasting.copy (_dst src : SCCoasting K) : SCCoasting K :=
  ⟨src.nPart, src.circumference, src.sigmaX, src.sigmaY, src.length, src.xCo, src.yCo, src.minSigmaDiff,
    copyEnabled src.enabled⟩

/-- `SCQGaussProfile_clear` (be_beamfields.h:2717-2745): `min_sigma_diff` is not set. -/
def SCQGauss.clear (sc : SCQGauss K) : Res (Bool × SCQGauss K) := do
  let sc := { sc with nPart := 0, bunchlengthRms := 1, sigmaX := 1, sigmaY := 1, length := 0, xCo := 0, yCo := 0 }
  let (ok, sc) ← setQ sc 1
  return (ok, { sc with enabled := 1 })

/-- `SCQGaussProfile_copy` (be_beamfields.h:3020-3068) between two different elements. -/
def SCQGauss.copy (dst src : SCQGauss K) : Res (Bool × SCQGauss K) := do
  let d := { dst with
    nPart := src.nPart, bunchlengthRms := src.bunchlengthRms, sigmaX := src.sigmaX, sigmaY := src.sigmaY
    length := src.length, xCo := src.xCo, yCo := src.yCo, minSigmaDiff := src.minSigmaDiff }
  let (ok, d) ← setQ d src.qParam
  return (ok, { d with enabled := copyEnabled src.enabled })

/-- `NS(SCInterpolatedProfile)` (be_beamfields.h:1281-1294) as an object. -/
structure SCInterpObj (K : Type) where
  nPart : K
  sigmaX : K
  sigmaY : K
  length : K
  xCo : K
  yCo : K
  dataAddr : Nat
  fallback : K
  minSigmaDiff : K
  enabled : Nat

/-- `SCInterpolatedProfile_clear` (be_beamfields.h:3718-3757). -/
def SCInterpObj.clear (_ : SCInterpObj K) : SCInterpObj K := ⟨0, 1, 1, 0, 0, 0, 0, 1, dec 1 10, 1⟩

/-- `SCInterpolatedProfile_copy` (be_beamfields.h:4120-4168) between two different elements. -/
def SCInterpObj.copy (_dst src : SCInterpObj K) : SCInterpObj K :=
  ⟨src.nPart, src.sigmaX, src.sigmaY, src.length, src.xCo, src.yCo, src.dataAddr, src.fallback, src.minSigmaDiff,
    copyEnabled src.enabled⟩

end Beam
end SixTrack
