import Verif.Elements
import Verif.Particles

/-!
# Beam element objects: setting, reading, clearing and copying

Source: `sixtracklib/common/be_*/be_*.h`, `sixtracklib/common/be_limit/*`,
`sixtracklib/common/internal/math_factorial.h`.

Arrays that belong to an element (`bal`, `phase`) live in a memory of real-number cells; an address
counts cells (8 bytes) and 0 is the null pointer.  Where an array is copied, source and destination are
taken not to overlap (the values are read before anything is written).  A loop `for( ; it != end ; ++it )` that starts
behind its end runs out of every array: undefined behaviour.
-/

namespace SixTrack
namespace Elem

/-! ### Factorials -/

/-- `Math_factorial` (math_factorial.h:158-205; the C++ template 26-72 has the same table). -/
def factorial (n : Nat) : Nat :=
  match n with
  | 0 => 1
  | 1 => 1
  | 2 => 2
  | 3 => 6
  | 4 => 24
  | 5 => 120
  | 6 => 720
  | 7 => 5040
  | 8 => 40320
  | 9 => 362880
  | 10 => 3628800
  | 11 => 3628800
  | 12 => 479001600
  | 13 => 6227020800
  | 14 => 87178291200
  | 15 => 1307674368000
  | 16 => 20922789888000
  | 17 => 355687428096000
  | 18 => 6402373705728000
  | 19 => 121645100408832000
  | 20 => 2432902008176640000
  | n + 21 =>
    let nd := (n + 21) / 20
    let rem := (n + 21) % 20
    nd * 2432902008176640000 + (if rem ≠ 0 then factorial rem else 0)
termination_by n

/-- `Math_inv_factorial` (math_factorial.h:207-247): digits and decimal exponent of the literal, for
the tabulated arguments. -/
def invFactorialLit (n : Nat) : Nat × Nat :=
  match n with
  | 0 => (1, 0)
  | 1 => (1, 0)
  | 2 => (5, 1)
  | 3 => (166666666666666657, 18)
  | 4 => (416666666666666644, 19)
  | 5 => (833333333333333322, 20)
  | 6 => (138888888888888894, 20)
  | 7 => (198412698412698413, 21)
  | 8 => (248015873015873016, 22)
  | 9 => (275573192239858925, 23)
  | 10 => (275573192239858883, 24)
  | 11 => (250521083854417202, 25)
  | 12 => (250521083854417202, 25)
  | 13 => (160590438368216133, 27)
  | 14 => (114707455977297245, 28)
  | 15 => (764716373181981641, 30)
  | 16 => (477947733238738525, 31)
  | 17 => (28114572543455206, 31)
  | 18 => (156192069685862253, 33)
  | 19 => (82206352466243295, 34)
  | _ => (411031762331216484, 36)

variable {K : Type}

/-! ### Loops over cells -/

/-- `for( ; it != end ; ++it, ++k ) *it = v k`, `n` passes. -/
def fillCells (mem : Nat → K) (it : Nat) (v : Nat → K) : Nat → Nat → (Nat → K)
  | _, 0 => mem
  | k, n + 1 => fillCells (Particles.setAt mem it (v k)) (it + 1) v (k + 1) n

/-- The loop from `it` to `stop`. -/
def fillLoop (mem : Nat → K) (it stop : Nat) (v : Nat → K) : Res (Nat → K) :=
  if it ≤ stop then .ok (fillCells mem it v 0 (stop - it)) else .ub

/-- `for( ; index < bound ; index += 2, ++k ) values[ index ] = v k`. -/
def strideLoop (mem : Nat → K) (addr bound : Nat) (v : Nat → K) (index k : Nat) : Nat → K :=
  if index < bound then
    strideLoop (Particles.setAt mem (addr + index) (v k)) addr bound v (index + 2) (k + 1)
  else mem
termination_by bound - index

/-- `for( ; k <= order ; ++k, index += step, ++j ) values[ index ] = v k j`. -/
def countLoop (mem : Nat → K) (addr order : Nat) (v : Nat → Nat → K) (index step k j : Nat) : Nat → K :=
  if k ≤ order then
    countLoop (Particles.setAt mem (addr + index) (v k j)) addr order v (index + step) step (k + 1) (j + 1)
  else mem
termination_by order + 1 - k

/-! ### `NS(Multipole)` -/

/-- `NS(Multipole)` (be_multipole.h:24-33) with its array in memory. -/
structure MpObj (K : Type) where
  order : Nat
  length : K
  hxl : K
  hyl : K
  balAddr : Nat

/-- `Multipole_bal_length` (be_multipole.h:397-404). -/
def MpObj.balLength (m : MpObj K) : Nat := 2 * m.order + 2

/-- The element map's view of the object. -/
def MpObj.view (m : MpObj K) (mem : Nat → K) : Multipole K :=
  ⟨m.order, m.length, m.hxl, m.hyl, fun i => mem (m.balAddr + i)⟩

section Strengths
variable [Mul K] [Div K] [NatCast K]

/-- `Multipole_knl` (be_multipole.h:449-458). -/
def MpObj.knl (m : MpObj K) (mem : Nat → K) (i : Nat) : K :=
  mem (m.balAddr + 2 * i) * ((factorial i : Nat) : K)

/-- `Multipole_ksl` (be_multipole.h:460-469). -/
def MpObj.ksl (m : MpObj K) (mem : Nat → K) (i : Nat) : K :=
  mem (m.balAddr + (2 * i + 1)) * ((factorial i : Nat) : K)

/-- `Multipole_set_knl_value` (be_multipole.h:619-642): the index is an unsigned 64-bit number. -/
def MpObj.setKnlValue (m : MpObj K) (mem : Nat → K) (i : Nat) (v : K) : Int × (Nat → K) :=
  let balIndex := (2 * i) % 2 ^ 64
  if m.balAddr ≠ 0 ∧ balIndex < m.balLength then
    (0, Particles.setAt mem (m.balAddr + balIndex) (v / ((factorial i : Nat) : K)))
  else (-1, mem)

/-- `Multipole_set_ksl_value` (be_multipole.h:703-726). -/
def MpObj.setKslValue (m : MpObj K) (mem : Nat → K) (i : Nat) (v : K) : Int × (Nat → K) :=
  let balIndex := (2 * i + 1) % 2 ^ 64
  if m.balAddr ≠ 0 ∧ balIndex < m.balLength then
    (0, Particles.setAt mem (m.balAddr + balIndex) (v / ((factorial i : Nat) : K)))
  else (-1, mem)

/-- `Multipole_set_knl` (be_multipole.h:672-699); with a constant function this is
`Multipole_set_all_knl_values` (644-670). -/
def MpObj.setKnl (m : MpObj K) (mem : Nat → K) (v : Nat → K) : Int × (Nat → K) :=
  if m.balAddr ≠ 0 then
    (0, strideLoop mem m.balAddr m.balLength (fun k => v k / ((factorial k : Nat) : K)) 0 0)
  else (-1, mem)

/-- `Multipole_set_ksl` (be_multipole.h:755-782), and `Multipole_set_all_ksl_values` (728-753). -/
def MpObj.setKsl (m : MpObj K) (mem : Nat → K) (v : Nat → K) : Int × (Nat → K) :=
  if m.balAddr ≠ 0 then
    (0, strideLoop mem m.balAddr m.balLength (fun k => v k / ((factorial k : Nat) : K)) 1 0)
  else (-1, mem)

end Strengths

/-- `Multipole_set_bal_value` (be_multipole.h:545-563). -/
def MpObj.setBalValue (m : MpObj K) (mem : Nat → K) (i : Nat) (v : K) : Int × (Nat → K) :=
  if m.balAddr ≠ 0 ∧ i < m.balLength then (0, Particles.setAt mem (m.balAddr + i) v) else (-1, mem)

/-- `Multipole_set_all_bal_values` (be_multipole.h:565-587): both ends of the loop are `bal_begin`. -/
def MpObj.setAllBalValues (m : MpObj K) (mem : Nat → K) (v : K) : Res (Int × (Nat → K)) :=
  if m.balAddr ≠ 0 then do
    let mem ← fillLoop mem m.balAddr m.balAddr (fun _ => v)
    return (0, mem)
  else .ok (-1, mem)

/-- `Multipole_set_bal` (be_multipole.h:589-615), from an array elsewhere. -/
def MpObj.setBal (m : MpObj K) (mem : Nat → K) (v : Nat → K) : Res (Int × (Nat → K)) :=
  if m.balAddr ≠ 0 then do
    let mem ← fillLoop mem m.balAddr (m.balAddr + m.balLength) v
    return (0, mem)
  else .ok (-1, mem)

/-- `Multipole_copy` (be_multipole.h:787-823) between two different objects. -/
def MpObj.copy (dst src : MpObj K) (mem : Nat → K) : Res (Int × MpObj K × (Nat → K)) :=
  if src.order = dst.order then
    let dst := { dst with length := src.length, hxl := src.hxl, hyl := src.hyl }
    if src.balAddr ≠ 0 then do
      let r ← dst.setBal mem (fun i => mem (src.balAddr + i))
      return (r.1, dst, r.2)
    else .ok (-1, dst, mem)
  else .ok (-1, dst, mem)

/-! ### `NS(RFMultipole)` -/

/-- `NS(RFMultipole)` (be_rfmultipole.h) with its arrays in memory. -/
structure RfObj (K : Type) where
  order : Nat
  voltage : K
  frequency : K
  lag : K
  balAddr : Nat
  phaseAddr : Nat

/-- `RFMultipole_bal_length`, `RFMultipole_phase_length` (be_rfmultipole.h:500-517). -/
def RfObj.length (m : RfObj K) : Nat := 2 * m.order + 2

/-- The element map's view of the object. -/
def RfObj.view (m : RfObj K) (mem : Nat → K) : RFMultipole K :=
  ⟨m.order, m.voltage, m.frequency, m.lag, fun i => mem (m.balAddr + i),
    fun i => mem (m.phaseAddr + i)⟩

section Strengths
variable [Mul K] [Div K] [NatCast K]

/-- `RFMultipole_knl` (be_rfmultipole.h:569-586). -/
def RfObj.knl (m : RfObj K) (mem : Nat → K) (i : Nat) : K :=
  mem (m.balAddr + 2 * i) * ((factorial i : Nat) : K)

/-- `RFMultipole_ksl` (be_rfmultipole.h:588-605). -/
def RfObj.ksl (m : RfObj K) (mem : Nat → K) (i : Nat) : K :=
  mem (m.balAddr + (2 * i + 1)) * ((factorial i : Nat) : K)

/-- `RFMultipole_set_knl_value` (be_rfmultipole.h:820-843).  The index has to be at least the order;
it is signed, so doubling a huge one would overflow (not modelled: `i` is at most `2^62`). -/
def RfObj.setKnlValue (m : RfObj K) (mem : Nat → K) (i : Nat) (v : K) : Int × (Nat → K) :=
  if m.balAddr ≠ 0 ∧ i ≥ m.order ∧ 2 * i < m.length then
    (0, Particles.setAt mem (m.balAddr + 2 * i) (v / ((factorial i : Nat) : K)))
  else (-1, mem)

/-- `RFMultipole_set_ksl_value` (be_rfmultipole.h:905-929). -/
def RfObj.setKslValue (m : RfObj K) (mem : Nat → K) (i : Nat) (v : K) : Int × (Nat → K) :=
  if m.balAddr ≠ 0 ∧ i ≥ m.order ∧ 2 * i + 1 < m.length then
    (0, Particles.setAt mem (m.balAddr + (2 * i + 1)) (v / ((factorial i : Nat) : K)))
  else (-1, mem)

/-- `RFMultipole_set_knl` (be_rfmultipole.h:873-901), and `RFMultipole_set_all_knl_values` (845-871)
with a constant function. -/
def RfObj.setKnl (m : RfObj K) (mem : Nat → K) (v : Nat → K) : Int × (Nat → K) :=
  if m.balAddr ≠ 0 then
    (0, countLoop mem m.balAddr m.order (fun k j => v j / ((factorial k : Nat) : K)) 0 2 0 0)
  else (-1, mem)

/-- `RFMultipole_set_ksl` (be_rfmultipole.h:959-988), and `RFMultipole_set_all_ksl_values` (931-957)
with a constant function: the count starts at 1 and the index at 0. -/
def RfObj.setKsl (m : RfObj K) (mem : Nat → K) (v : Nat → K) : Int × (Nat → K) :=
  if m.balAddr ≠ 0 then
    (0, countLoop mem m.balAddr m.order (fun k j => v j / ((factorial k : Nat) : K)) 0 2 1 0)
  else (-1, mem)

end Strengths

/-- `RFMultipole_set_bal` (be_rfmultipole.h:793-816); with a constant function and a
non-null address also `RFMultipole_set_all_bal_values` (775-791). -/
def RfObj.setBal (m : RfObj K) (mem : Nat → K) (v : Nat → K) : Res (Int × (Nat → K)) :=
  if m.balAddr ≠ 0 then do
    let mem ← fillLoop mem m.balAddr (m.balAddr + m.length) v
    return (0, mem)
  else .ok (-1, mem)

/-- `RFMultipole_phase_end` (be_rfmultipole.h:1009-1025): counts from the start of `bal`. -/
def RfObj.phaseEnd (m : RfObj K) : Nat := if m.balAddr ≠ 0 then m.balAddr + m.length else 0

/-- `RFMultipole_phase_n` and `RFMultipole_phase_s` (be_rfmultipole.h:658-691). -/
def RfObj.phaseN (m : RfObj K) (mem : Nat → K) (i : Nat) : K := mem (m.phaseAddr + 2 * i)
def RfObj.phaseS (m : RfObj K) (mem : Nat → K) (i : Nat) : K := mem (m.phaseAddr + (2 * i + 1))

/-- `RFMultipole_set_phase_value` (be_rfmultipole.h:1029-1040). -/
def RfObj.setPhaseValue (m : RfObj K) (mem : Nat → K) (i : Nat) (v : K) : Int × (Nat → K) :=
  (0, Particles.setAt mem (m.phaseAddr + i) v)

/-- `RFMultipole_set_all_phase_values` (be_rfmultipole.h:1042-1058). -/
def RfObj.setAllPhaseValues (m : RfObj K) (mem : Nat → K) (v : K) : Res (Int × (Nat → K)) := do
  let mem ← fillLoop mem m.phaseAddr m.phaseEnd (fun _ => v)
  return (0, mem)

/-- `RFMultipole_set_phase` (be_rfmultipole.h:1060-1087): loops over `bal`. -/
def RfObj.setPhase (m : RfObj K) (mem : Nat → K) (v : Nat → K) : Res (Int × (Nat → K)) :=
  if m.balAddr ≠ 0 then do
    let mem ← fillLoop mem m.balAddr (m.balAddr + m.length) v
    return (0, mem)
  else .ok (-1, mem)

/-- `RFMultipole_set_phase_n_value` (be_rfmultipole.h:1091-1113). -/
def RfObj.setPhaseNValue (m : RfObj K) (mem : Nat → K) (i : Nat) (v : K) : Int × (Nat → K) :=
  if m.phaseAddr ≠ 0 ∧ i ≥ m.order ∧ 2 * i < m.length then
    (0, Particles.setAt mem (m.phaseAddr + 2 * i) v)
  else (-1, mem)

/-- `RFMultipole_set_all_phase_n_values` (be_rfmultipole.h:1115-1140): writes with the order index. -/
def RfObj.setAllPhaseN (m : RfObj K) (mem : Nat → K) (v : K) : Int × (Nat → K) :=
  if m.phaseAddr ≠ 0 then (0, countLoop mem m.phaseAddr m.order (fun _ _ => v) 0 1 0 0)
  else (-1, mem)

/-- `RFMultipole_set_phase_n` (be_rfmultipole.h:1142-1169). -/
def RfObj.setPhaseN (m : RfObj K) (mem : Nat → K) (v : Nat → K) : Int × (Nat → K) :=
  if m.phaseAddr ≠ 0 then (0, countLoop mem m.phaseAddr m.order (fun _ j => v j) 0 2 0 0)
  else (-1, mem)

/-- `RFMultipole_set_phase_s_value` (be_rfmultipole.h:1173-1196). -/
def RfObj.setPhaseSValue (m : RfObj K) (mem : Nat → K) (i : Nat) (v : K) : Int × (Nat → K) :=
  if m.phaseAddr ≠ 0 ∧ i ≥ m.order ∧ 2 * i + 1 < m.length then
    (0, Particles.setAt mem (m.phaseAddr + (2 * i + 1)) v)
  else (-1, mem)

/-- `RFMultipole_set_all_phase_s_values` (be_rfmultipole.h:1198-1223). -/
def RfObj.setAllPhaseS (m : RfObj K) (mem : Nat → K) (v : K) : Int × (Nat → K) :=
  if m.phaseAddr ≠ 0 then (0, countLoop mem m.phaseAddr m.order (fun _ _ => v) 1 1 1 0)
  else (-1, mem)

/-- `RFMultipole_set_phase_s` (be_rfmultipole.h:1225-1252). -/
def RfObj.setPhaseS (m : RfObj K) (mem : Nat → K) (v : Nat → K) : Int × (Nat → K) :=
  if m.phaseAddr ≠ 0 then (0, countLoop mem m.phaseAddr m.order (fun _ j => v j) 0 2 1 0)
  else (-1, mem)

/-- `RFMultipole_copy` (be_rfmultipole.h:1256-1355) between two different objects.  The ends of the
loops are those of the source arrays. -/
def RfObj.copy (dst src : RfObj K) (mem : Nat → K) : Int × RfObj K × (Nat → K) :=
  if dst.order = src.order then
    let r1 : Int × (Nat → K) :=
      if src.phaseAddr ≠ 0 ∧ dst.phaseAddr ≠ 0 then
        (0, fillCells mem dst.phaseAddr (fun i => mem (src.phaseAddr + i)) 0 src.length)
      else if src.phaseAddr = 0 ∧ dst.phaseAddr = 0 then (0, mem)
      else (-1, mem)
    if r1.1 = 0 then
      let r2 : Int × (Nat → K) :=
        if src.balAddr ≠ 0 ∧ dst.balAddr ≠ 0 then
          (0, fillCells r1.2 dst.balAddr (fun i => r1.2 (src.balAddr + i)) 0 src.length)
        else if src.balAddr = 0 ∧ dst.balAddr = 0 then (0, r1.2)
        else (-1, r1.2)
      if r2.1 = 0 then
        (0, { dst with voltage := src.voltage, frequency := src.frequency, lag := src.lag }, r2.2)
      else (-1, dst, r2.2)
    else (-1, dst, r1.2)
  else (-1, dst, mem)

/-! ### Apertures -/

section Limits
variable [Zero K] [Mul K] [Neg K] [LE K] [DecidableLE K]

/-- `LimitRect_set_x_limit`, `LimitRect_set_y_limit` (be_limit_rect.h:303-323). -/
def LimitRect.setXLimit (l : LimitRect K) (v : K) : LimitRect K := { l with minX := -v, maxX := v }
def LimitRect.setYLimit (l : LimitRect K) (v : K) : LimitRect K := { l with minY := -v, maxY := v }

/-- `LimitRect_clear` (be_limit_rect.h:220-236); `xl`, `yl` are the configured aperture limits. -/
def LimitRect.cleared (xl yl : K) : LimitRect K := ⟨-xl, xl, -yl, yl⟩

/-- `LimitRect_copy` (be_limit_rect.h:364-387). -/
def LimitRect.copy (dst src : LimitRect K) : Int × LimitRect K :=
  (0, { dst with minX := src.minX, maxX := src.maxX, minY := src.minY, maxY := src.maxY })

/-- `LimitEllipse_set_half_axes_squ` (be_limit_ellipse.h:299-319). -/
def LimitEllipse.setHalfAxesSqu (l : LimitEllipse K) (a2 b2 : K) : Int × LimitEllipse K :=
  if a2 ≥ 0 ∧ b2 ≥ 0 then (0, ⟨a2, b2, a2 * b2⟩) else (-1, l)

/-- `LimitEllipse_set_half_axes` (be_limit_ellipse.h:290-297). -/
def LimitEllipse.setHalfAxes (l : LimitEllipse K) (a b : K) : Int × LimitEllipse K :=
  l.setHalfAxesSqu (a * a) (b * b)

/-- `LimitEllipse_copy` (be_limit_ellipse.h:323-345). -/
def LimitEllipse.copy (dst src : LimitEllipse K) : Int × LimitEllipse K :=
  dst.setHalfAxesSqu src.aSqu src.bSqu

/-- `LimitRectEllipse_set_a` and the others (be_limit_rect_ellipse.h:370-430). -/
def LimitRectEllipse.setMaxX (l : LimitRectEllipse K) (v : K) : LimitRectEllipse K := { l with maxX := v }
def LimitRectEllipse.setMaxY (l : LimitRectEllipse K) (v : K) : LimitRectEllipse K := { l with maxY := v }
def LimitRectEllipse.setASqu (l : LimitRectEllipse K) (v : K) : LimitRectEllipse K := { l with aSqu := v }
def LimitRectEllipse.setBSqu (l : LimitRectEllipse K) (v : K) : LimitRectEllipse K := { l with bSqu := v }
def LimitRectEllipse.setABSqu (l : LimitRectEllipse K) (v : K) : LimitRectEllipse K := { l with abSqu := v }
def LimitRectEllipse.setA (l : LimitRectEllipse K) (v : K) : LimitRectEllipse K := { l with aSqu := v * v }
def LimitRectEllipse.setB (l : LimitRectEllipse K) (v : K) : LimitRectEllipse K := { l with bSqu := v * v }

/-- `LimitRectEllipse_clear` (be_limit_rect_ellipse.h:247-268). -/
def LimitRectEllipse.cleared (xl yl : K) : LimitRectEllipse K :=
  ⟨xl, yl, xl * xl, yl * yl, (xl * xl) * (yl * yl)⟩

/-- The object stored by `LimitRectEllipse_add` (be_limit_rect_ellipse.c:131-164), if it is stored. -/
def LimitRectEllipse.added (maxX maxY a2 b2 : K) : Option (LimitRectEllipse K) :=
  if maxX ≥ 0 ∧ maxY ≥ 0 ∧ a2 ≥ 0 ∧ b2 ≥ 0 then some ⟨maxX, maxY, a2, b2, a2 * b2⟩ else none

/-- `LimitRectEllipse_copy` (be_limit_rect_ellipse.h:477-505): `a_squ_b_squ` is left alone. -/
def LimitRectEllipse.copy (dst src : LimitRectEllipse K) : Int × LimitRectEllipse K :=
  (0, (((dst.setMaxX src.maxX).setMaxY src.maxY).setASqu src.aSqu).setBSqu src.bSqu)

end Limits

/-! ### Elements that only hold numbers -/

section Simple
variable [Zero K] [One K]

/-- `NS(DipoleEdge)`; `DipoleEdge_clear` (be_dipedge.h:203-211) sets `r21 = 0` and `r43 = 1`. -/
structure DipEdgeObj (K : Type) where
  r21 : K
  r43 : K
def DipEdgeObj.cleared : DipEdgeObj K := ⟨0, 1⟩
/-- `DipoleEdge_copy` (be_dipedge.h:281-301). -/
def DipEdgeObj.copy (dst src : DipEdgeObj K) : DipEdgeObj K := { dst with r21 := src.r21, r43 := src.r43 }

/-- `NS(XYShift)`; `XYShift_clear` (be_xyshift.h:191-197), `XYShift_copy` (262-269). -/
structure XYShiftObj (K : Type) where
  dx : K
  dy : K
def XYShiftObj.cleared : XYShiftObj K := ⟨0, 0⟩
def XYShiftObj.copy (dst src : XYShiftObj K) : XYShiftObj K := { dst with dx := src.dx, dy := src.dy }

/-- `NS(SRotation)`; `SRotation_clear` (be_srotation.h:244-251), `SRotation_copy` (338-361). -/
structure SRotationObj (K : Type) where
  cosZ : K
  sinZ : K
def SRotationObj.cleared : SRotationObj K := ⟨1, 0⟩
def SRotationObj.copy (dst src : SRotationObj K) : SRotationObj K :=
  { dst with cosZ := src.cosZ, sinZ := src.sinZ }
/-- `SRotation_set_angle` (be_srotation.h:294-302). -/
def SRotationObj.setAngle [RealOps K] (angle : K) : SRotationObj K :=
  ⟨RealOps.cos angle, RealOps.sin angle⟩
/-- `SRotation_set_angle_deg` (be_srotation.h:304-310). -/
def SRotationObj.setAngleDeg [RealOps K] [Mul K] [Div K] [NatCast K] (deg : K) : SRotationObj K :=
  SRotationObj.setAngle (deg2rad * deg)

/-- `Cavity_clear` (be_cavity.h:218-227), `Cavity_copy` (277-303). -/
def Cavity.cleared : Cavity K := ⟨0, 0, 0⟩
def Cavity.copy (dst src : Cavity K) : Cavity K :=
  { dst with voltage := src.voltage, frequency := src.frequency, lag := src.lag }

end Simple

end Elem
end SixTrack
