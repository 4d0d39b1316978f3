import Verif.Compare
import Verif.CompareParticles

/-!
# Comparing beam elements

Source: the library that the tests use to decide whether beam elements agree, the directory
`tests/sixtracklib/testlib/common/beam_elements` (file names without a directory refer to it) and
`tests/sixtracklib/testlib/common/compare.h`.

An element is its kind and the list of its attributes in the order in which they are compared.
-/

namespace SixTrack
namespace Cmp

/-- The kinds of elements that have a comparison. -/
inductive Kind where
  | drift | driftExact | multipole | rfMultipole | cavity | xyShift | srotation | beamBeam4d | beamBeam6d
  | monitor | limitRect | limitEllipse | limitRectEllipse | scCoasting | scQGauss | scInterpolated | dipoleEdge
  | tricub
  deriving DecidableEq, Repr

/-- The type ids (`sixtracklib/common/internal/objects_type_id.h`:15-50). -/
def Kind.typeId : Kind → Nat
  | .drift => 2
  | .driftExact => 3
  | .multipole => 4
  | .cavity => 5
  | .xyShift => 6
  | .srotation => 7
  | .beamBeam4d => 8
  | .beamBeam6d => 9
  | .monitor => 10
  | .limitRect => 11
  | .limitEllipse => 12
  | .scCoasting => 13
  | .scQGauss => 14
  | .limitRectEllipse => 16
  | .dipoleEdge => 24
  | .rfMultipole => 256
  | .scInterpolated => 257
  | .tricub => 261

/-- The profile of a line density as far as it is compared (be_beamfields.h:871-926; the capacity is not). -/
structure Prof where
  method : Int
  numValues : Int
  values : List Dbl
  derivatives : List Dbl
  z0 : Dbl
  dz : Dbl
  deriving DecidableEq, Repr

/-- An attribute: a number, an integer (or an address), an array (the cells from its begin to its end), the
data of a beam-beam element (`none`: null), a profile at an address. -/
inductive Attr where
  | real (x : Dbl)
  | int (z : Int)
  | arr (l : List Dbl)
  | data (l : Option (List Dbl))
  | prof (addr : Nat) (p : Option Prof)
  deriving DecidableEq, Repr

/-- An element. -/
structure BElem where
  kind : Kind
  attrs : List Attr
  deriving DecidableEq, Repr

/-- What an attribute is. -/
inductive Tag where
  | real | int | arr | data | prof
  deriving DecidableEq, Repr

/-- What the attribute holds. -/
def Attr.tag : Attr → Tag
  | .real _ => .real
  | .int _ => .int
  | .arr _ => .arr
  | .data _ => .data
  | .prof _ _ => .prof

/-- The attributes in the order in which they are compared: be_drift.h:81-99, 135-153; be_multipole.h:54-103;
be_rfmultipole.h:56-112; be_cavity.h:71-106; be_xy_shift.h:68-97; be_srotation.h:71-100;
be_beamfields.h:336-346, 401-411; be_monitor.h:55-118; be_limit_rect.h:62-103; be_limit_ellipse.h:64-100;
be_limit_rect_ellipse.h:64-112; be_beamfields.h:501-569 (number of particles, circumference, sigma_x, sigma_y,
length, x_co, y_co, min_sigma_diff, enabled), 750-830 (number of particles, bunch length, sigma_x, sigma_y,
length, x_co, y_co, min_sigma_diff, q_param, cq, enabled), 1096-1174 (number of particles, sigma_x, sigma_y,
length, x_co, y_co, profile, fallback, min_sigma_diff, enabled); be_dipedge.h:61-102 (r21, r43);
be_tricub.h:60-123 (three shifts, three kicks, length, address of the data). -/
def Kind.fields : Kind → List Tag
  | .drift => [.real]
  | .driftExact => [.real]
  | .multipole => [.int, .real, .real, .real, .arr]
  | .rfMultipole => [.int, .real, .real, .real, .arr, .arr]
  | .cavity => [.real, .real, .real]
  | .xyShift => [.real, .real]
  | .srotation => [.real, .real]
  | .beamBeam4d => [.data]
  | .beamBeam6d => [.data]
  | .monitor => [.int, .int, .int, .int, .int, .int, .int, .int]
  | .limitRect => [.real, .real, .real, .real]
  | .limitEllipse => [.real, .real, .real]
  | .limitRectEllipse => [.real, .real, .real, .real, .real]
  | .scCoasting => [.real, .real, .real, .real, .real, .real, .real, .real, .int]
  | .scQGauss => [.real, .real, .real, .real, .real, .real, .real, .real, .real, .real, .int]
  | .scInterpolated => [.real, .real, .real, .real, .real, .real, .prof, .real, .real, .int]
  | .dipoleEdge => [.real, .real]
  | .tricub => [.real, .real, .real, .real, .real, .real, .real, .int]

/-! ### Attributes -/

/-- `TestLibCompare_real_attribute_with_treshold` (compare.h:58-85). -/
def testLib (R : Rnd) (t lhs rhs : Dbl) : Int :=
  if (R.sub lhs rhs).eq .zero then 0
  else if Dbl.zero.le t then
    if Dbl.zero.le (R.sub lhs rhs) && t.lt (R.sub lhs rhs) then -1
    else if (R.sub lhs rhs).lt .zero && (R.sub lhs rhs).lt t.neg then 1 else 0
  else -1

/-- The loop of `BeamBeam_compare_values_generic` (be_beamfields.h:243-255). -/
def bbLoop : List Dbl → List Dbl → Int
  | a :: l, b :: r => if b.lt a then 1 else if a.lt b then -1 else bbLoop l r
  | _, _ => 0

/-- The loop of `BeamBeam_compare_values_generic_with_treshold` (be_beamfields.h:300-311). -/
def bbThrLoop (R : Rnd) (t : Dbl) : List Dbl → List Dbl → Int
  | a :: l, b :: r =>
    if t.lt (if Dbl.zero.le (R.sub a b) then R.sub a b else (R.sub a b).neg) then
      (if Dbl.zero.lt (R.sub a b) then 1 else -1)
    else bbThrLoop R t l r
  | _, _ => 0

/-- The sizes and the pointers (be_beamfields.h:229-276, 289-331; the last test of the sizes, 261, 317, is
never true, so that the initial value is returned if the left one is smaller).  The two arrays are not the
same one. -/
def bbCompare (loop : List Dbl → List Dbl → Int) : Option (List Dbl) → Option (List Dbl) → Int
  | some l, some r => if l.length = r.length then loop l r else if r.length < l.length then 1 else -1
  | some _, none => 1
  | none, _ => -1

/-- `LineDensityProfileData_compare_values` (be_beamfields.h:871-926) and `..._with_treshold` (928-992). -/
def profCompare (c : Dbl → Dbl → Int) (a b : Prof) : Res Int :=
  chain id
    [.ok (int64Result a.method b.method), .ok (int64Result a.numValues b.numValues),
      rangeResult c a.values b.values, rangeResult c a.derivatives b.derivatives,
      .ok (c a.z0 b.z0), .ok (c a.dz b.dz)]

/-- The profiles if their addresses differ (be_beamfields.h:1141-1147); a null pointer counts as smaller on
the right and as larger on the left (920-923). -/
def profPtrCompare (c : Dbl → Dbl → Int) : Option Prof → Option Prof → Res Int
  | some a, some b => profCompare c a b
  | none, some _ => .ok 1
  | _, none => .ok (-1)

/-- Two attributes; `c` compares numbers, `loop` the data of beam-beam elements.  (Attributes of different
kinds do not occur.) -/
def attrCompare (c : Dbl → Dbl → Int) (loop : List Dbl → List Dbl → Int) : Attr → Attr → Res Int
  | .real a, .real b => .ok (c a b)
  | .int a, .int b => .ok (int64Result a b)
  | .arr l, .arr r => rangeResult c l r
  | .data l, .data r => .ok (bbCompare loop l r)
  | .prof x p, .prof y q => if x = y then .ok 0 else profPtrCompare c p q
  | _, _ => .ub

/-- One attribute after the other until two differ. -/
def lex (c : Dbl → Dbl → Int) (loop : List Dbl → List Dbl → Int) : List Attr → List Attr → Res Int
  | [], [] => .ok 0
  | a :: l, b :: r => do
    let x ← attrCompare c loop a b
    if x = 0 then lex c loop l r else return x
  | _, _ => .ub

/-! ### Elements -/

/-- The attributes the exact comparison looks at: all but `min_sigma_diff` of an `SCQGaussProfile`
(be_beamfields.h:675-748). -/
def BElem.exactAttrs (e : BElem) : List Attr :=
  match e.kind with
  | .scQGauss => e.attrs.eraseIdx 7
  | _ => e.attrs

/-- How the exact comparison compares numbers (be_dipedge.h:61-67 and be_tricub.h:70-115 use the functions of
compare.h). -/
def Kind.exactCmp (R : Rnd) : Kind → Dbl → Dbl → Int
  | .dipoleEdge => testLib R .zero
  | .tricub => testLib R .zero
  | _ => valueResult

/-- The function `..._compare_values` of the kind, for two elements of that kind at different addresses. -/
def elemCompare (R : Rnd) (lhs rhs : BElem) : Res Int :=
  lex (lhs.kind.exactCmp R) bbLoop lhs.exactAttrs rhs.exactAttrs

/-- How the comparison with a threshold compares numbers. -/
def Kind.thrCmp (R : Rnd) (t : Dbl) : Kind → Dbl → Dbl → Int
  | .dipoleEdge => testLib R t
  | .tricub => testLib R t
  | _ => valueResultTol R .zero t

/-- The kinds whose comparison requires a threshold that is not negative (be_cavity.h:117-118,
be_xy_shift.h:108-109, be_srotation.h:111-112). -/
def Kind.testsThr : Kind → Bool
  | .cavity => true
  | .xyShift => true
  | .srotation => true
  | _ => false

/-- The function `..._compare_values_with_treshold` of the kind, for two elements of that kind at different
addresses (a monitor has none, its integers are compared as they are). -/
def elemCompareThr (R : Rnd) (t : Dbl) (lhs rhs : BElem) : Res Int :=
  if lhs.kind.testsThr = true ∧ Dbl.zero.le t = false then .ok 1
  else lex (lhs.kind.thrCmp R t) (bbThrLoop R t) lhs.attrs rhs.attrs

/-! ### Objects and lines -/

/-- An object of a buffer: the address it refers to (zero: none) and the element there. -/
structure BObj where
  addr : Nat
  elem : BElem
  deriving DecidableEq, Repr

/-- Is there a case for the kind in `BeamElements_compare_objects` (beam_elements.h:292-493)? -/
def Kind.listed : Kind → Bool
  | .limitRectEllipse => false
  | _ => true

/-- Is there a case for the kind in `BeamElements_compare_objects_with_treshold` (beam_elements.h:543-748)? -/
def Kind.listedThr : Kind → Bool
  | .limitRectEllipse => false
  | .scInterpolated => false
  | _ => true

/-- The type ids and the addresses (beam_elements.h:273-290, 494-510; 524-541, 749-765). -/
def objects (body : BElem → BElem → Res Int) (lhs rhs : BObj) : Res Int :=
  if lhs.elem.kind.typeId = rhs.elem.kind.typeId then
    if lhs.addr ≠ 0 ∧ rhs.addr ≠ 0 ∧ lhs.addr ≠ rhs.addr then body lhs.elem rhs.elem
    else if lhs.addr ≠ 0 then .ok (if rhs.addr ≠ lhs.addr then 1 else 0)
    else .ok (-1)
  else if rhs.elem.kind.typeId < lhs.elem.kind.typeId then .ok 1 else .ok (-1)

/-- `BeamElements_compare_objects` (beam_elements.h:269-514). -/
def compareObjects (R : Rnd) : BObj → BObj → Res Int :=
  objects fun l r => if l.kind.listed = true then elemCompare R l r else .ok (-1)

/-- The calls in `BeamElements_compare_objects_with_treshold` (beam_elements.h:543-748): the operands of an
exact drift are exchanged (562-564), space charge elements are compared exactly (648-670). -/
def elemThr (R : Rnd) (t : Dbl) (l r : BElem) : Res Int :=
  match l.kind with
  | .driftExact => elemCompareThr R t r l
  | .scCoasting => elemCompare R l r
  | .scQGauss => elemCompare R l r
  | _ => elemCompareThr R t l r

/-- `BeamElements_compare_objects_with_treshold` (beam_elements.h:516-767). -/
def compareObjectsThr (R : Rnd) (t : Dbl) : BObj → BObj → Res Int :=
  objects fun l r => if l.kind.listedThr = true then elemThr R t l r else .ok (-1)

/-- The loop over the objects of two lines (beam_elements.h:781-789, 808-817): `c` is the value so far, the
right line is given by its begin only. -/
def lineLoop (cmp : BObj → BObj → Res Int) : List BObj → List BObj → Int → Res Int
  | [], _, c => .ok c
  | _ :: _, [], _ => .ub
  | a :: l, b :: r, _ => do
    let x ← cmp a b
    if x = 0 then lineLoop cmp l r x else return x

/-- `BeamElements_compare_lines` and `..._with_treshold` (beam_elements.h:770-794, 796-822; the assertion
that the left line is not empty is not there in a release build). -/
def compareLines (cmp : BObj → BObj → Res Int) (lhs rhs : List BObj) : Res Int := lineLoop cmp lhs rhs (-1)

end Cmp
end SixTrack
