import Verif.Buffer.Generic

/-!
# Lines of beam elements

Model of `/repo/sixtracklib/common/beam_elements.h`: the functions which go over a range of
objects (a line) and, for each object, do something that depends on its type.

Copying to a buffer and the prediction of the required capacity are modelled on the byte
memory: the record of an object is read, then the handle, then `NS(Buffer_add_object)` is
called as in the `_add_copy` function of the type.  For new elements and for copies between
existing objects only the dispatch is modelled; what the functions of the types do is an
argument.  Allocation is by a function of the memory, as a line needs many allocations.
-/

namespace SixTrack.BeamLine

open Buf

/-- The structures which occur in the functions below. -/
inductive Ty
  | drift | driftExact | multipole | cavity | xyShift | sRotation | beamBeam4D | beamBeam6D
  | beamMonitor | limitRect | limitEllipse | scCoasting | scQGauss | limitRectEllipse | dipoleEdge
  | rfMultipole | scInterpolated | lineDensity | triCubData | triCub
  deriving DecidableEq, Repr

/-- `NS(object_type_id_t)` (internal/objects_type_id.h:14-63): the number in the record. -/
def Ty.id : Ty → Nat
  | .drift => 2
  | .driftExact => 3
  | .multipole => 4
  | .cavity => 5
  | .xyShift => 6
  | .sRotation => 7
  | .beamBeam4D => 8
  | .beamBeam6D => 9
  | .beamMonitor => 10
  | .limitRect => 11
  | .limitEllipse => 12
  | .scCoasting => 13
  | .scQGauss => 14
  | .limitRectEllipse => 16
  | .dipoleEdge => 24
  | .rfMultipole => 256
  | .scInterpolated => 257
  | .lineDensity => 258
  | .triCubData => 260
  | .triCub => 261

/-- The `switch` on the type. -/
def Ty.ofId : Nat → Option Ty
  | 2 => some .drift
  | 3 => some .driftExact
  | 4 => some .multipole
  | 5 => some .cavity
  | 6 => some .xyShift
  | 7 => some .sRotation
  | 8 => some .beamBeam4D
  | 9 => some .beamBeam6D
  | 10 => some .beamMonitor
  | 11 => some .limitRect
  | 12 => some .limitEllipse
  | 13 => some .scCoasting
  | 14 => some .scQGauss
  | 16 => some .limitRectEllipse
  | 24 => some .dipoleEdge
  | 256 => some .rfMultipole
  | 257 => some .scInterpolated
  | 258 => some .lineDensity
  | 260 => some .triCubData
  | 261 => some .triCub
  | _ => none

/-- The functions `_type_id` of the types, which give the type of a new record
(`NS(BeamBeam6D_type_id)`, be_beamfields/be_beamfields.h:1851-1855, returns the type of
`NS(BeamBeam4D)`; the others return their own). -/
def Ty.newId : Ty → Nat
  | .beamBeam6D => 8
  | t => t.id

/-- `sizeof` of the structures (be_drift/be_drift.h, be_multipole/be_multipole.h:27-35,
be_rfmultipole/be_rfmultipole.h:29-38, be_xyshift, be_srotation, be_cavity, be_monitor, be_limit,
be_dipedge, be_tricub/be_tricub.h, be_beamfields/be_beamfields.h). -/
def Ty.size : Ty → Nat
  | .drift => 8
  | .driftExact => 8
  | .multipole => 40
  | .cavity => 24
  | .xyShift => 16
  | .sRotation => 16
  | .beamBeam4D => 16
  | .beamBeam6D => 16
  | .beamMonitor => 64
  | .limitRect => 32
  | .limitEllipse => 24
  | .scCoasting => 72
  | .scQGauss => 88
  | .limitRectEllipse => 40
  | .dipoleEdge => 16
  | .rfMultipole => 48
  | .scInterpolated => 80
  | .lineDensity => 56
  | .triCubData => 104
  | .triCub => 64

/-! ## Is it a beam element? -/

/-- `NS(BeamElements_is_beam_element_obj)` (beam_elements.h:134-195), for the type of a record. -/
def isBeamElement (id : Nat) : Bool :=
  match Ty.ofId id with
  | none | some .lineDensity | some .triCubData => false
  | some _ => true

/-- `NS(BeamElements_objects_range_are_all_beam_elements)` (beam_elements.h:197-220). -/
def allBeamElements : List Nat → Bool
  | [] => true
  | id :: ids => if isBeamElement id then allBeamElements ids else false

/-! ## Copies in a buffer -/

/-- `2 * order + 2` with a signed 64-bit order, converted to `uint64_t`. -/
def evenLength (w : Nat) : Res Nat :=
  if w < 2 ^ 62 - 1 then .ok (2 * w + 2)
  else if W - 2 ^ 62 ≤ w then .ok ((2 * w + 2) % W)
  else .ub

/-- `NS(Multipole_bal_length)` (be_multipole/be_multipole.h:397-404). -/
def balLength (w : Nat) : Res Nat := if w < 2 ^ 63 then evenLength w else .ok 0

/-- The attributes which the functions `_attributes_offsets`, `_sizes` and `_counts` give for
the handle at `p`, in the way the `_add_copy` functions ask for them; nothing if one of
them fails (be_multipole/be_multipole.c:5-82 and 263-313, be_rfmultipole/be_rfmultipole.c:12-81
and 239-281, be_beamfields/be_beamfields.c:36-122, 277-319 and 335-420, 578-620).
`NS(TriCubData_add_copy)` (be_tricub/be_tricub.c:284-331) always fails: its `status` is set to a
failure and tested before anything is done. -/
def attrsOf (m : Mem) (p : Nat) : Ty → Res (Option (List AttrSpec))
  | .multipole => do
    let w ← m.load64 p
    let n ← balLength w
    return some [⟨32, 8, n⟩]
  | .rfMultipole => do
    let w ← m.load64 p
    if w < 2 ^ 63 then do
      let n ← evenLength w
      return some [⟨32, 8, n⟩, ⟨40, 8, n⟩]
    else return none
  | .beamBeam4D => do
    let n ← m.load64 p
    return some [⟨8, 8, n⟩]
  | .beamBeam6D => do
    let n ← m.load64 p
    return some [⟨8, 8, n⟩]
  | .triCubData => .ok none
  | _ => .ok (some [])

/-- `NS(Object_get_begin_addr)` (buffer/buffer_object.h:134-153). -/
def beginAddr (m : Mem) (r : Nat) : Res Nat := if r = 0 then .ok 0 else m.load64 r

/-- The `_add_copy` function of the type: the address of the new handle, or 0
(be_drift/be_drift.c:139-156 and 291-308, be_cavity/be_cavity.c:141-158,
be_xyshift/be_xyshift.c:138-155, be_srotation/be_srotation.c:137-154,
be_monitor/be_monitor.c:274-291, be_limit/be_limit_rect.c:155-172,
be_limit/be_limit_ellipse.c:158-175, be_limit/be_limit_rect_ellipse.c:166-183,
be_dipedge/be_dipedge.c:145-162, be_beamfields/be_beamfields.c:804-825 and 1024-1046,
be_tricub/be_tricub.c:467-482, and those named at `attrsOf`). -/
def addCopy (malloc : Nat → Nat) (s : St) (p : Nat) (t : Ty) : Res (St × Nat) :=
  if p = 0 then .ok (s, 0)
  else do
    match ← attrsOf s.mem p t with
    | none => return (s, 0)
    | some as => do
      let (s', r) ← addObject malloc s p t.size t.newId as
      let q ← beginAddr s'.mem r
      return (s', q)

/-- What `NS(BeamElements_copy_single_to_buffer)` makes of the address of the copy
(beam_elements.h:1247-1481): for some types the result of the comparison is converted to
`int` instead of to 0 and -1; two types are missing. -/
def copyStatus (q : Nat) : Ty → Int
  | .beamBeam4D | .beamBeam6D | .scCoasting | .scQGauss => if q ≠ 0 then 1 else 0
  | .scInterpolated | .lineDensity => -1
  | _ => if q ≠ 0 then 0 else -1

/-- `NS(BeamElements_copy_single_to_buffer)` (beam_elements.h:1230-1486) for the record at
`rec`. -/
def copySingle (malloc : Nat → Nat) (s : St) (rec : Nat) : Res (St × Int) :=
  if rec = 0 then .ok (s, -1)
  else do
    let id ← s.mem.load64 (rec + 8)
    let p ← s.mem.load64 rec
    match Ty.ofId id with
    | none => return (s, -1)
    | some .scInterpolated => return (s, -1)
    | some .lineDensity => return (s, -1)
    | some t => do
      let (s', q) ← addCopy malloc s p t
      return (s', copyStatus q t)

/-- The loop of `NS(BeamElements_copy_to_buffer)` over `n` records (beam_elements.h:1525-1534). -/
def copyLoop (malloc : Mem → Nat → Nat) (s : St) (rec : Nat) : Nat → Res (St × Int)
  | 0 => .ok (s, 0)
  | n + 1 => do
    let (s', ret) ← copySingle (malloc s.mem) s rec
    if ret ≠ 0 then return (s', ret)
    else copyLoop malloc s' (rec + 24) n

/-- `NS(BeamElements_copy_to_buffer)` (beam_elements.h:1514-1538) for `n` records. -/
def copyToBuffer (malloc : Mem → Nat → Nat) (s : St) (rec n : Nat) : Res (St × Int) :=
  if rec = 0 ∨ n = 0 then .ok (s, -1)
  else copyLoop malloc s rec n

/-! ## New elements in a buffer -/

/-- What `NS(BeamElements_add_single_new_to_buffer)` (beam_elements.h:1033-1228) makes of the
address of the new element. -/
def newStatus (q : Nat) : Ty → Int
  | .beamBeam4D | .beamBeam6D | .scCoasting | .scQGauss | .scInterpolated | .beamMonitor | .limitRect
  | .limitEllipse | .limitRectEllipse | .dipoleEdge => if q ≠ 0 then 1 else 0
  | .lineDensity => -1
  | _ => if q ≠ 0 then 0 else -1

/-- `NS(BeamElements_add_single_new_to_buffer)` for an object of the given type; `mk` is what
the `_new` functions of the types do. -/
def newSingle {S : Type} (mk : S → Ty → Res (S × Nat)) (s : S) (id : Nat) : Res (S × Int) :=
  match Ty.ofId id with
  | none => .ok (s, -1)
  | some .lineDensity => .ok (s, -1)
  | some t => do
    let (s', q) ← mk s t
    return (s', newStatus q t)

/-- The loop of `NS(BeamElements_add_new_to_buffer)` (beam_elements.h:1499-1508). -/
def newLoop {S : Type} (mk : S → Ty → Res (S × Nat)) (s : S) : List Nat → Res (S × Int)
  | [] => .ok (s, 0)
  | id :: ids => do
    let (s', ret) ← newSingle mk s id
    if ret ≠ 0 then return (s', ret)
    else newLoop mk s' ids

/-- `NS(BeamElements_add_new_to_buffer)` (beam_elements.h:1488-1512) for objects of the given
types. -/
def newToBuffer {S : Type} (mk : S → Ty → Res (S × Nat)) (s : S) (ids : List Nat) : Res (S × Int) :=
  if ids = [] then .ok (s, -1) else newLoop mk s ids

/-! ## Copies between existing objects -/

/-- The record of an object (buffer/buffer_object.h:24-30). -/
structure Rec where
  addr : Nat
  id : Nat
  size : Nat
  deriving DecidableEq, Repr

/-- The return value of `NS(BeamElements_copy_object)` for the status of the `_copy` function
of the type (beam_elements.h:540-778). -/
def copyObjectStatus (st : Int) : Ty → Int
  | .beamBeam4D | .beamBeam6D => if st = 0 then 1 else 0
  | _ => st

/-- `NS(BeamElements_copy_object)` (beam_elements.h:516-786); `cp` is what the `_copy` functions
of the types do to the memory. -/
def copyObject {M : Type} (cp : M → Ty → Nat → Nat → M × Int) (m : M) (dst src : Rec) : M × Int :=
  if src.id = dst.id ∧ src.addr ≠ 0 ∧ src.addr ≠ dst.addr ∧ dst.addr ≠ 0 ∧ src.size ≤ dst.size then
    match Ty.ofId src.id with
    | none => (m, -1)
    | some .scInterpolated => (m, -1)
    | some .lineDensity => (m, -1)
    | some t => ((cp m t dst.addr src.addr).1, copyObjectStatus (cp m t dst.addr src.addr).2 t)
  else (m, -1)

/-- `NS(BeamElements_copy_line)` (beam_elements.h:1000-1027); pairs of destination and source. -/
def copyLine {M : Type} (cp : M → Ty → Nat → Nat → M × Int) (m : M) : List (Rec × Rec) → M × Int
  | [] => (m, 0)
  | (dst, src) :: l =>
    if (copyObject cp m dst src).2 ≠ 0 then copyObject cp m dst src
    else copyLine cp (copyObject cp m dst src).1 l

/-! ## Required capacity -/

/-- The number of slots for `bytes` bytes, as it is computed in the functions `_num_slots`. -/
def ceilSlots (bytes slot : Nat) : Nat :=
  if bytes / slot * slot < bytes then bytes / slot + 1 else bytes / slot

/-- The functions `_num_slots` for the handle at `p` (be_drift/be_drift.h:332-345 and 471-484,
be_multipole/be_multipole.h:318-341, be_rfmultipole/be_rfmultipole.h:408-435,
be_xyshift/be_xyshift.h:208-221, be_srotation/be_srotation.h:215-232, be_cavity/be_cavity.h:197-210,
be_monitor/be_monitor.h:511-525, be_limit/be_limit_rect.h:247-264, be_limit/be_limit_ellipse.h:231-244,
be_limit/be_limit_rect_ellipse.h:279-293, be_dipedge/be_dipedge.h:222-236,
be_tricub/be_tricub.h:570-590 and 1120-1137, be_beamfields/be_beamfields.h:1617-1646, 1864-1893,
2434-2453, 2762-2778, 3771-3790).  The functions of `NS(SCCoasting)` and
`NS(SCInterpolatedProfile)` test the number of slots, which is 0, instead of the slot size.
`NS(TriCubData_num_slots)` is called with a null pointer (beam_elements.h:479-480). -/
def numSlots (m : Mem) (p slot : Nat) : Ty → Res Nat
  | .multipole =>
    if p = 0 then .ok 0
    else do
      let w ← m.load64 p
      let n ← balLength w
      return ceilSlots (roundUp 40 slot + roundUp (n * 8 % W) slot) slot
  | .rfMultipole =>
    if p = 0 then .ok 0
    else do
      let w ← m.load64 p
      let n ← evenLength w
      return ceilSlots (roundUp 48 slot + roundUp (8 * n % W) slot + roundUp (8 * n % W) slot) slot
  | .beamBeam4D | .beamBeam6D =>
    if p = 0 then .ok 0
    else do
      let n ← m.load64 p
      return ceilSlots (roundUp 16 slot + n * 8 % W) slot
  | .limitRect => if p = 0 then .ok 0 else .ok (ceilSlots (roundUp 32 slot) slot)
  | .scCoasting | .scInterpolated | .triCubData => .ok 0
  | t => .ok (ceilSlots (roundUp t.size slot) slot)

/-- The functions `_num_dataptrs`. -/
def numDataptrs : Ty → Nat
  | .multipole | .beamBeam4D | .beamBeam6D | .triCubData => 1
  | .rfMultipole | .lineDensity => 2
  | _ => 0

/-- `NS(BeamElements_calc_buffer_parameters_for_object)` (beam_elements.h:222-514): the numbers
are added up (`n`), and not changed if the result is -1. -/
def calcObject (m : Mem) (slot : Nat) (n : Caps) (rec : Nat) : Res (Caps × Int) :=
  if rec ≠ 0 ∧ 0 < slot then do
    let p ← m.load64 rec
    let id ← m.load64 (rec + 8)
    match Ty.ofId id with
    | none => return (n, -1)
    | some .lineDensity => return (n, -1)
    | some t => do
      let k ← numSlots m p slot t
      return (⟨n.objs + 1, n.slots + k, n.dataptrs + numDataptrs t, n.garbage⟩, 0)
  else .ok (n, -1)

/-- The loop of `NS(BeamElements_calc_buffer_parameters_for_line)` over `k` records
(beam_elements.h:982-994). -/
def calcLoop (m : Mem) (slot : Nat) (n : Caps) (rec : Nat) : Nat → Res (Caps × Int)
  | 0 => .ok (n, 0)
  | k + 1 => do
    let (n', ret) ← calcObject m slot n rec
    if ret ≠ 0 then return (n', ret)
    else calcLoop m slot n' (rec + 24) k

/-- `NS(BeamElements_calc_buffer_parameters_for_line)` (beam_elements.h:970-998). -/
def calcLine (m : Mem) (slot : Nat) (n : Caps) (rec k : Nat) : Res (Caps × Int) :=
  if rec = 0 then .ok (n, -1) else calcLoop m slot n rec k

end SixTrack.BeamLine
