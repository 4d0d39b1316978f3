import Verif.Basic

/-!
# Elements of a type by their index

Model of the functions `..._const_from_obj_index` and `..._const_from_buffer` of the beam elements and of the other types of objects,
with `NS(Buffer_get_const_object)` (`/repo/sixtracklib/common/buffer/buffer_generic.h:1234-1256`) and
`NS(ManagedBuffer_get_const_object)` (`/repo/sixtracklib/common/buffer/managed_buffer_minimal.h:769-782`), which make the same test.

The memory is given as words of 8 bytes from the first entry of the object index to the end of the buffer.  `sizeof` of the types is a
parameter.  Addresses are numbers, 0 is the null pointer.
-/

namespace SixTrack.ElementAt

/-- the types that have such a function -/
inductive Kind
  | drift | driftExact | multipole | rfMultipole | cavity | xyShift | sRotation | beamBeam4D | beamBeam6D | monitor | limitRect
  | limitEllipse | limitRectEllipse | scCoasting | scQGauss | scInterpolated | lineDensity | tricubData | tricub | dipedge
  | elemByElem | assignItem
  deriving DecidableEq, Repr

/-- `NS(object_type_values_e)`, objects_type_id.h:16-47 -/
def Kind.id : Kind → Nat
  | .drift => 2
  | .driftExact => 3
  | .multipole => 4
  | .rfMultipole => 256
  | .cavity => 5
  | .xyShift => 6
  | .sRotation => 7
  | .beamBeam4D => 8
  | .beamBeam6D => 9
  | .monitor => 10
  | .limitRect => 11
  | .limitEllipse => 12
  | .limitRectEllipse => 16
  | .scCoasting => 13
  | .scQGauss => 14
  | .scInterpolated => 257
  | .lineDensity => 258
  | .tricubData => 260
  | .tricub => 261
  | .dipedge => 24
  | .elemByElem => 65534
  | .assignItem => 65536

/-- `NS(Object)`, buffer_object.h:24-30 -/
structure Entry where
  addr : Nat
  type : Nat
  size : Nat
  deriving DecidableEq, Repr

/-- the words of an entry -/
def Entry.words (e : Entry) : List Nat := [e.addr, e.type, e.size]

/-- three words, read as an entry; behind the buffer that is undefined -/
def readEntry (mem : List Nat) (i : Nat) : Res Entry :=
  match mem.drop (3 * i) with
  | a :: t :: s :: _ => .ok ⟨a, t, s⟩
  | _ => .ub

/-- `NS(Drift_const_from_obj_index)`, be_drift.h:381-396, and its likes.  Those without a test for the null pointer
(be_beamfields.h:1735-1744 and others) read type 0 from it (buffer_object.h:178-183), which none of the types has.  Three also test
that the address is not 0, which changes nothing, as 0 is the null pointer. -/
def fromEntry (sizeof : Kind → Nat) (k : Kind) (e : Entry) : Nat :=
  if e.type = k.id ∧ sizeof k ≤ e.size then e.addr else 0

/-- `NS(Drift_const_from_buffer)`, be_drift.h:428-434, and its likes: element `i` of a buffer with `n` objects, or 0 -/
def element (sizeof : Kind → Nat) (k : Kind) (mem : List Nat) (n i : Nat) : Res Nat :=
  if i ≤ n then do
    let e ← readEntry mem i
    pure (fromEntry sizeof k e)
  else .ok 0

/-- the memory of a buffer without reserves: the index, the section of the data pointers (its size, their number and themselves)
and what follows -/
def fullBuffer (objs : List Entry) (ptrs rest : List Nat) : List Nat :=
  objs.flatMap Entry.words ++ (16 + 8 * ptrs.length) :: ptrs.length :: ptrs ++ rest

end SixTrack.ElementAt
