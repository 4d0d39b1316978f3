import Verif.Buffer.Mem

/-!
# The managed buffer

Model of `/repo/sixtracklib/common/buffer/managed_buffer_minimal.h` (lines
311-942) and `/repo/sixtracklib/common/buffer/managed_buffer.h` (lines 139-1123).

A managed buffer starts at an address `B`.  It begins with a header of eight
64-bit words: `[0]` its own address, `[1]` its length, `[2]` the length of the
header, `[3]`-`[6]` the addresses of the sections for slots, objects, data
pointers and garbage ranges.  A section begins with its maximal size in bytes
(word 0) and its number of entries (word 1); the entries follow.

Every read and write goes through `Mem.load64` etc., so that an access outside
of the allocated memory is `ub`.  Sizes are natural numbers: a run in which a
size computation does not fit into 64 bit is not modelled (`fits` yields `ub`,
although an unsigned wrap-around is defined in C).  A null pointer is address 0.
Asserts are compiled out.
-/

namespace SixTrack.Buf

/-- A size that has to be representable. -/
def fits (n : Nat) : Res Nat := if n < W then .ok n else .ub

/-- `NS(ManagedBuffer_get_slot_based_length)` (managed_buffer_minimal.h:311-323). -/
def roundUp (len slot : Nat) : Nat :=
  let remainder := if 0 < slot then len % slot else 0
  if remainder = 0 then len else len + (slot - remainder)

/-- `NS(ManagedBuffer_get_section_entity_size)` (managed_buffer_minimal.h:327-392):
`sizeof( NS(Object) ) = 24` (buffer_object.h:24-30), `sizeof( NS(BufferGarbage) ) =
16` (buffer_garbage.h:23-28). -/
def entitySize (id slot : Nat) : Nat :=
  if 0 < slot then
    match id with
    | 3 => slot
    | 4 => roundUp 24 slot
    | 5 => roundUp 8 slot
    | 6 => roundUp 16 slot
    | _ => 0
  else 0

/-- `NS(ManagedBuffer_get_section_header_length)` (managed_buffer_minimal.h:396-422). -/
def sectionHeaderLength (slot : Nat) : Nat := if 0 < slot then 2 * roundUp 8 slot else 0

/-- `NS(ManagedBuffer_get_header_length)` (managed_buffer_minimal.h:426-464): the
stored header length, or the default if nothing is stored. -/
def headerLength (m : Mem) (B slot : Nat) : Res Nat :=
  if 0 < slot then do
    let h ← if B ≠ 0 then m.load64 (B + 16) else .ok 0
    return if h = 0 then roundUp 8 slot * 8 else h
  else .ok 0

/-- `NS(ManagedBuffer_get_buffer_length)` (managed_buffer_minimal.h:468-502). -/
def bufferLength (m : Mem) (B slot : Nat) : Res Nat :=
  if B ≠ 0 ∧ 0 < slot then m.load64 (B + 8) else .ok 0

/-- `NS(ManagedBuffer_get_const_ptr_to_section)` (managed_buffer_minimal.h:506-540). -/
def sectionPtr (m : Mem) (B id slot : Nat) : Res Nat :=
  if B ≠ 0 ∧ 0 < slot ∧ 3 ≤ id ∧ id ≤ 6 then m.load64 (B + 8 * id) else .ok 0

/-- `NS(ManagedBuffer_get_const_ptr_to_section_data)` (managed_buffer_minimal.h:544-565). -/
def sectionData (m : Mem) (B id slot : Nat) : Res Nat := do
  let p ← sectionPtr m B id slot
  return if p ≠ 0 then p + sectionHeaderLength slot else p

/-- `NS(ManagedBuffer_get_section_num_entities)` (managed_buffer_minimal.h:733-766). -/
def numEntities (m : Mem) (B id slot : Nat) : Res Nat := do
  let p ← sectionPtr m B id slot
  if p ≠ 0 then m.load64 (p + 8) else .ok 0

/-- `NS(ManagedBuffer_get_section_size)` (managed_buffer_minimal.h:653-691): the
used size, with the section's header. -/
def sectionSize (m : Mem) (B id slot : Nat) : Res Nat := do
  let n ← numEntities m B id slot
  return sectionHeaderLength slot + n * entitySize id slot

/-- `NS(ManagedBuffer_get_const_ptr_to_section_end)` (managed_buffer_minimal.h:569-589). -/
def sectionEnd (m : Mem) (B id slot : Nat) : Res Nat := do
  let p ← sectionPtr m B id slot
  if p ≠ 0 then do
    let n ← sectionSize m B id slot
    return p + n
  else return p

/-- `NS(ManagedBuffer_get_section_max_size)` (managed_buffer_minimal.h:629-649). -/
def maxSize (m : Mem) (B id slot : Nat) : Res Nat := do
  let p ← sectionPtr m B id slot
  if p ≠ 0 then m.load64 p else .ok 0

/-- `NS(ManagedBuffer_get_section_max_num_entities)`
(managed_buffer_minimal.h:695-729); the division by an entity size of 0 (no such
section, or slot size 0) is undefined. -/
def maxNumEntities (m : Mem) (B id slot : Nat) : Res Nat := do
  let s ← maxSize m B id slot
  let e := entitySize id slot
  if e = 0 then .ub
  else return (if sectionHeaderLength slot ≤ s then s - sectionHeaderLength slot else 0) / e

/-- `NS(ManagedBuffer_get_num_objects)` (managed_buffer_minimal.h:854-863). -/
def numObjects (m : Mem) (B slot : Nat) : Res Nat := numEntities m B 4 slot

/-- `NS(ManagedBuffer_get_const_object)` (managed_buffer_minimal.h:770-782): note
the `<=`.  The objects are an array of 24-byte structures. -/
def getConstObject (m : Mem) (B index slot : Nat) : Res Nat := do
  let p ← sectionData m B 4 slot
  let n ← numObjects m B slot
  return if B ≠ 0 ∧ index ≤ n then p + 24 * index else 0

/-- `NS(ManagedBuffer_get_object_begin_addr_by_index_filter_by_type_id)`
(managed_buffer_minimal.h:867-891); `SIXTRL_OBJECT_TYPE_UNDEFINED` is 0. -/
def objectBeginAddrFiltered (m : Mem) (B index typeId slot : Nat) : Res Nat := do
  let p ← sectionData m B 4 slot
  if p ≠ 0 ∧ typeId ≠ 0 then do
    let n ← numObjects m B slot
    if index < n then do
      let t ← m.load64 (p + 24 * index + 8)
      if t = typeId then m.load64 (p + 24 * index) else return 0
    else return 0
  else return 0

/-- `NS(ManagedBuffer_needs_remapping)` (managed_buffer_minimal.h:925-942). -/
def needsRemapping (m : Mem) (B slot : Nat) : Res Bool :=
  if 0 < slot then do
    let a ← m.load64 B
    return a ≠ B && a ≠ 0
  else .ok false

/-! ## managed_buffer.h -/

/-- `NS(ManagedBuffer_calculate_section_size)` (managed_buffer.h:139-171). -/
def calcSectionSize (id num slot : Nat) : Nat :=
  if 0 < slot then num * entitySize id slot + sectionHeaderLength slot else 0

/-- `NS(ManagedBuffer_get_section_offset)` (managed_buffer.h:175-211). -/
def sectionOffset (m : Mem) (B id slot : Nat) : Res Nat :=
  if B ≠ 0 ∧ 0 < slot then do
    let p ← m.load64 (B + 8 * id)
    let b ← m.load64 B
    return if b ≤ p then p - b else 0
  else .ok 0

/-- `NS(ManagedBuffer_set_section_num_entities)` (managed_buffer.h:215-236). -/
def setNumEntities (m : Mem) (B id num slot : Nat) : Res Mem := do
  let p ← sectionPtr m B id slot
  if p ≠ 0 then m.store64 (p + 8) num else .ok m

/-- `NS(ManagedBuffer_set_section_max_size)` (managed_buffer.h:240-260). -/
def setMaxSize (m : Mem) (B id size slot : Nat) : Res Mem := do
  let p ← sectionPtr m B id slot
  if p ≠ 0 then m.store64 p size else .ok m

/-- `NS(ManagedBuffer_predict_required_num_slots)` (managed_buffer.h:264-331); the
attributes are given by their element sizes and counts. -/
def predictSlots (handleSize : Nat) (attrs : List (Nat × Nat)) (slot : Nat) : Nat :=
  if 0 < slot ∧ 0 < handleSize then
    let r := roundUp handleSize slot
    let r := if attrs ≠ [] then
        let r := attrs.foldl (fun r a => r + roundUp (a.1 * a.2) slot) r
        let md := r % slot
        if md ≠ 0 then r + (slot - md) else r
      else r
    r / slot
  else 0

/-- The four capacities given to the functions below. -/
structure Caps where
  objs : Nat
  slots : Nat
  dataptrs : Nat
  garbage : Nat
  deriving DecidableEq, Repr

/-- `NS(ManagedBuffer_calculate_buffer_length)` (managed_buffer.h:335-371). -/
def calcBufferLength (m : Mem) (B : Nat) (c : Caps) (slot : Nat) : Res Nat := do
  let h ← headerLength m B slot
  fits (h + calcSectionSize 3 c.slots slot + calcSectionSize 4 c.objs slot +
    calcSectionSize 5 c.dataptrs slot + calcSectionSize 6 c.garbage slot)

/-- The block of code in `NS(ManagedBuffer_reserve)` that brings one section from
offset `cur` to offset `new` (managed_buffer.h:593-638 for the garbage section,
642-687 for the data pointers, 691-737 for the objects).  `size` is the used size,
`extent` the new maximal size, `bound` the end of the used part of the preceding
section.  The result says whether the section is "finished". -/
def moveSection (m : Mem) (B cur new size extent bound : Nat) : Res (Mem × Bool) :=
  if new = cur then .ok (m, true)
  else if cur < new then do
    let m ← m.memmove (B + new) (B + cur) size
    let m ← m.memzero (B + cur) (if size < new - cur then size else new - cur)
    let m ← if size < extent then m.memzero (B + new + size) (extent - size) else .ok m
    return (m, true)
  else if bound ≤ new then do
    let m ← m.memmove (B + new) (B + cur) size
    return (m, true)
  else .ok (m, false)

/-- The offsets and sizes before and the offsets and extents after a
`NS(ManagedBuffer_reserve)`. -/
structure Plan where
  (curS curO curD curG : Nat)
  (szS szO szD szG : Nat)
  (newS newO newD newG : Nat)
  (extS extO extD extG : Nat)

/-- Moving the sections (managed_buffer.h:580-756): the garbage section first,
then the data pointers, then the objects; each only if the previous ones are
finished. -/
def moveSections (m : Mem) (B : Nat) (p : Plan) : Res (Mem × Bool) := do
  let (m, gf) ← moveSection m B p.curG p.newG p.szG p.extG (p.curD + p.szD)
  let (m, df) ← if gf then moveSection m B p.curD p.newD p.szD p.extD (p.curO + p.szO)
    else .ok (m, p.newD = p.curD)
  let (m, of) ← if gf && df then moveSection m B p.curO p.newO p.szO p.extO (p.curS + p.szS)
    else .ok (m, p.newO = p.curO)
  let fin := decide (p.newS = p.curS) && df && of && gf
  let m ← if fin && decide (p.szS < p.extS) then
      m.memzero (B + p.newS + p.szS) (p.extS - p.szS) else .ok m
  return (m, fin)

/-- Writing the new header and section sizes (managed_buffer.h:760-818). -/
def writeReserved (m : Mem) (B newLen : Nat) (p : Plan) (slot : Nat) : Res Mem := do
  let m ← m.store64 (B + 8) newLen
  let m ← m.store64 (B + 24) (B + p.newS)
  let m ← m.store64 (B + 32) (B + p.newO)
  let m ← m.store64 (B + 40) (B + p.newD)
  let m ← m.store64 (B + 48) (B + p.newG)
  let m ← setMaxSize m B 3 p.extS slot
  let m ← setMaxSize m B 4 p.extO slot
  let m ← setMaxSize m B 5 p.extD slot
  setMaxSize m B 6 p.extG slot

/-- The offsets and sizes `NS(ManagedBuffer_reserve)` works with
(managed_buffer.h:509-576). -/
def reservePlan (m : Mem) (B header : Nat) (c : Caps) (slot : Nat) : Res Plan := do
  let curS ← sectionOffset m B 3 slot
  let szS ← sectionSize m B 3 slot
  let curO ← sectionOffset m B 4 slot
  let szO ← sectionSize m B 4 slot
  let curD ← sectionOffset m B 5 slot
  let szD ← sectionSize m B 5 slot
  let curG ← sectionOffset m B 6 slot
  let szG ← sectionSize m B 6 slot
  let extS := calcSectionSize 3 c.slots slot
  let extO := calcSectionSize 4 c.objs slot
  let extD := calcSectionSize 5 c.dataptrs slot
  let extG := calcSectionSize 6 c.garbage slot
  let newS := header
  let newO := newS + extS
  let newD := newO + extO
  let newG := newD + extD
  return { curS, curO, curD, curG, szS, szO, szD, szG, newS, newO, newD, newG,
           extS, extO, extD, extG }

/-- `NS(ManagedBuffer_reserve)` (managed_buffer.h:417-836).  Returns the status and
the value written to `*ptr_new_buffer_length` (0 if it is not written). -/
def reserve (m : Mem) (B : Nat) (c : Caps) (maxLen slot : Nat) : Res (Mem × Int × Nat) := do
  let curMaxS ← maxNumEntities m B 3 slot
  let numS ← numEntities m B 3 slot
  let curMaxO ← maxNumEntities m B 4 slot
  let numO ← numEntities m B 4 slot
  let curMaxD ← maxNumEntities m B 5 slot
  let numD ← numEntities m B 5 slot
  let curMaxG ← maxNumEntities m B 6 slot
  let numG ← numEntities m B 6 slot
  let curLen ← bufferLength m B slot
  if B ≠ 0 ∧ 0 < slot ∧ 0 < curLen ∧ curLen ≤ maxLen ∧ numO ≤ c.objs ∧ numS ≤ c.slots ∧
      numD ≤ c.dataptrs ∧ numG ≤ c.garbage then
    if c.objs ≠ curMaxO ∨ c.slots ≠ curMaxS ∨ c.dataptrs ≠ curMaxD ∨ c.garbage ≠ curMaxG then do
      let newLen ← calcBufferLength m B c slot
      if newLen ≤ maxLen then do
        let h ← headerLength m B slot
        let p ← reservePlan m B h c slot
        let (m, fin) ← moveSections m B p
        if fin then do
          let m ← writeReserved m B newLen p slot
          return (m, 0, newLen)
        else return (m, -1, newLen)
      else return (m, -1, newLen)
    else do
      let len ← bufferLength m B slot
      return (m, 0, len)
  else return (m, -1, 0)

/-- `NS(ManagedBuffer_init)` (managed_buffer.h:840-964).  Returns the status and
the value written to `*ptr_buffer_length`.  The header length is read from the
memory before it is overwritten. -/
def init (m : Mem) (B : Nat) (c : Caps) (maxLen slot : Nat) : Res (Mem × Int × Nat) :=
  if B ≠ 0 ∧ slot ≠ 0 then do
    let h ← headerLength m B slot
    let extS := calcSectionSize 3 c.slots slot
    let extO := calcSectionSize 4 c.objs slot
    let extD := calcSectionSize 5 c.dataptrs slot
    let extG := calcSectionSize 6 c.garbage slot
    let len ← fits (h + extS + extO + extD + extG)
    if len ≤ maxLen then do
      let m ← m.memzero B len
      let m ← m.store64 B B
      let m ← m.store64 (B + 8) len
      let m ← m.store64 (B + 16) h
      let m ← m.store64 (B + 24) (B + h)
      let m ← m.store64 (B + 32) (B + (h + extS))
      let m ← m.store64 (B + 40) (B + (h + extS + extO))
      let m ← m.store64 (B + 48) (B + (h + extS + extO + extD))
      let m ← setMaxSize m B 3 extS slot
      let m ← setNumEntities m B 3 0 slot
      let m ← setMaxSize m B 4 extO slot
      let m ← setNumEntities m B 4 0 slot
      let m ← setMaxSize m B 5 extD slot
      let m ← setNumEntities m B 5 0 slot
      let m ← setMaxSize m B 6 extG slot
      let m ← setNumEntities m B 6 0 slot
      return (m, 0, len)
    else return (m, -1, len)
  else .ok (m, -1, 0)

/-- Setting `n` consecutive 64-bit words to zero one after the other, from `a` on. -/
def zeroWords (m : Mem) (a : Nat) : Nat → Res Mem
  | 0 => .ok m
  | n + 1 => do
    let m ← m.store64 a 0
    zeroWords m (a + 8) n

/-- Setting the used parts of the sections to zero (managed_buffer.h:1014-1080).
`NS(Object_preset)` sets the three words of an object to zero
(buffer_object.h:118-129), `NS(BufferGarbage_preset)` the two of a garbage range
(buffer_garbage.h:62-71). -/
def zeroData (m : Mem) (B numO numD numS numG slot : Nat) : Res Mem := do
  let pO ← sectionData m B 4 slot
  let m ← zeroWords m pO (3 * numO)
  let pG ← sectionData m B 6 slot
  let m ← zeroWords m pG (2 * numG)
  let pD ← sectionData m B 5 slot
  let m ← zeroWords m pD numD
  let pS ← sectionData m B 3 slot
  zeroWords m pS numS

/-- The `if( set_data_to_zero )` (managed_buffer.h:1014). -/
def clearData (m : Mem) (B : Nat) (setToZero : Bool) (numO numD numS numG slot : Nat) : Res Mem :=
  if setToZero then zeroData m B numO numD numS numG slot else .ok m

/-- `NS(ManagedBuffer_clear)` (managed_buffer.h:968-1099). -/
def clear (m : Mem) (B : Nat) (setToZero : Bool) (slot : Nat) : Res Mem :=
  if B ≠ 0 ∧ 0 < slot ∧ B % slot = 0 then do
    let numO ← numEntities m B 4 slot
    let numD ← numEntities m B 5 slot
    let numS ← numEntities m B 3 slot
    let numG ← numEntities m B 6 slot
    let m ← clearData m B setToZero numO numD numS numG slot
    let m ← setNumEntities m B 3 0 slot
    let m ← setNumEntities m B 4 0 slot
    let m ← setNumEntities m B 5 0 slot
    setNumEntities m B 6 0 slot
  else .ok m

end SixTrack.Buf
