import Verif.Buffer.Remap
import Verif.MemPool

/-!
# Buffers

Model of `NS(Buffer)` (`/repo/sixtracklib/common/buffer/buffer_type.h`), of
`/repo/sixtracklib/common/buffer/buffer_generic.h`, `/repo/sixtracklib/common/buffer.h`
and the constructors in `/repo/sixtracklib/common/buffer/buffer.c`.

The structures `NS(Buffer)` and `NS(MemPool)` themselves are kept apart from the
byte-addressed memory: the code never makes a data buffer overlap them.
`datastore_addr` is only tested against null.  The default constructor functions
dispatch to the `generic` ones; the OpenCL and CUDA branches are commented out in
the code.
-/

namespace SixTrack.Buf

open MemPool (Pool Alloc)

/-- `NS(Buffer)` (buffer_type.h:195-210). -/
structure Buffer where
  dataAddr : Nat
  dataSize : Nat
  headerSize : Nat
  capacity : Nat
  slot : Nat
  objectAddr : Nat
  numObjects : Nat
  flags : Nat
  datastore : Nat
  deriving DecidableEq, Repr

/-- Memory, buffer and the memory pool behind the buffer. -/
structure St where
  mem : Mem
  buf : Buffer
  pool : Pool

/-- `NS(Buffer_preset)` (buffer.h:509-529). -/
def presetBuffer : Buffer := ⟨0, 0, 64, 0, 8, 0, 0, 0, 0⟩

/-! ## Flags (buffer_type.h:43-77, buffer.h:542-648) -/

namespace Buffer

/-- `NS(Buffer_check_for_flags)` (buffer.h:542-548). -/
def has (b : Buffer) (f : Nat) : Bool := b.flags &&& f = f

/-- `NS(Buffer_has_datastore)` (buffer.h:579-584). -/
def hasDatastore (b : Buffer) : Bool := b.datastore ≠ 0
/-- `NS(Buffer_uses_datastore)` (buffer.h:569-575). -/
def usesDatastore (b : Buffer) : Bool := b.hasDatastore && b.has 0x1
/-- `NS(Buffer_owns_datastore)` (buffer.h:561-565). -/
def ownsDatastore (b : Buffer) : Bool := b.has 0x2
/-- `NS(Buffer_allow_clear)` (buffer.h:598-603). -/
def allowClear (b : Buffer) : Bool := b.has 0x9
/-- `NS(Buffer_allow_append_objects)` (buffer.h:607-612). -/
def allowAppend (b : Buffer) : Bool := b.has 0x5
/-- `NS(Buffer_allow_delete_objects)` (buffer.h:616-621). -/
def allowDelete (b : Buffer) : Bool := b.has 0x11
/-- `NS(Buffer_allow_remapping)` (buffer.h:625-630). -/
def allowRemapping (b : Buffer) : Bool := b.has 0x20
/-- `NS(Buffer_allow_resize)` (buffer.h:634-640). -/
def allowResize (b : Buffer) : Bool := b.has 0x43
/-- `NS(Buffer_uses_mempool_datastore)` (buffer.h:642-648). -/
def usesMempool (b : Buffer) : Bool := b.has 0x10001
/-- `NS(Buffer_allow_modify_datastore_contents)` (buffer.h:588-594). -/
def allowModify (b : Buffer) : Bool := b.allowClear && (b.allowAppend || b.allowDelete)

end Buffer

/-! ## Clearing, resetting, remapping -/

/-- `NS(Buffer_clear_generic)` (buffer_generic.h:214-238). -/
def bufClear (s : St) (setToZero : Bool) : Res (St × Int) :=
  if s.buf.hasDatastore && s.buf.allowClear then do
    let m ← clear s.mem s.buf.dataAddr setToZero s.buf.slot
    return ({ s with mem := m, buf := { s.buf with numObjects := 0 } }, 0)
  else .ok (s, -1)

/-- `NS(Buffer_reset_detailed_generic)` (buffer_generic.h:250-304). -/
def bufReset (s : St) (c : Caps) : Res (St × Int) :=
  if s.buf.usesDatastore && s.buf.allowModify && s.buf.allowClear then do
    let (m, rc, len) ← init s.mem s.buf.dataAddr c s.buf.capacity s.buf.slot
    if rc = 0 then do
      let o ← sectionData m s.buf.dataAddr 4 s.buf.slot
      return ({ s with
        mem := m
        buf := { s.buf with dataSize := len, numObjects := 0, objectAddr := o } }, 0)
    else return ({ s with mem := m }, rc)
  else .ok (s, -1)

/-- `NS(Buffer_needs_remapping)` (buffer.h:1144-1182, buffer_generic.h:308-317). -/
def bufNeedsRemapping (s : St) : Res Bool :=
  if s.buf.hasDatastore && s.buf.allowRemapping then
    needsRemapping s.mem s.buf.dataAddr s.buf.slot
  else .ok false

/-- `NS(Buffer_remap)` (buffer.h:1184-1219, buffer_generic.h:319-373). -/
def bufRemap (s : St) : Res (St × Int) :=
  if s.buf.allowRemapping then do
    let B := s.buf.dataAddr
    let h0 ← s.mem.load64 B
    if h0 ≠ 0 ∧ h0 = B then return (s, 0)
    else if h0 ≠ 0 ∧ 0 < s.buf.slot ∧ B ≠ 0 then do
      let (m, ok) ← remap s.mem B s.buf.slot
      if ok then do
        let a ← m.load64 B
        let l ← m.load64 (B + 8)
        let h ← m.load64 (B + 16)
        let o ← sectionData m B 4 s.buf.slot
        let n ← numEntities m B 4 s.buf.slot
        return ({ s with
          mem := m
          buf := { s.buf with
            dataAddr := a, dataSize := l, headerSize := h, objectAddr := o, numObjects := n } }, 0)
      else return ({ s with mem := m }, -1)
    else return (s, -1)
  else .ok (s, -1)

/-- The remapping of a buffer if that is needed (buffer_generic.h:401-409 and 512-521). -/
def remapIf (needed : Bool) (m : Mem) (B slot : Nat) : Res (Mem × Bool) :=
  if needed then remap m B slot else .ok (m, true)

/-- `NS(Buffer_refresh)` (buffer.h:1221-1258, buffer_generic.h:375-433). -/
def bufRefresh (s : St) : Res (St × Int) :=
  if s.buf.hasDatastore && s.buf.allowRemapping then do
    let B := s.buf.dataAddr
    let slot := s.buf.slot
    if B ≠ 0 ∧ 0 < slot ∧ B % slot = 0 then do
      let nr ← needsRemapping s.mem B slot
      let (m, ok) ← remapIf nr s.mem B slot
      if ok then do
        let len ← bufferLength m B slot
        let o ← sectionData m B 4 slot
        let n ← numEntities m B 4 slot
        return ({ s with
          mem := m
          buf := { s.buf with
            dataSize := len
            capacity := if s.buf.capacity < len then len else s.buf.capacity
            objectAddr := o
            numObjects := n } }, 0)
      else return ({ s with mem := m }, -1)
    else return (s, -1)
  else .ok (s, -1)

/-! ## Growing -/

/-- Two address ranges have no byte in common. -/
def disjoint (a n b k : Nat) : Prop := a + n ≤ b ∨ b + k ≤ a

instance (a n b k : Nat) : Decidable (disjoint a n b k) := by unfold disjoint; infer_instance

/-- The memory after `malloc( n )` has returned `a`.  The new block is somewhere
free, is aligned and lies in the lower half of the address space (where user space
is on all 64-bit platforms); a `malloc` that returns something else is not a
`malloc`.  The contents of the new block are
whatever was at these addresses before. -/
def Mem.alloc (m : Mem) (a n : Nat) : Res Mem :=
  if a ≠ 0 ∧ a % 8 = 0 ∧ a + n ≤ W / 2 ∧ ∀ b ∈ m.blocks, disjoint a n b.1 b.2 then
    .ok { m with blocks := (a, n) :: m.blocks }
  else .ub

/-- The memory after `free( a )`. -/
def Mem.free (m : Mem) (a : Nat) : Res Mem :=
  if a = 0 then .ok m
  else if ∃ b ∈ m.blocks, b.1 = a then .ok { m with blocks := m.blocks.filter (fun b => b.1 ≠ a) }
  else .ub

/-- The copy of the contents of a pool (mem_pool.c:207-214). -/
def copyPool (m : Mem) (d s n : Nat) : Res Mem := if 0 < n then m.memcpy d s n else .ok m

/-- `NS(MemPool_reserve_aligned)` (mem_pool.c:177-235) with allocation, copy and
release of the old block. -/
def poolReserve (malloc : Nat → Nat) (m : Mem) (q : Pool) (newCap align : Nat) :
    Res (Mem × Pool × Bool) :=
  if q.capacity < newCap ∧ 0 < q.chunk then
    let q' := MemPool.initAligned malloc newCap q.chunk align
    if q'.buffer ≠ 0 then do
      let m ← m.alloc q'.buffer (MemPool.initBytes newCap q.chunk align)
      if q.beginPos ≠ 0 then do
        let m ← copyPool m q'.beginPos q.beginPos q.size
        let m ← m.free q.buffer
        return (m, if 0 < q.size then { q' with size := q.size } else q', true)
      else return (m, q', true)
    else .ok (m, q, false)
  else .ok (m, q, false)

/-- `NS(Buffer_reserve_capacity_generic)` (buffer_generic.h:437-573).  On success
`object_addr` is set to the begin of the objects section, which is the address of
the section's header. -/
def bufReserveCapacity (malloc : Nat → Nat) (s : St) (newCap : Nat) : Res (St × Int) :=
  let slot := s.buf.slot
  if slot ≠ 0 ∧ s.buf.ownsDatastore ∧ s.buf.allowResize ∧ s.buf.capacity < newCap ∧
      s.buf.usesMempool then do
    let oldBase := s.pool.beginPos
    let missing := newCap - (if s.pool.size ≤ newCap then s.pool.size else newCap)
    if 0 < missing then do
      let (m, q, changed) ← poolReserve malloc s.mem s.pool newCap slot
      let rem ← MemPool.remainingBytes q
      if missing ≤ rem then do
        let B := q.beginPos
        let (m, ok) ← remapIf (!(decide (B = oldBase) && !changed)) m B slot
        if ok then do
          let (q, r) ← MemPool.appendAligned q missing slot
          if r.valid then do
            let o ← sectionPtr m B 4 slot
            let m ← m.memzero r.p r.length
            return ({ mem := m, pool := q,
                      buf := { s.buf with objectAddr := o, capacity := q.size, dataAddr := B } }, 0)
          else return ({ s with mem := m, pool := q }, 0)
        else return ({ s with mem := m, pool := q }, -1)
      else return ({ s with mem := m, pool := q }, -1)
    else return (s, 0)
  else .ok (s, -1)

/-- Growing if that is needed (buffer_generic.h:619-634). -/
def growTo (malloc : Nat → Nat) (s : St) (requ : Nat) : Res (St × Int) :=
  if s.buf.capacity < requ then bufReserveCapacity malloc s requ else .ok (s, 0)

/-- `NS(Buffer_reserve_generic)` (buffer_generic.h:575-669). -/
def bufReserve (malloc : Nat → Nat) (s : St) (c : Caps) : Res (St × Int) := do
  let slot := s.buf.slot
  if s.buf.usesDatastore && s.buf.allowModify then do
    let curO ← maxNumEntities s.mem s.buf.dataAddr 4 slot
    let curS ← maxNumEntities s.mem s.buf.dataAddr 3 slot
    let curD ← maxNumEntities s.mem s.buf.dataAddr 5 slot
    let curG ← maxNumEntities s.mem s.buf.dataAddr 6 slot
    if c.objs ≠ curO ∨ c.slots ≠ curS ∨ c.dataptrs ≠ curD ∨ c.garbage ≠ curG then do
      let requ ← calcBufferLength s.mem s.buf.dataAddr c slot
      let (s, rc) ← growTo malloc s requ
      if rc = 0 ∧ requ ≤ s.buf.capacity then do
        let B := s.buf.dataAddr
        let (m, rc, len) ← reserve s.mem B c s.buf.capacity slot
        if rc = 0 then do
          let o ← sectionData m B 4 slot
          let n ← numEntities m B 4 slot
          return ({ s with
            mem := m
            buf := { s.buf with dataSize := len, objectAddr := o, numObjects := n } }, 0)
        else return ({ s with mem := m }, rc)
      else return (s, rc)
    else return (s, -1)
  else return (s, -1)

/-! ## Adding an object -/

/-- What the caller says about one attribute: the offset of the pointer in the
handle, the size of an element and the number of elements. -/
structure AttrSpec where
  off : Nat
  size : Nat
  count : Nat
  deriving DecidableEq, Repr

/-- Copying the data of one attribute from `src` to `dest` (buffer_generic.h:957-975). -/
def copyAttr (m : Mem) (slot dest src n : Nat) : Res Mem :=
  if src ≠ 0 then do
    let m ← m.memcpy dest src n
    if n < roundUp n slot then m.memzero (dest + n) (roundUp n slot - n) else .ok m
  else m.memzero dest (roundUp n slot)

/-- The loop over the attributes (buffer_generic.h:937-982): `obj` is the stored
handle, `dest` the next free slot, `out` the next data-pointer entry. -/
def addAttrs (m : Mem) (slot obj dest out : Nat) : List AttrSpec → Res Mem
  | [] => .ok m
  | a :: as => do
    let n := a.count * a.size
    let p := obj + a.off
    let src ← m.load64 p
    let m ← copyAttr m slot dest src n
    let m ← m.store64 p dest
    let m ← m.store64 out p
    addAttrs m slot obj (dest + roundUp n slot) (out + 8) as

/-- Copying the object record (three 64-bit words) into the buffer. -/
def putRecord (m : Mem) (d addr typeId size : Nat) : Res Mem :=
  if m.valid d 24 then .ok (((m.put d addr).put (d + 8) typeId).put (d + 16) size) else .ub

/-- Storing the attributes, if there are any (buffer_generic.h:905-990). -/
def storeAttrs (m : Mem) (B slot obj size requD : Nat) (attrs : List AttrSpec) : Res Mem :=
  if attrs ≠ [] then do
    let szD ← sectionSize m B 5 slot
    let pD ← sectionPtr m B 5 slot
    let m ← addAttrs m slot obj (obj + roundUp size slot) (pD + szD) attrs
    setNumEntities m B 5 requD slot
  else .ok m

/-- The part of `NS(Buffer_add_object_generic)` after the capacities have been
ensured (buffer_generic.h:834-1005).  `addSlots` is the predicted number of
slots. -/
def storeObject (m : Mem) (B slot src size typeId addSlots requO requS requD : Nat)
    (attrs : List AttrSpec) : Res (Mem × Nat) := do
  let curSize ← sectionSize m B 3 slot
  let pS ← sectionPtr m B 3 slot
  let obj := pS + curSize
  let m ← m.memcpy obj src size
  let pO ← sectionPtr m B 4 slot
  if pO = 0 then return (m, 0)
  else do
    let szO ← sectionSize m B 4 slot
    let m ← putRecord m (pO + szO) obj typeId (addSlots * slot)
    let m ← storeAttrs m B slot obj size requD attrs
    let m ← setNumEntities m B 3 requS slot
    let m ← setNumEntities m B 4 requO slot
    return (m, pO + szO)

/-- Reserving the required numbers if the present ones do not suffice
(buffer_generic.h:810-828). -/
def ensure (malloc : Nat → Nat) (s : St) (needed : Bool) (c : Caps) : Res (St × Int) :=
  if needed then bufReserve malloc s c else .ok (s, 0)

/-- `NS(Buffer_add_object_generic)` (buffer_generic.h:713-1009); returns the address
of the object's record, or 0. -/
def addObject (malloc : Nat → Nat) (s : St) (src size typeId : Nat) (attrs : List AttrSpec) :
    Res (St × Nat) :=
  let slot := s.buf.slot
  if slot ≠ 0 ∧ 0 < size ∧ src ≠ 0 ∧ s.buf.allowAppend then do
    let B := s.buf.dataAddr
    let curS ← numEntities s.mem B 3 slot
    let maxS ← maxNumEntities s.mem B 3 slot
    let curO ← numEntities s.mem B 4 slot
    let maxO ← maxNumEntities s.mem B 4 slot
    let curD ← numEntities s.mem B 5 slot
    let maxD ← maxNumEntities s.mem B 5 slot
    let maxG ← maxNumEntities s.mem B 6 slot
    let addSlots := predictSlots size (attrs.map fun a => (a.size, a.count)) slot
    let _ ← fits (addSlots * slot)
    let requO := curO + 1
    let requD := curD + attrs.length
    let requS := curS + addSlots
    let (s, rc) ← ensure malloc s (maxO < requO ∨ maxS < requS ∨ maxD < requD)
      ⟨requO, requS, requD, maxG⟩
    if rc = 0 then do
      let (m, r) ← storeObject s.mem s.buf.dataAddr slot src size typeId addSlots
        requO requS requD attrs
      if r = 0 then return ({ s with mem := m }, 0)
      else return ({ s with mem := m, buf := { s.buf with numObjects := requO } }, r)
    else return (s, 0)
  else .ok (s, 0)

/-- `NS(Buffer_can_add_object)` (buffer.h:1395-1485): the answer and the three
numbers written through the pointers (0 if nothing is written). -/
def canAddObject (s : St) (size : Nat) (attrs : List (Nat × Nat)) :
    Res (Bool × Nat × Nat × Nat) :=
  if s.buf.allowAppend ∧ 0 < size then do
    let B := s.buf.dataAddr
    let slot := s.buf.slot
    let maxS ← maxNumEntities s.mem B 3 slot
    let maxO ← maxNumEntities s.mem B 4 slot
    let maxD ← maxNumEntities s.mem B 5 slot
    let numO ← numEntities s.mem B 4 slot
    let numD ← numEntities s.mem B 5 slot
    let numS ← numEntities s.mem B 3 slot
    let requO := numO + 1
    let requD := numD + attrs.length
    let requS ← fits (numS + predictSlots size attrs slot)
    if requO ≤ maxO ∧ requS ≤ maxS ∧ requD ≤ maxD then return (true, requO, requS, requD)
    else
      let deficit := fun requ mx => if requ ≤ mx then 0 else (mx + W - requ) % W
      return (false, deficit requO maxO, deficit requS maxS, deficit requD maxD)
  else .ok (false, 0, 0, 0)

/-! ## Looking up objects -/

/-- `NS(Buffer_get_const_object)` (buffer_generic.h:1235-1256); the number of objects
comes from the managed buffer (buffer.h:874-894). -/
def bufGetObject (s : St) (index : Nat) : Res Nat := do
  let n ← numEntities s.mem s.buf.dataAddr 4 s.buf.slot
  return if s.buf.objectAddr ≠ 0 ∧ index ≤ n then s.buf.objectAddr + 24 * index else 0

/-! ## Constructors -/

/-- `NS(Buffer_init_on_flat_memory_detailed)` (buffer_generic.h:1185-1229). -/
def initOnFlatMemory (m : Mem) (b : Buffer) (B cap : Nat) (c : Caps) : Res (Mem × Buffer × Int) := do
  let (m, rc, len) ← init m B c cap b.slot
  if rc = 0 then do
    let n ← numEntities m B 4 b.slot
    let o ← sectionData m B 4 b.slot
    return (m, { b with
      dataAddr := B, dataSize := len, capacity := cap, numObjects := n, objectAddr := o,
      datastore := B, flags := 0x4 ||| 0x1 ||| 0x8 ||| 0x10 ||| 0x20 }, 0)
  else return (m, b, rc)

/-- `NS(Buffer_allocate_generic)` (buffer.c:36-141) with the memory-pool flag.
`malloc` is the allocation of the data; the allocations of the two structures are
taken to succeed, `ds` is the address of the pool structure. -/
def allocateBuffer (malloc : Nat → Nat) (m : Mem) (ds cap : Nat) : Res (Mem × Option (Buffer × Pool)) := do
  let slot := presetBuffer.slot
  let minCap := 64 + 4 * (2 * roundUp 8 slot)
  let requ := if minCap ≤ cap then cap else minCap
  let (m, q, changed) ← poolReserve malloc m { MemPool.preset with chunk := slot } requ slot
  if changed then do
    let (q, r) ← MemPool.appendAligned q requ slot
    if r.valid then do
      let m ← m.memzero r.p r.length
      let (m, b, rc) ← initOnFlatMemory m presetBuffer r.p r.length ⟨0, 0, 0, 0⟩
      if rc = 0 then
        return (m, some ({ b with
          datastore := ds
          flags := 0x10000 ||| 0x1 ||| 0x2 ||| 0x4 ||| 0x8 ||| 0x20 ||| 0x40 }, q))
      else return (m, none)
    else return (m, none)
  else return (m, none)

/-- `NS(Buffer_new)` (buffer.c:286-302). -/
def newBuffer (malloc : Nat → Nat) (m : Mem) (ds cap : Nat) : Res (Mem × Option (Buffer × Pool)) := do
  let (m, r) ← allocateBuffer malloc m ds cap
  match r with
  | none => return (m, none)
  | some (b, q) => do
    let (s, rc) ← bufReset ⟨m, b, q⟩ ⟨0, 0, 0, 0⟩
    if rc = 0 then return (s.mem, some (s.buf, s.pool)) else return (s.mem, none)

/-- `NS(Buffer_new_from_copy)` (buffer.c:407-454). -/
def newFromCopy (malloc : Nat → Nat) (m : Mem) (ds : Nat) (orig : Buffer) :
    Res (Mem × Option (Buffer × Pool)) :=
  if orig.slot ≠ 0 ∧ 0 < orig.capacity ∧ orig.dataAddr ≠ 0 then do
    let (m, r) ← newBuffer malloc m ds orig.capacity
    match r with
    | none => return (m, none)
    | some (b, q) =>
      if 0 < orig.dataSize then do
        if b.dataAddr ≠ 0 then do
          let m ← m.memcpy b.dataAddr orig.dataAddr orig.dataSize
          let (s, rc) ← bufRefresh ⟨m, b, q⟩
          if rc = 0 then return (s.mem, some (s.buf, s.pool)) else return (s.mem, none)
        else return (m, none)
      else return (m, some (b, q))
  else .ok (m, none)

/-! ## Writing to a file -/

/-- The shift to the normalised address, if it is another one (buffer.c:698-713). -/
def shiftTo (m : Mem) (B norm slot : Nat) : Res (Mem × Bool) :=
  if B ≠ norm then do
    let off ← addrDiff B norm
    applyAddrOffset m B off slot
  else .ok (m, true)

/-- `NS(Buffer_write_to_fp_normalized_addr)` (buffer.c:681-732): the bytes handed to
`fwrite` (if it is reached), the state afterwards and the returned flag.  `fwrite`
is taken to succeed. -/
def writeNormalized (s : St) (norm : Nat) : Res (St × Option (List UInt8) × Bool) :=
  let B := s.buf.dataAddr
  if B ≠ 0 ∧ 0 < s.buf.dataSize then do
    let (m, ok) ← shiftTo s.mem B norm s.buf.slot
    let s := { s with mem := m }
    if ok then
      if m.valid B s.buf.dataSize then do
        let file := m.bytes B s.buf.dataSize
        let nr ← bufNeedsRemapping s
        if nr then do
          let (s, rc) ← bufRemap s
          return (s, some file, decide (rc = 0))
        else return (s, some file, true)
      else .ub
    else return (s, none, false)
  else .ok (s, none, false)

end SixTrack.Buf
