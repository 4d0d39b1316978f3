import Verif.Buffer.Generic

/-!
# Reading files, buffers of given capacities, buffers on existing data
(sixtracklib/common/buffer/buffer.c, sixtracklib/common/buffer/buffer_generic.h)

A file is the list of its bytes; opening, reading and writing it is taken to succeed.
-/

namespace SixTrack.Buf

open MemPool (Pool Alloc)

/-- Memory with the bytes `f` at the address `a`. -/
def Mem.write (m : Mem) (a : Nat) (f : List UInt8) : Mem :=
  { m with byte := fun x => if a ≤ x ∧ x < a + f.length then (f[x - a]?).getD 0 else m.byte x }

/-- `fread` of the whole file. -/
def Mem.fread (m : Mem) (a : Nat) (f : List UInt8) : Res Mem :=
  if m.valid a f.length then .ok (m.write a f) else .ub

/-- `NS(Buffer_write_to_fp)` (buffer.c:660-679): the bytes handed to `fwrite`. -/
def writeToFp (s : St) : Res (Option (List UInt8)) :=
  if s.buf.dataAddr ≠ 0 ∧ 0 < s.buf.dataSize then
    if s.mem.valid s.buf.dataAddr s.buf.dataSize then .ok (some (s.mem.bytes s.buf.dataAddr s.buf.dataSize))
    else .ub
  else .ok none

/-- `NS(Buffer_new_from_file)` (buffer.c:543-606). -/
def newFromFile (malloc : Nat → Nat) (m : Mem) (ds : Nat) (file : List UInt8) :
    Res (Mem × Option (Buffer × Pool)) :=
  if 0 < file.length then do
    let (m, r) ← newBuffer malloc m ds file.length
    match r with
    | none => return (m, none)
    | some (b, q) => do
      let m ← m.fread b.dataAddr file
      let (s, rc) ← bufRemap ⟨m, b, q⟩
      if rc = 0 then return (s.mem, some (s.buf, s.pool)) else return (s.mem, none)
  else .ok (m, none)

/-- `NS(Buffer_reserve_capacity)` (buffer.h:1102-1142). -/
def reserveCapacity (malloc : Nat → Nat) (s : St) (newCap : Nat) : Res (St × Int) :=
  if s.buf.usesDatastore && s.buf.allowResize then bufReserveCapacity malloc s newCap else .ok (s, -1)

/-- Making room for a file (buffer.c:497-513); the second value is the variable `buffer_capacity`. -/
def roomFor (malloc : Nat → Nat) (s : St) (len : Nat) : Res (St × Nat) :=
  if len ≤ s.buf.capacity then .ok (s, s.buf.capacity)
  else do
    let (s', rc) ← reserveCapacity malloc s len
    return (s', if rc = 0 then s'.buf.capacity else s.buf.capacity)

/-- `NS(Buffer_read_from_file)` (buffer.c:465-541).  The variable `success` is a `bool` to which the
codes 0 and -1 are assigned: 0 becomes `false`, -1 becomes `true`. -/
def readFromFile (malloc : Nat → Nat) (s : St) (file : List UInt8) : Res (St × Bool) :=
  if s.buf.allowClear && s.buf.allowModify then
    if 0 < file.length then do
      let (s, cap) ← roomFor malloc s file.length
      if file.length ≤ cap then do
        let m ← s.mem.fread s.buf.dataAddr file
        let (s, rc) ← bufRemap { s with mem := m }
        return (s, decide (rc ≠ 0))
      else return (s, false)
    else .ok (s, false)
  else .ok (s, false)

/-- The capacity that `NS(Buffer_new_detailed)` allocates (buffer.c:314-336); a garbage range is taken to
need one slot. -/
def detailedCapacity (c : Caps) : Nat :=
  64 + (16 + 8 * c.slots) + (16 + 24 * c.objs) + (16 + 8 * c.dataptrs) + (16 + 8 * c.garbage) + 8

/-- `NS(Buffer_new_detailed)` (buffer.c:304-352) with the memory-pool flag.  The capacity is taken not to
overflow. -/
def newDetailed (malloc : Nat → Nat) (m : Mem) (ds : Nat) (c : Caps) : Res (Mem × Option (Buffer × Pool)) := do
  let cap ← fits (detailedCapacity c)
  let (m, r) ← allocateBuffer malloc m ds cap
  match r with
  | none => return (m, none)
  | some (b, q) => do
    let (s, rc) ← bufReset ⟨m, b, q⟩ c
    if rc = 0 then return (s.mem, some (s.buf, s.pool)) else return (s.mem, none)

/-- Making the pool of a buffer large enough for data of another buffer (buffer_generic.h:1075-1131).
`NS(MemPool_reserve_aligned)` returns a `bool`, which is assigned to the status. -/
def refitPool (malloc : Nat → Nat) (s : St) (len : Nat) : Res (St × Int) := do
  let (m, q, changed) ← poolReserve malloc s.mem (MemPool.clear s.pool) len s.buf.slot
  if changed then return ({ s with mem := m, pool := q }, 1)
  else do
    let (q, r) ← MemPool.appendAligned q len s.buf.slot
    if r.valid then
      return ({ s with mem := m, pool := q, buf := { s.buf with dataAddr := r.p, capacity := r.length, dataSize := 0 } }, 0)
    else return ({ s with mem := m, pool := q }, 0)

/-- `NS(Buffer_init_from_data)` (buffer_generic.h:1013-1170).  The assertions are not part of a release
build.  Unlike everywhere else a failing second remap is reported as success. -/
def initFromData (malloc : Nat → Nat) (s : St) (begin maxLen : Nat) : Res (St × Int) :=
  let slot := s.buf.slot
  if 0 < slot ∧ begin ≠ 0 then do
    let nr ← needsRemapping s.mem begin slot
    let (m, ok) ← remapIf nr s.mem begin slot
    if ok then do
      let len ← bufferLength m begin slot
      if !s.buf.usesDatastore then do
        let o ← sectionData m begin 4 slot
        let n ← numEntities m begin 4 slot
        return ({ s with
          mem := m
          buf := { s.buf with
            dataAddr := begin, dataSize := len, capacity := maxLen, objectAddr := o, numObjects := n,
            flags := 0x1 ||| 0x4 ||| 0x8 ||| 0x20 } }, 0)
      else if s.buf.allowClear && s.buf.allowModify then do
        let s := { s with mem := m }
        let needs := decide (s.buf.capacity < len)
        let (s, rc) ← if needs && s.buf.ownsDatastore && s.buf.allowResize && s.buf.usesMempool then
            refitPool malloc s len
          else .ok (s, if needs then -1 else 0)
        if rc = 0 ∧ len ≤ s.buf.capacity then do
          let out := s.buf.dataAddr
          let m ← s.mem.memcpy out begin len
          let nr ← needsRemapping m out slot
          let (m, ok) ← remapIf nr m out slot
          if ok then do
            let o ← sectionData m begin 4 slot
            let n ← numEntities m begin 4 slot
            return ({ s with
              mem := m
              buf := { s.buf with
                dataSize := len, objectAddr := o, numObjects := n, flags := s.buf.flags ||| (0x4 ||| 0x20) } }, 0)
          else return ({ s with mem := m }, 0)
        else return (s, rc)
      else return ({ s with mem := m }, -1)
    else return ({ s with mem := m }, -1)
  else .ok (s, -1)

/-- `NS(Buffer_new_on_data)` (buffer.c:382-405); the structure is taken to be allocated. -/
def newOnData (malloc : Nat → Nat) (m : Mem) (begin maxLen : Nat) : Res (Mem × Option Buffer) :=
  if begin ≠ 0 ∧ 0 < maxLen then do
    let (s, rc) ← initFromData malloc ⟨m, presetBuffer, MemPool.preset⟩ begin maxLen
    if rc = 0 then return (s.mem, some s.buf) else return (s.mem, none)
  else .ok (m, none)

end SixTrack.Buf
