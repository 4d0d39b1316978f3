import Verif.Align

/-!
# Memory pool

Model of `/repo/sixtracklib/common/buffer/mem_pool.h` (lines 195-610) and
`/repo/sixtracklib/common/buffer/mem_pool.c` (lines 56-235).

Addresses are natural numbers; a null pointer is address 0.  The contents of the
memory are a function from addresses to bytes, used only by
`NS(MemPool_reserve_aligned)`, which copies them.
-/

namespace SixTrack.MemPool

open SixTrack.Align

/-- `U64_MAX`. -/
def U64MAX : Nat := 0xffffffffffffffff

/-- `NS(MemPool)` (mem_pool.h:45-56). -/
structure Pool where
  buffer : Nat
  beginPos : Nat
  beginOffset : Nat
  capacity : Nat
  size : Nat
  chunk : Nat
  deriving DecidableEq, Repr

/-- `NS(AllocResult)` (mem_pool.h:32-39). -/
structure Alloc where
  p : Nat
  offset : Nat
  length : Nat
  deriving DecidableEq, Repr

/-- `NS(AllocResult_preset)` (mem_pool.h:208-219). -/
def Alloc.preset : Alloc := ⟨0, 0, 0⟩

/-- `NS(AllocResult_valid)` (mem_pool.h:178-192). -/
def Alloc.valid (r : Alloc) : Bool := r.p ≠ 0 && 0 < r.length

/-- `NS(MemPool_preset)` (mem_pool.h:277-296). -/
def preset : Pool := ⟨0, 0, 0, 0, 0, 0⟩

/-- `NS(MemPool_clear)` (mem_pool.h:348-352). -/
def clear (q : Pool) : Pool := { q with size := 0 }

/-- `NS(MemPool_get_next_begin_offset)` (mem_pool.h:422-470).  The remainder by
`use_align` is undefined when the common alignment is 0.  `begin_pos +
current_size` is an address, hence not wrapped. -/
def nextBeginOffset (q : Pool) (alignment : Nat) : Res Nat :=
  let useAlign := common alignment q.chunk
  if useAlign = 0 then .ub
  else
    let addrMod := (q.beginPos + q.size) % useAlign
    let offset := if addrMod ≠ 0 then useAlign - addrMod else 0
    let next := if offset ≠ 0 ∧ q.size < U64MAX - offset then q.size + offset else q.size
    .ok (if next ≤ q.capacity then next else U64MAX)

/-- `NS(MemPool_get_remaining_bytes)` (mem_pool.h:474-483). -/
def remainingBytes (q : Pool) : Res Nat :=
  if q.chunk = 0 then .ub
  else .ok (u64 (q.capacity + 2 ^ 64 - q.size) / q.chunk * q.chunk)

/-- `NS(MemPool_append_aligned)` (mem_pool.h:497-550). -/
def appendAligned (q : Pool) (numBytes alignment : Nat) : Res (Pool × Alloc) := do
  let nextOffset ← nextBeginOffset q alignment
  if q.beginPos ≠ 0 ∧ 0 < numBytes ∧ nextOffset ≠ U64MAX ∧ 0 < q.chunk then
    let b0 := numBytes / q.chunk * q.chunk
    let bytesToAdd := if b0 < numBytes then u64 (b0 + q.chunk) else b0
    if nextOffset < U64MAX - bytesToAdd then
      let newSize := nextOffset + bytesToAdd
      if newSize ≤ q.capacity then
        return ({ q with size := newSize }, ⟨q.beginPos + nextOffset, nextOffset, bytesToAdd⟩)
      else return (q, Alloc.preset)
    else return (q, Alloc.preset)
  else return (q, Alloc.preset)

/-- `NS(MemPool_append)` (mem_pool.h:488-493). -/
def append (q : Pool) (numBytes : Nat) : Res (Pool × Alloc) := appendAligned q numBytes 1

/-- The number of bytes `NS(MemPool_init_aligned)` asks `malloc` for
(mem_pool.c:71-80). -/
def initBytes (capacity chunk beginAlign : Nat) : Nat :=
  let requested := u64 (beginAlign + (if chunk < capacity then capacity else chunk))
  let calcCap := requested / chunk * chunk
  if calcCap < requested then u64 (calcCap + chunk) else calcCap

/-- `NS(MemPool_init_aligned)` (mem_pool.c:56-110).  `malloc` is a parameter: it
is given the number of bytes and returns an address (0 on failure).  Subtracting
`begin_offset` from the capacity wraps. -/
def initAligned (malloc : Nat → Nat) (capacity chunk beginAlign : Nat) : Pool :=
  if 0 < chunk ∧ 0 < beginAlign then
    let cap := initBytes capacity chunk beginAlign
    let buf := malloc cap
    if buf ≠ 0 then
      let addrMod := buf % beginAlign
      let beginOffset := if addrMod ≠ 0 then beginAlign - addrMod else 0
      { buffer := buf
        beginPos := buf + beginOffset
        beginOffset := beginOffset
        capacity := u64 (cap + 2 ^ 64 - beginOffset)
        size := 0
        chunk := chunk }
    else preset
  else preset

/-- `NS(MemPool_clear_to_aligned_position)` (mem_pool.c:114-173). -/
def clearToAligned (q : Pool) (alignment : Nat) : Pool × Bool :=
  let bufCap := u64 (q.capacity + q.beginOffset)
  let q0 := clear q
  if 0 < alignment ∧ 0 < q.chunk ∧ q.buffer ≠ 0 then
    let useAlign := lcm alignment q.chunk
    if useAlign = 0 then (q0, false)
    else if bufCap < useAlign then
      let addrMod := q.buffer % useAlign
      if addrMod ≠ 0 then
        let offset := useAlign - addrMod
        if offset = 0 then
          ({ q0 with beginPos := q.buffer, capacity := bufCap }, true)
        else if offset < bufCap then
          ({ q0 with beginPos := q.buffer + offset, capacity := bufCap - offset }, true)
        else ({ q0 with beginPos := 0, capacity := 0 }, true)
      else (q0, false)
    else (q0, false)
  else (q0, false)

/-- Memory contents. -/
abbrev Mem := Nat → UInt8

/-- `memcpy( dst, src, n )`. -/
def memcpy (m : Mem) (dst src n : Nat) : Mem := fun a =>
  if dst ≤ a ∧ a < dst + n then m (src + (a - dst)) else m a

/-- `NS(MemPool_reserve_aligned)` (mem_pool.c:177-235). -/
def reserveAligned (malloc : Nat → Nat) (q : Pool) (m : Mem) (newCapacity align : Nat) :
    Pool × Mem × Bool :=
  if q.capacity < newCapacity ∧ 0 < q.chunk then
    let q' := initAligned malloc newCapacity q.chunk align
    if q'.buffer ≠ 0 then
      if q.beginPos ≠ 0 ∧ 0 < q.size then
        ({ q' with size := q.size }, memcpy m q'.beginPos q.beginPos q.size, true)
      else (q', m, true)
    else (q, m, false)
  else (q, m, false)

end SixTrack.MemPool
