import Verif.Basic

/-!
# Binary array objects

Model of `/repo/sixtracklib/common/buffer/buffer_array_object.h` (lines 22-32,
532-1046); `/repo/sixtracklib/common/buffer/binary_vector.h` has the same code
under other names, four lines earlier.

An array object consists of a header, a list of `max_num_elements + 1` offsets
and `capacity` bytes of data, both in the buffer that holds the object.  The
model keeps the three apart: an access outside the offset list or outside the
data is `ub`.  Sizes are natural numbers; sums of sizes are assumed not to
exceed `2^64` (they are bounded by the memory the array lies in), except where
stated.
-/

namespace SixTrack.ArrayObj

/-- `NS(BufferArrayObj)` (buffer_array_object.h:22-32) with the memory that
`begin_addr` and `offset_addr` point to. -/
structure Arr where
  num : Nat
  maxNum : Nat
  capacity : Nat
  slot : Nat
  offs : Nat → Nat
  data : Nat → UInt8

/-- Read an entry of the offset list; it has `max_num_elements + 1` entries. -/
def Arr.off (a : Arr) (i : Nat) : Res Nat := if i ≤ a.maxNum then .ok (a.offs i) else .ub

/-- `NS(BufferArrayObj_set_element_offset)` (buffer_array_object.h:760-777). -/
def Arr.setOff (a : Arr) (i v : Nat) : Res Arr :=
  if i ≤ a.maxNum then .ok { a with offs := fun j => if j = i then v else a.offs j } else .ub

/-- `SIXTRACKLIB_SET_VALUES( unsigned char, begin + at, n, 0 )`. -/
def Arr.zero (a : Arr) (pos n : Nat) : Res Arr :=
  if n = 0 then .ok a
  else if pos + n ≤ a.capacity then
    .ok { a with data := fun j => if pos ≤ j ∧ j < pos + n then 0 else a.data j }
  else .ub

/-- `SIXTRACKLIB_COPY_VALUES( unsigned char, begin, src, n )`. -/
def Arr.copyIn (a : Arr) (bytes : List UInt8) : Res Arr :=
  if bytes.length ≤ a.capacity then
    .ok { a with data := fun j => if h : j < bytes.length then bytes[j] else a.data j }
  else .ub

/-- `NS(ManagedBuffer_get_slot_based_length)` (managed_buffer_minimal.h:311-323). -/
def slotLen (n slot : Nat) : Nat :=
  let remainder := if slot > 0 then n % slot else 0
  if remainder = 0 then n else n + (slot - remainder)

/-- `NS(BufferArrayObj_get_element_offset)` (buffer_array_object.h:532-545). -/
def elementOffset (a : Arr) (i : Nat) : Res Nat := if i ≤ a.num then a.off i else .ok 0

/-- `NS(BufferArrayObj_get_length)` (buffer_array_object.h:564-570). -/
def length (a : Arr) : Res Nat := elementOffset a a.num

/-- `NS(BufferArrayObj_get_element_begin_addr)` (buffer_array_object.h:598-632),
relative to the begin of the data. -/
def elementBegin (a : Arr) (i : Nat) : Res Nat := a.off i

/-- `NS(BufferArrayObj_get_element_length)` (buffer_array_object.h:634-672). -/
def elementLength (a : Arr) (i : Nat) : Res Nat := do
  let e ← a.off (i + 1)
  let b ← a.off i
  return if e ≥ b then e - b else 0

/-- `for( ii = i ; ii <= last ; ++ii ) set_element_offset( array, ii, 0 )`;
`n` is the number of rounds. -/
def zeroOffs (a : Arr) (i : Nat) : Nat → Res Arr
  | 0 => .ok a
  | n + 1 => do
    let a' ← a.setOff i 0
    zeroOffs a' (i + 1) n

/-- `NS(BufferArrayObj_clear)` (buffer_array_object.h:780-811). -/
def clear (a : Arr) : Res Arr :=
  if 0 < a.num then do
    let len ← length a
    let a1 ← zeroOffs a 0 (a.num + 1)
    let a2 ← a1.zero 0 len
    return { a2 with num := 0 }
  else .ok a

/-- `NS(BufferArrayObj_append_element)` (buffer_array_object.h:813-864).
`bytes = none` is a null source pointer. -/
def append (a : Arr) (bytes : Option (List UInt8)) (size : Nat) : Res (Arr × Bool) :=
  if 0 < size ∧ 0 < a.slot then do
    let len ← length a
    let elemLen := slotLen size a.slot
    let newLen := elemLen + len
    if elemLen % a.slot = 0 ∧ newLen ≤ a.capacity ∧ a.num < a.maxNum then
      let a1 ← match bytes with
        | some bs => a.copyIn bs
        | none => .ok a
      let a2 ← a1.setOff a.num newLen
      return ({ a2 with num := a.num + 1 }, true)
    else return (a, false)
  else .ok (a, false)

/-- `NS(BufferArrayObj_remove_last_element)` (buffer_array_object.h:948-989). -/
def removeLast (a : Arr) : Res (Arr × Bool) :=
  if 0 < a.num then do
    let last := a.num - 1
    let b ← elementBegin a last
    let len ← elementLength a last
    let a1 ← (if 0 < len then a.zero b len else .ok a)
    let a2 ← a1.setOff a.num 0
    return ({ a2 with num := a.num - 1 }, true)
  else .ok (a, false)

/-- `NS(BufferArrayObj_remove_last_num_elements)` (buffer_array_object.h:991-1046). -/
def removeLastNum (a : Arr) (k : Nat) : Res (Arr × Bool) :=
  if 0 < k ∧ k ≤ a.num then
    let newNum := a.num - k
    if 0 < newNum then do
      let curLen ← length a
      let newLen ← elementOffset a (newNum - 1)
      let a1 ← (if newLen < curLen then
          (elementBegin a newNum) >>= fun b => a.zero b (curLen - newLen)
        else .ok a)
      let a2 ← zeroOffs a1 (newNum + 1) (a.num - newNum)
      return (a2, true)
    else do
      let a1 ← clear a
      return (a1, true)
  else .ok (a, false)

/-- The bytes of element `i`, as a reader gets them through
`get_element_begin_addr` and `get_element_length`. -/
def element (a : Arr) (i : Nat) : Res (List UInt8) := do
  let b ← elementBegin a i
  let len ← elementLength a i
  if b + len ≤ a.capacity then return (List.range len).map (fun j => a.data (b + j)) else .ub

end SixTrack.ArrayObj
