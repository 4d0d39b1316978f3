import Verif.ArrayObj

/-!
# Strings in buffers

Model of `/repo/sixtracklib/common/buffer/buffer_string_object.h` (line numbers without a file).

* An object is its three members and the bytes which belong to its data, from `begin_addr` on: `NS(Buffer_add_object)` gives
  it whole slots.  Reading or writing beyond these is undefined.
* A C string is the bytes from its pointer on up to the end of the memory it is in; `none` is a null pointer.  It does
  not overlap with the object (`SIXTRL_RESTRICT`); what adding to a buffer does to a string in that buffer is left out.
* That an object can be added to the buffer is a parameter, the size of its slots is not 0; the object itself is not null.  Assertions are those of
  builds with them, and `C100_assert_violated` is about these.
-/

namespace SixTrack.StrObj
open ArrayObj (slotLen)

abbrev Byte := BitVec 8

/-- `NS(BufferStringObj)`, 24-30, and its data; `here`: `begin_addr` is not 0. -/
structure Str where
  here : Bool
  length : Nat
  capacity : Nat
  cells : List Byte
  deriving DecidableEq, Repr

/-- `strlen` for memory `m` -/
def strlen (m : List Byte) : Res Nat := if 0#8 ∈ m then .ok (m.idxOf 0#8) else .ub

/-- `NS(BufferStringObj_get_cstring_length)`, 332-353 -/
def cstringLength : Option (List Byte) → Res Nat
  | none => .ok 0
  | some m => strlen m

/-- the loop in 368-374 -/
def reverseLoop (m : List Byte) : Nat → Res Nat
  | 0 => .ok 0
  | n + 1 =>
    match m[n + 1]? with
    | some c => if c = 0#8 then reverseLoop m n else .ok (n + 1)
    | none => .ub

/-- `NS(BufferStringObj_get_cstring_length_reverse)`, 355-378 -/
def lengthReverse (s : Option (List Byte)) (capacity : Nat) : Res Nat :=
  match s with
  | some m => if 0 < capacity then reverseLoop m (capacity - 1) else .ok 0
  | none => .ok 0

/-- `NS(BufferStringObj_preset)`, 407-419 -/
def preset : Str := ⟨false, 0, 0, []⟩

/-- `NS(BufferStringObj_get_const_string)`, 429-437 -/
def Str.string (s : Str) : Option (List Byte) := if s.here then some s.cells else none

/-- `NS(BufferStringObj_get_length)`, 455-488, without the assertions -/
def Str.getLength (s : Str) : Nat := if s.here ∧ s.length < s.capacity then s.length else 0

/-- the assertions in 467-468 and 474-483 -/
def Str.lengthAsserts (s : Str) : Res Bool :=
  if s.here then
    if s.length < s.capacity then
      if s.length < 1024 then do
        let n ← cstringLength s.string
        pure (n == s.length)
      else do
        let n ← lengthReverse s.string s.capacity
        pure (n == s.length)
    else pure (decide (0 < s.capacity))
  else pure true

/-- `NS(BufferStringObj_get_max_length)`, 490-508 -/
def Str.maxLength (s : Str) : Nat := if 1 < s.capacity ∧ s.here then s.capacity - 1 else 0

/-- `NS(BufferStringObj_get_available_length)`, 510-529 -/
def Str.available (s : Str) : Nat :=
  if s.getLength + 1 < s.capacity ∧ s.here then s.capacity - (s.getLength + 1) else 0

/-- copying `bytes` to the data from `pos` on -/
def Str.put (s : Str) (pos : Nat) (bytes : List Byte) : Res Str :=
  if pos + bytes.length ≤ s.cells.length then
    .ok { s with cells := s.cells.take pos ++ bytes ++ s.cells.drop (pos + bytes.length) }
  else .ub

/-- `NS(BufferStringObj_clear)`, 531-551 -/
def Str.clear (s : Str) : Res Str :=
  if s.here ∧ 0 < s.getLength ∧ s.getLength < s.capacity then do
    let t ← s.put 0 (List.replicate s.getLength 0#8)
    pure { t with length := 0 }
  else .ok s

/-- `NS(BufferStringObj_sync_length)`, 553-573 -/
def Str.sync (s : Str) : Res Str :=
  if s.here ∧ 0 < s.capacity then do
    let n ← cstringLength s.string
    pure (if n < s.capacity then { s with length := n } else s)
  else .ok s

/-- the copying of `n` characters from `src`, the zeros after them and the length, as in 597-606, 641-650 and 844-849: the first
character goes to `pos` -/
def Str.write (s : Str) (pos : Nat) (src : List Byte) (n : Nat) : Res Str := do
  let t ← s.put pos (src.take n)
  let u ← t.put (pos + n) (List.replicate (s.capacity - (pos + n)) 0#8)
  pure { u with length := pos + n }

/-- `NS(BufferStringObj_assign_cstring)`, 575-612; `false`: it gives a null pointer. -/
def Str.assign (s : Str) (src : Option (List Byte)) : Res (Bool × Str) :=
  match src with
  | some m =>
    if s.here ∧ 1 < s.capacity then do
      let n ← strlen m
      if n < s.capacity then do
        let t ← s.write 0 m n
        pure (true, t)
      else pure (false, s)
    else .ok (false, s)
  | none => .ok (false, s)

/-- `NS(BufferStringObj_append_cstring)`, 614-656 -/
def Str.append (s : Str) (src : Option (List Byte)) : Res (Bool × Str) :=
  match src with
  | some m =>
    if s.here ∧ s.getLength < s.capacity then do
      let n ← strlen m
      if s.getLength + n < s.capacity then do
        let t ← s.write s.getLength m n
        pure (true, t)
      else pure (false, s)
    else .ok (false, s)
  | none => .ok (false, s)

/-! ## Adding to a buffer -/

/-- `sizeof( NS(BufferStringObj) )` -/
def OBJ_SIZE : Nat := 24

/-- `max_length + 1`, 723, 798, 828: a number of 64 bits -/
def capacityOf (maxLength : Nat) : Nat := (maxLength + 1) % 2 ^ 64

/-- `NS(BufferStringObj_get_required_num_slots_on_managed_buffer)`, 715-733 -/
def requiredSlots (maxLength slot : Nat) : Nat :=
  if 0 < slot then (slotLen OBJ_SIZE slot + slotLen (capacityOf maxLength) slot) / slot else 0

/-- `NS(BufferStringObj_new)`, 784-812, if there is room on a buffer with slots of size `slot`: the data is filled with zeros,
buffer_generic.h:971-975. -/
def make (room : Bool) (slot maxLength : Nat) : Option Str :=
  if room then some ⟨true, 0, capacityOf maxLength, List.replicate (slotLen (capacityOf maxLength) slot) 0#8⟩ else none

/-- `NS(BufferStringObj_add)`, 814-873; without characters the zeros in 863 are there already. -/
def add (room : Bool) (slot : Nat) (src : Option (List Byte)) (maxLength : Nat) : Res (Option Str) := do
  let n ← cstringLength src
  match src with
  | some m =>
    if 0 < n ∧ n ≤ capacityOf maxLength then
      match make room slot maxLength with
      | some s => do
        let t ← s.write 0 m n
        pure (some { t with capacity := capacityOf maxLength })
      | none => pure none
    else if 0 < capacityOf maxLength ∧ n = 0 then pure (make room slot maxLength)
    else pure none
  | none => if 0 < capacityOf maxLength then pure (make room slot maxLength) else pure none

/-- `NS(BufferStringObj_new_from_cstring)`, 908-919 -/
def newFrom (room : Bool) (slot : Nat) (src : Option (List Byte)) : Res (Option Str) := do
  let n ← cstringLength src
  add room slot src n

/-- `NS(BufferStringObj_add_copy)`, 921-930 -/
def addCopy (room : Bool) (slot : Nat) (s : Str) : Res (Option Str) := add room slot s.string s.capacity

/-- `NS(BufferStringObj_add_detailed)`, 875-906: `capacity` bytes from `src` on are copied, and zeros follow,
buffer_generic.h:955-975. -/
def addDetailed (room : Bool) (slot : Nat) (src : Option (List Byte)) (length capacity : Nat) : Res (Option Str) :=
  if room then
    match src with
    | some m =>
      if capacity ≤ m.length then
        .ok (some ⟨true, length, capacity, m.take capacity ++ List.replicate (slotLen capacity slot - capacity) 0#8⟩)
      else .ub
    | none => .ok (some ⟨true, length, capacity, List.replicate (slotLen capacity slot) 0#8⟩)
  else .ok none

/-! ## Programs -/

/-- What a program may do with a string. -/
inductive Op
  | assign (src : Option (List Byte))
  | append (src : Option (List Byte))
  | clear
  | sync

def Str.step (s : Str) : Op → Res Str
  | .assign src => do
    let r ← s.assign src
    pure r.2
  | .append src => do
    let r ← s.append src
    pure r.2
  | .clear => s.clear
  | .sync => s.sync

def Str.run : Str → List Op → Res Str
  | s, [] => .ok s
  | s, o :: os => do
    let t ← s.step o
    t.run os

end SixTrack.StrObj
