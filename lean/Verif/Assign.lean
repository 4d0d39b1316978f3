import Verif.Basic

/-!
# Address assignments

Model of `/repo/sixtracklib/common/buffer/assign_address_item.h` (lines 33-44,
676-716, 778-812, 881-1059) and of the kernel
`/repo/sixtracklib/common/buffer/assign_address_item_kernel_impl.h` (lines
26-90).

* A buffer is given by its address, its slot size and its object index (a list
  of address, size and type id).  The index does not change while addresses are
  assigned: objects do not overlap the index.  For raw memory only the address
  and the number of bytes are used.
* Memory is a function from addresses that are multiples of 8 to 64-bit words;
  a word access elsewhere is undefined.
-/

namespace SixTrack.Assign

/-- Wrap-around of 64-bit address arithmetic. -/
def u64 (n : Nat) : Nat := n % 2 ^ 64

/-- `SIXTRL_ASSIGN_ADDRESS_ITEM_NO_BUFFER_ID` (assign_address_item.h:17-19). -/
def NO_BUFFER : Nat := 0xffffffffffffffff

/-- `NS(AssignAddressItem)` (assign_address_item.h:33-44). -/
structure Item where
  destBuffer : Nat
  srcBuffer : Nat
  destType : Nat
  srcType : Nat
  destIndex : Nat
  srcIndex : Nat
  destOffset : Nat
  srcOffset : Nat
  deriving DecidableEq, Repr

/-- An entry of the object index: `NS(Object)` (buffer_object.h:24-30). -/
structure Obj where
  addr : Nat
  size : Nat
  type : Nat
  deriving DecidableEq, Repr

/-- A managed buffer or, with an empty index, a piece of raw memory. -/
structure Buf where
  addr : Nat
  len : Nat
  slot : Nat
  objs : List Obj
  deriving DecidableEq, Repr

abbrev Mem := Nat → Nat

/-- `*dest_ptr = value`. -/
def store (m : Mem) (a v : Nat) : Res Mem :=
  if a % 8 = 0 then .ok (fun b => if b = a then v else m b) else .ub

/-- `NS(ManagedBuffer_get_const_object)` (managed_buffer_minimal.h:770-782): the
test is `index <= num_objects`, so that one entry behind the index can be read;
its contents are not an object. -/
def getObject (b : Buf) (i : Nat) : Res (Option Obj) :=
  if h : i < b.objs.length then .ok (some b.objs[i])
  else if i = b.objs.length then .ub
  else .ok none

/-- `NS(AssignAddressItem_dest_is_on_raw_memory)` (assign_address_item.h:786-795). -/
def Item.destRaw (it : Item) : Bool := it.destBuffer == NO_BUFFER && it.destIndex == 0

/-- `NS(AssignAddressItem_src_is_on_raw_memory)` (assign_address_item.h:805-814). -/
def Item.srcRaw (it : Item) : Bool := it.srcBuffer == NO_BUFFER && it.srcIndex == 0

/-- The test shared by `NS(AssignAddressItem_dest_pointer_from_managed_buffer)`
(assign_address_item.h:918-937) and
`NS(AssignAddressItem_src_pointer_addr_from_managed_buffer)` (1010-1029): the
address of the word at `offset` in object `index`, 0 if there is none. -/
def wordAddr (b : Buf) (index offset type : Nat) : Res Nat := do
  match ← getObject b index with
  | none => .ok 0
  | some o =>
    if o.addr = 0 then .ok 0
    else if b.slot = 0 then .ub
    else
      let p := u64 (o.addr + offset)
      return if p % b.slot = 0 ∧ p % 8 = 0 ∧ u64 (offset + 8) ≤ o.size ∧ o.type = type then p else 0

/-- `NS(AssignAddressItem_dest_pointer_from_managed_buffer)`
(assign_address_item.h:881-941); 0 is the null pointer. -/
def destPtrManaged (it : Item) (b : Buf) : Res Nat :=
  if it.destRaw = false ∧ b.addr ≠ 0 ∧ 0 < b.slot then
    wordAddr b it.destIndex it.destOffset it.destType
  else .ok 0

/-- `NS(AssignAddressItem_dest_pointer_from_raw_memory)`
(assign_address_item.h:943-970).  The pointer has to stay inside the memory. -/
def destPtrRaw (it : Item) (b : Buf) : Res Nat :=
  if it.destRaw = true ∧ b.addr ≠ 0 then
    if it.destOffset + 8 ≤ b.len then .ok (b.addr + it.destOffset) else .ub
  else .ok 0

/-- `NS(AssignAddressItem_src_pointer_addr_from_managed_buffer)`
(assign_address_item.h:973-1033). -/
def srcAddrManaged (it : Item) (b : Buf) : Res Nat :=
  if it.srcRaw = false ∧ b.addr ≠ 0 then wordAddr b it.srcIndex it.srcOffset it.srcType
  else .ok 0

/-- `NS(AssignAddressItem_src_pointer_addr_from_raw_memory)`
(assign_address_item.h:1035-1060). -/
def srcAddrRaw (it : Item) (b : Buf) : Nat :=
  if it.srcRaw = true ∧ b.addr ≠ 0 then u64 (b.addr + it.srcOffset) else 0

/-- What the kernel is called with, apart from the items. -/
structure Cfg where
  dest : Buf
  destId : Nat
  src : Buf
  srcId : Nat

/-- Body of the kernel loop (assign_address_item_kernel_impl.h:58-86); `none` is
an object that is not an item.  The flag tells whether the status stays
`SUCCESS`. -/
def step (c : Cfg) (it : Option Item) (m : Mem) : Res (Mem × Bool) :=
  match it with
  | none => .ok (m, true)
  | some it =>
    if it.srcBuffer = c.srcId ∧ it.destBuffer = c.destId then do
      let s ← (if it.srcRaw then .ok (srcAddrRaw it c.src) else srcAddrManaged it c.src)
      let d ← (if it.destRaw then destPtrRaw it c.dest else destPtrManaged it c.dest)
      if d ≠ 0 then do
        let m' ← store m d s
        .ok (m', true)
      else .ok (m, false)
    else .ok (m, true)

/-- The kernel `NS(AssignAddressItem_perform_address_assignment_kernel_impl)`
(assign_address_item_kernel_impl.h:26-90), run alone by the work-item that starts
at `idx`.  A stride of 0 would not end (it is excluded by an assertion); `idx +
stride` is assumed not to wrap. -/
def kernel (c : Cfg) (items : List (Option Item)) (stride idx : Nat) (m : Mem) (ok : Bool) :
    Res (Mem × Bool) :=
  if h : idx < items.length ∧ 0 < stride then do
    let (m', s) ← step c (items[idx]'h.1) m
    kernel c items stride (idx + stride) m' (ok && s)
  else .ok (m, ok)
termination_by items.length - idx

/-- The indices the work-item that starts at `idx` goes through. -/
def indices (n stride idx : Nat) : List Nat :=
  if _h : idx < n ∧ 0 < stride then idx :: indices n stride (idx + stride) else []
termination_by n - idx

/-- Process the items in the given order: what a schedule of the work-items
amounts to.  An item is one store of a 64-bit word; everything else it reads is
not written by any item. -/
def runTrace (c : Cfg) (items : List (Option Item)) : List Nat → Mem → Bool → Res (Mem × Bool)
  | [], m, ok => .ok (m, ok)
  | i :: rest, m, ok =>
    if h : i < items.length then do
      let (m', s) ← step c items[i] m
      runTrace c items rest m' (ok && s)
    else .ub

end SixTrack.Assign
