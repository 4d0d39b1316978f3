import Verif.Assign

/-!
# The address assignments a track job keeps

Model of the lists of address assignments of a track job:
`/repo/sixtracklib/common/track/track_job_base.cpp` (`TrackJobBaseNew`, lines 830-982, 992-1189,
1575-1658, 2854-3091) and `/repo/sixtracklib/common/internal/track_job_base.cpp` (`TrackJobBase`, lines
771-934, 943-1144, 2551-2793, 3096-3172), which are the same up to names.  Line numbers below are those of
the first file.

* The items are kept in a `std::map` from pairs of buffer ids (destination, source) to buffers of items; the
  model is a list sorted by key.  The job also keeps a sorted vector of the keys.
* A buffer of items has room for some further items.  If there is none, `NS(Buffer_add_object_generic)`
  (buffer_generic.h:800-810) reserves exactly what is needed, for which memory is allocated anew; a pointer into
  the buffer is then no longer valid.  (A new buffer has 256 bytes, buffer.hpp:41, room for one item.)  That
  reserving succeeds is assumed, as is that the user does not change items via the pointers to stored items
  which the job gives away.
-/

namespace SixTrack.AssignList
open SixTrack.Assign

/-- `NS(TrackJobDestSrcBufferIds)` (track_job_buffer_store.h:33-38). -/
structure Key where
  dest : Nat
  src : Nat
  deriving DecidableEq, Repr

/-- `TrackJobDestSrcBufferIdsLessCmp` (track_job_buffer_store.h:47-58) and the functions `cmp_key_fn`. -/
def Key.less (a b : Key) : Bool := a.dest < b.dest || (a.dest == b.dest && a.src < b.src)

/-- `SIXTRL_ARCH_ILLEGAL_BUFFER_ID` (control/definitions.h:134-136). -/
def ILLEGAL_ID : Nat := 0

/-- `SIXTRL_ARCH_MIN_USER_DEFINED_BUFFER_ID` (control/definitions.h:158-160). -/
def MIN_USER_ID : Nat := 1024

/-- `SIXTRL_ARCH_MAX_USER_DEFINED_BUFFER_ID` (control/definitions.h:166-168). -/
def MAX_USER_ID : Nat := 0xFFFFFFFFFFFFFFFE

/-- `std::numeric_limits< size_t >::max()` -/
def SIZE_MAX : Nat := 0xFFFFFFFFFFFFFFFF

/-- The key of an item: the ids of its buffers. -/
def keyOf (it : Item) : Key := ⟨it.destBuffer, it.srcBuffer⟩

/-- `NS(AssignAddressItem_valid)` (assign_address_item.h:504-512) of an item that is there;
`NS(AssignAddressItem_dest_is_on_buffer)` (778-784) and `NS(AssignAddressItem_src_is_on_buffer)` (797-803)
are what is not on raw memory. -/
def valid (it : Item) : Bool := (!it.destRaw || it.destRaw) && (!it.srcRaw || it.srcRaw)

/-- `NS(AssignAddressItem_are_equal)` (assign_address_item.h:1156-1171). -/
def areEqual (a b : Item) : Bool :=
  a.destBuffer == b.destBuffer && a.srcBuffer == b.srcBuffer && a.destType == b.destType &&
    a.srcType == b.srcType && a.destIndex == b.destIndex && a.srcIndex == b.srcIndex &&
    a.destOffset == b.destOffset && a.srcOffset == b.srcOffset

/-- A buffer of items; it has room for `room` more. -/
structure ItemBuf where
  items : List Item
  room : Nat
  deriving DecidableEq, Repr

/-- `NS(AssignAddressItem_add_copy)` (assign_address_item.c:167-178); `inside`: the item to be copied is one
of the buffer itself. -/
def ItemBuf.add (b : ItemBuf) (x : Item) (inside : Bool) : Res ItemBuf :=
  if b.room = 0 then
    if inside then .ub else .ok ⟨b.items ++ [x], 0⟩
  else .ok ⟨b.items ++ [x], b.room - 1⟩

/-- `m_assign_address_items` and `m_assign_item_keys` (track_job_base.hpp:925, 931). -/
structure Lists where
  map : List (Key × ItemBuf)
  keys : List Key
  deriving DecidableEq, Repr

/-- A new job has no items, track_job_base.cpp:1737-1743 -/
def Lists.new : Lists := ⟨[], []⟩

/-- `m_assign_address_items.find( key )` -/
def mapFind (m : List (Key × ItemBuf)) (k : Key) : Option ItemBuf :=
  match m with
  | [] => none
  | (k', b) :: rest => if k' = k then some b else mapFind rest k

/-- `m_assign_address_items.emplace( key, b )` for a key that is not there -/
def mapInsert (m : List (Key × ItemBuf)) (k : Key) (b : ItemBuf) : List (Key × ItemBuf) :=
  match m with
  | [] => [(k, b)]
  | (k', b') :: rest => if k.less k' then (k, b) :: (k', b') :: rest else (k', b') :: mapInsert rest k b

/-- A new value for a key that is there: `it->second = b` -/
def mapSet (m : List (Key × ItemBuf)) (k : Key) (b : ItemBuf) : List (Key × ItemBuf) :=
  m.map fun e => if e.1 = k then (k, b) else e

/-- `m_assign_address_items.erase( key )` -/
def mapErase (m : List (Key × ItemBuf)) (k : Key) : List (Key × ItemBuf) := m.filter fun e => e.1 ≠ k

/-- Insertion into a sorted list of keys -/
def insertKey (k : Key) : List Key → List Key
  | [] => [k]
  | k' :: rest => if k'.less k then k' :: insertKey k rest else k :: k' :: rest

/-- `std::sort` of keys -/
def sortKeys (ks : List Key) : List Key := ks.foldr insertKey []

/-- Appending a key to the vector of keys, which is sorted if necessary, track_job_base.cpp:2890-2901 -/
def pushKey (ks : List Key) (k : Key) : List Key :=
  match ks.getLast? with
  | none => ks ++ [k]
  | some e => if e.less k then ks ++ [k] else sortKeys (ks ++ [k])

/-- `std::lower_bound` in the vector of keys, as an index -/
def lowerBound (ks : List Key) (k : Key) : Nat := ks.findIdx fun e => !e.less k

/-- `num_assign_items`, track_job_base.cpp:942-956 -/
def Lists.num (l : Lists) (k : Key) : Nat :=
  match mapFind l.map k with
  | none => 0
  | some b => b.items.length

/-- `do_find_assign_address_item`, track_job_base.cpp:1575-1631: the index of the item, the number of items
if the item is not there, the largest number if there is no item with these buffers. -/
def Lists.find (l : Lists) (it : Item) : Nat :=
  match mapFind l.map (keyOf it) with
  | none => SIZE_MAX
  | some b => b.items.findIdx fun e => areEqual e it

/-- `do_get_assign_address_item`, track_job_base.cpp:1633-1649; also `ptr_assign_address_item`, 1138-1145 -/
def Lists.get (l : Lists) (k : Key) (i : Nat) : Option Item :=
  match mapFind l.map k with
  | none => none
  | some b => b.items[i]?

/-- `has_assign_address_item`, track_job_base.cpp:889-897 -/
def Lists.has (l : Lists) (it : Item) : Bool := l.find it < l.num (keyOf it)

/-- `ptr_assign_address_item` of an item, track_job_base.cpp:1125-1135 -/
def Lists.ptr (l : Lists) (it : Item) : Option Item := l.get (keyOf it) (l.find it)

/-- `do_add_assign_address_item`, track_job_base.cpp:2854-2956: the index of the item if the status is
success.  `r` is the room of a new buffer of items. -/
def Lists.add (r : Nat) (l : Lists) (it : Item) : Res (Lists × Option Nat) :=
  if valid it then
    match mapFind l.map (keyOf it) with
    | none => do
      let b ← ItemBuf.add ⟨[], r⟩ it false
      .ok (⟨mapInsert l.map (keyOf it) b, pushKey l.keys (keyOf it)⟩, some 0)
    | some b =>
      if l.find it < b.items.length then .ok (l, some (l.find it))
      else do
        let b' ← b.add it false
        .ok (⟨mapSet l.map (keyOf it) b', l.keys⟩, some b.items.length)
  else .ok (l, none)

/-- `add_assign_address_item`, track_job_base.cpp:830-853: the stored item, `none` for the null pointer. -/
def Lists.addItem (r : Nat) (l : Lists) (it : Item) : Res (Lists × Option Item) :=
  if valid it then do
    let (l', i) ← l.add r it
    match i with
    | none => .ok (l', none)
    | some i => .ok (l', l'.get (keyOf it) i)
  else .ok (l, none)

/-- The loop in `do_remove_assign_address_item`, track_job_base.cpp:2998-3018: the items that are to be kept
are appended to the buffer they are in (`current_buffer`); the items which are read are not affected by this
unless the buffer gets moved. -/
def copyKept (b : ItemBuf) : List Item → Res ItemBuf
  | [] => .ok b
  | x :: rest => do
    let b' ← b.add x true
    copyKept b' rest

/-- The end of `do_remove_assign_address_item`, track_job_base.cpp:3027-3042: a key without items is
removed. -/
def dropEmpty (l : Lists) (k : Key) : Res Lists :=
  if l.num k = 0 then
    if lowerBound l.keys k < l.keys.length then
      .ok ⟨mapErase l.map k, l.keys.eraseIdx (lowerBound l.keys k)⟩
    else .ub
  else .ok l

/-- `do_remove_assign_address_item`, track_job_base.cpp:2958-3045.  After the loop the buffer is swapped with
`new_buffer` (3020-3024), to which nothing has been added. -/
def Lists.removeAt (l : Lists) (k : Key) (i : Nat) : Res (Lists × Bool) :=
  match mapFind l.map k with
  | none => .ok (l, false)
  | some b =>
    if i < b.items.length then do
      let _ ← copyKept b (b.items.eraseIdx i)
      let l' ← dropEmpty ⟨mapSet l.map k ⟨[], b.items.length⟩, l.keys⟩ k
      .ok (l', true)
    else .ok (l, false)

/-- `remove_assign_address_item` of an item, track_job_base.cpp:870-879 -/
def Lists.remove (l : Lists) (it : Item) : Res (Lists × Bool) := l.removeAt (keyOf it) (l.find it)

/-- `total_num_assign_items`, track_job_base.cpp:1113-1123 -/
def Lists.total (l : Lists) : Nat := (l.map.map fun e => e.2.items.length).sum

/-- `num_distinct_available_assign_address_items_dest_src_pairs`, track_job_base.cpp:958-962 -/
def Lists.numPairs (l : Lists) : Nat := l.keys.length

/-- `available_assign_address_items_dest_src_pairs`, track_job_base.cpp:964-982 and track_job_base.hpp:1221-1250:
what the array `out` holds afterwards and the number of pairs. -/
def Lists.pairs (l : Lists) (out : List Key) : List Key × Nat :=
  if 0 < out.length ∧ l.map ≠ [] then
    (l.keys.take out.length ++ List.replicate (out.length - l.keys.length) ⟨ILLEGAL_ID, ILLEGAL_ID⟩,
      min out.length l.keys.length)
  else (out, 0)

/-- `assign_items_begin`, track_job_base.cpp:1069-1079: position in the index of the buffer of items -/
def Lists.itemsBegin (l : Lists) (k : Key) : Option Nat := (mapFind l.map k).map fun _ => 0

/-- `assign_items_end`, track_job_base.cpp:1081-1091 -/
def Lists.itemsEnd (l : Lists) (k : Key) : Option Nat := (mapFind l.map k).map fun _ => 0

/-- `assign_item_dest_src_begin`, track_job_base.cpp:1093-1097: position in the vector of keys -/
def Lists.keysBegin (_ : Lists) : Nat := 0

/-- `assign_item_dest_src_end`, track_job_base.cpp:1099-1111 -/
def Lists.keysEnd (l : Lists) : Nat := if l.keys = [] then l.keysBegin + l.map.length else l.keysBegin

/-- `is_buffer_by_buffer_id`, track_job_base.cpp:1050-1060; the five buffers of a job have the ids 1 to 5
(control/definitions.h:138-156). -/
def isBuffer (i : Nat) : Bool := (1 ≤ i && i ≤ 5) || (MIN_USER_ID ≤ i && i ≤ MAX_USER_ID)

/-- `is_raw_memory_by_buffer_id`, track_job_base.cpp:1062-1067 -/
def isRawMemory (i : Nat) : Bool := i != ILLEGAL_ID && !isBuffer i

/-- `buffer_by_buffer_id`, track_job_base.cpp:992-1048; `bufs` gives the buffers the job has. -/
def bufferById (bufs : Nat → Option Buf) (i : Nat) : Option Buf := if isBuffer i then bufs i else none

/-- `do_perform_address_assignments`, track_job_base.cpp:3047-3091 -/
def Lists.perform (bufs : Nat → Option Buf) (l : Lists) (k : Key) (m : Mem) : Res (Mem × Bool) :=
  match mapFind l.map k, bufferById bufs k.dest, bufferById bufs k.src with
  | some b, some d, some s => kernel ⟨d, k.dest, s, k.src⟩ (b.items.map some) 1 0 m true
  | _, _, _ => .ok (m, false)

/-- The loop in `assign_all_addresses`, track_job_base.cpp:1175-1179 -/
def Lists.performAll (bufs : Nat → Option Buf) (l : Lists) : List Key → Mem → Res (Mem × Bool)
  | [], m => .ok (m, true)
  | k :: rest, m => do
    let (m', ok) ← l.perform bufs k m
    if ok then l.performAll bufs rest m' else .ok (m', false)

/-- `assign_all_addresses`, track_job_base.cpp:1168-1182 -/
def Lists.assignAll (bufs : Nat → Option Buf) (l : Lists) (m : Mem) : Res (Mem × Bool) :=
  l.performAll bufs (l.map.map Prod.fst) m

/-- `clear` of the older job, internal/track_job_base.cpp:96-99 and `doClearBaseImpl`, 3198-3243, which does
not mention the vector of keys. -/
def Lists.clearOld (l : Lists) : Lists := ⟨[], l.keys⟩

/-- The copy constructor of the older job, internal/track_job_base.cpp:1548-1604: the vector of keys is not in
the list of initialisers. -/
def Lists.copyOld (l : Lists) : Lists := ⟨l.map, []⟩

/-- What a program may do with the lists of a job. -/
inductive Op
  | add (it : Item)
  | remove (it : Item)
  | removeAt (k : Key) (i : Nat)
  deriving DecidableEq, Repr

/-- One operation -/
def Lists.step (r : Nat) (l : Lists) : Op → Res Lists
  | .add it => do
    let (l', _) ← l.addItem r it
    .ok l'
  | .remove it => do
    let (l', _) ← l.remove it
    .ok l'
  | .removeAt k i => do
    let (l', _) ← l.removeAt k i
    .ok l'

/-- Several operations -/
def Lists.run (r : Nat) (l : Lists) : List Op → Res Lists
  | [] => .ok l
  | o :: rest => do
    let l' ← l.step r o
    l'.run r rest

end SixTrack.AssignList
