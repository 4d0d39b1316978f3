import Verif.Buffer.Generic

/-!
# String objects

Model of `/repo/sixtracklib/common/buffer/buffer_string_object.h`, line numbers below refer to it.
A string object is a handle of three 64-bit words (lines 24-30: `begin_addr`, `length`, `capacity`)
with one attribute, the characters.  The assertions (`SIXTRL_ASSERT`, nothing with `NDEBUG`) are left
out, except for the one in `NS(BufferStringObj_get_length)`, see `lengthAssertion`.
-/

namespace SixTrack.Buf.Str

/-- `strlen`: reads up to and including the first zero.  A string is shorter than the address space,
which bounds the number of steps; running out of it cannot happen for a string in memory. -/
def strlenLoop (m : Mem) (a : Nat) : Nat → Res Nat
  | 0 => .ub
  | n + 1 =>
    if m.valid a 1 then
      if m.byte a = 0 then .ok 0
      else do
        let l ← strlenLoop m (a + 1) n
        return l + 1
    else .ub

/-- `NS(BufferStringObj_get_cstring_length)` (lines 332-353). -/
def cstringLength (m : Mem) (a : Nat) : Res Nat := if a ≠ 0 then strlenLoop m a W else .ok 0

/-- The loop of `NS(BufferStringObj_get_cstring_length_reverse)` (lines 368-372); the argument is
`current_length`. -/
def reverseLoop (m : Mem) (a : Nat) : Nat → Res Nat
  | 0 => .ok 0
  | n + 1 =>
    if m.valid (a + (n + 1)) 1 then
      if m.byte (a + (n + 1)) = 0 then reverseLoop m a n else .ok (n + 1)
    else .ub

/-- `NS(BufferStringObj_get_cstring_length_reverse)` (lines 355-378). -/
def cstringLengthReverse (m : Mem) (a capacity : Nat) : Res Nat :=
  if a ≠ 0 ∧ 0 < capacity then reverseLoop m a (capacity - 1) else .ok 0

/-- `NS(BufferStringObj_preset)` (lines 407-419). -/
def preset (m : Mem) (p : Nat) : Res Mem :=
  if p ≠ 0 then do
    let m ← m.store64 p 0
    let m ← m.store64 (p + 8) 0
    m.store64 (p + 16) 0
  else .ok m

/-- `NS(BufferStringObj_get_begin_addr)`, `NS(BufferStringObj_get_string)` (lines 421-445). -/
def text (m : Mem) (p : Nat) : Res Nat := m.load64 p

/-- `NS(BufferStringObj_get_capacity)` (lines 447-453). -/
def capacity (m : Mem) (p : Nat) : Res Nat := m.load64 (p + 16)

/-- `NS(BufferStringObj_get_length)` (lines 455-488). -/
def length (m : Mem) (p : Nat) : Res Nat := do
  let b ← text m p
  if 0 < b then do
    let l ← m.load64 (p + 8)
    let c ← m.load64 (p + 16)
    return if l < c then l else 0
  else return 0

/-- The condition which `NS(BufferStringObj_get_length)` asserts for a length smaller than the
capacity (lines 474-484). -/
def lengthAssertion (m : Mem) (p : Nat) : Res Bool := do
  let l ← m.load64 (p + 8)
  let b ← text m p
  if l < 1024 then do
    let n ← cstringLength m b
    return n = l
  else do
    let c ← capacity m p
    let n ← cstringLengthReverse m b c
    return n = l

/-- `NS(BufferStringObj_get_max_length)` (lines 490-508). -/
def maxLength (m : Mem) (p : Nat) : Res Nat := do
  let c ← capacity m p
  let b ← text m p
  return if 1 < c ∧ 0 < b then c - 1 else 0

/-- `NS(BufferStringObj_get_available_length)` (lines 510-529). -/
def availableLength (m : Mem) (p : Nat) : Res Nat := do
  let c ← capacity m p
  let l ← length m p
  let b ← text m p
  let requ := (l + 1) % W
  return if requ < c ∧ 0 < b then c - requ else 0

/-- `NS(BufferStringObj_set_length)` (lines 675-681). -/
def setLength (m : Mem) (p l : Nat) : Res Mem := m.store64 (p + 8) l

/-- `NS(BufferStringObj_set_capacity)` (lines 667-673). -/
def setCapacity (m : Mem) (p c : Nat) : Res Mem := m.store64 (p + 16) c

/-- `NS(BufferStringObj_clear)` (lines 531-551). -/
def clear (m : Mem) (p : Nat) : Res Mem := do
  let l ← length m p
  let c ← capacity m p
  let b ← text m p
  if 0 < b ∧ 0 < l ∧ l < c then do
    let m ← m.memzero b l
    setLength m p 0
  else return m

/-- `NS(BufferStringObj_sync_length)` (lines 553-573). -/
def syncLength (m : Mem) (p : Nat) : Res Mem := do
  let c ← capacity m p
  let b ← text m p
  if b ≠ 0 ∧ 0 < c then do
    let l ← cstringLength m b
    if l < c then setLength m p l else return m
  else return m

/-- Copying `k` characters, if there are any (lines 597-601, 641-645). -/
def copyChars (m : Mem) (d src k : Nat) : Res Mem := if 0 < k then m.memcpy d src k else .ok m

/-- `NS(BufferStringObj_assign_cstring)` (lines 575-612); returns the address of the stored
characters, or 0. -/
def assign (m : Mem) (p src : Nat) : Res (Mem × Nat) := do
  let b ← text m p
  let c ← capacity m p
  if src ≠ 0 ∧ b ≠ 0 ∧ 1 < c then do
    let l ← cstringLength m src
    if l < c then do
      let m ← copyChars m b src l
      let m ← m.memzero (b + l) (c - l)
      let m ← setLength m p l
      return (m, b)
    else return (m, 0)
  else return (m, 0)

/-- `NS(BufferStringObj_append_cstring)` (lines 614-656). -/
def append (m : Mem) (p src : Nat) : Res (Mem × Nat) := do
  let b ← text m p
  let c ← capacity m p
  let l ← length m p
  if src ≠ 0 ∧ b ≠ 0 ∧ l < c then do
    let k ← cstringLength m src
    let n := (l + k) % W
    if n < c then do
      let m ← copyChars m (b + l) src k
      let m ← m.memzero (b + n) (c - n)
      let m ← setLength m p n
      return (m, b)
    else return (m, 0)
  else return (m, 0)

/-! ## Strings in buffers -/

/-- `NS(BufferStringObj_get_required_num_slots)` (lines 715-733, 746-752). -/
def requiredNumSlots (maxLen slot : Nat) : Nat :=
  let c := (maxLen + 1) % W
  let requ := (roundUp 24 slot + roundUp c slot) % W
  if 0 < slot then requ / slot else 0

/-- `NS(BufferStringObj_get_required_num_dataptrs)` (lines 735-743, 754-761). -/
def requiredNumDataptrs (slot : Nat) : Nat := if 0 < slot then 1 else 0

/-- The attributes: as many of the entries as there are data pointers. -/
def attrs (c slot : Nat) : List AttrSpec := List.take (requiredNumDataptrs slot) [⟨0, 1, c⟩]

/-- `NS(BufferStringObj_can_be_added)` (lines 763-782). -/
def canBeAdded (s : St) (maxLen : Nat) : Res (Bool × Nat × Nat × Nat) :=
  canAddObject s 24 ((attrs ((maxLen + 1) % W) s.buf.slot).map fun a => (a.size, a.count))

/-- `NS(Object_get_begin_addr)` (buffer/buffer_object.h:134-153). -/
def beginAddr (m : Mem) (r : Nat) : Res Nat := if r = 0 then .ok 0 else m.load64 r

/-- A local variable at `tmp` is filled and added as an object of type `NS(OBJECT_TYPE_CSTRING)`
(65538, internal/objects_type_id.h:48). -/
def addLocal (malloc : Nat → Nat) (s : St) (tmp b l c : Nat) : Res (St × Nat) := do
  let m ← s.mem.store64 tmp b
  let m ← m.store64 (tmp + 8) l
  let m ← m.store64 (tmp + 16) c
  let (s, r) ← addObject malloc { s with mem := m } tmp 24 65538 (attrs c s.buf.slot)
  let q ← beginAddr s.mem r
  return (s, q)

/-- `NS(BufferStringObj_new)` (lines 784-812).  `tmp` is the address of the local variable. -/
def new (malloc : Nat → Nat) (s : St) (tmp maxLen : Nat) : Res (St × Nat) :=
  addLocal malloc s tmp 0 0 ((maxLen + 1) % W)

/-- `NS(BufferStringObj_add_detailed)` (lines 875-906). -/
def addDetailed (malloc : Nat → Nat) (s : St) (tmp b l c : Nat) : Res (St × Nat) :=
  addLocal malloc s tmp b l c

/-- Filling the new string at `q` with `l` characters (lines 838-850 and 867-870). -/
def fill (m : Mem) (q src l c : Nat) : Res Mem := do
  let out ← text m q
  let m ← m.memcpy out src l
  let m ← m.memzero (out + l) (c - l)
  let m ← setLength m q l
  setCapacity m q c

/-- The length of the characters which are given (lines 828-830, 915-916). -/
def inputLength (m : Mem) (src : Nat) : Res Nat := if src ≠ 0 then cstringLength m src else .ok 0

/-- `NS(BufferStringObj_add)` (lines 814-873). -/
def add (malloc : Nat → Nat) (s : St) (tmp src maxLen : Nat) : Res (St × Nat) := do
  let c := (maxLen + 1) % W
  let l ← inputLength s.mem src
  if src ≠ 0 ∧ 0 < l ∧ l ≤ c then do
    let (s, q) ← new malloc s tmp maxLen
    if q ≠ 0 then do
      let m ← fill s.mem q src l c
      return ({ s with mem := m }, q)
    else return (s, 0)
  else if 0 < c ∧ (src = 0 ∨ l = 0) then do
    let (s, q) ← new malloc s tmp maxLen
    if q ≠ 0 then do
      let out ← text s.mem q
      let m ← s.mem.memzero out c
      let m ← setCapacity m q c
      return ({ s with mem := m }, q)
    else return (s, 0)
  else return (s, 0)

/-- `NS(BufferStringObj_new_from_cstring)` (lines 908-919). -/
def newFromCstring (malloc : Nat → Nat) (s : St) (tmp src : Nat) : Res (St × Nat) := do
  let l ← inputLength s.mem src
  add malloc s tmp src l

/-- `NS(BufferStringObj_add_copy)` (lines 921-930). -/
def addCopy (malloc : Nat → Nat) (s : St) (tmp p : Nat) : Res (St × Nat) := do
  let b ← text s.mem p
  let c ← capacity s.mem p
  add malloc s tmp b c

end SixTrack.Buf.Str
