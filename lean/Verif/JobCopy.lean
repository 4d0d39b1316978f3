import Verif.BufferStore

/-!
# Copying, moving and destroying track jobs

Model of the copy and move operations of `TrackJobBaseNew`
(`/repo/sixtracklib/common/track/track_job_base.cpp`, lines 1779-2153 and 3454-3521) and of `TrackJobBase`
(`/repo/sixtracklib/common/internal/track_job_base.cpp`, lines 1548-1840 and 3198-3243).  Line numbers without a
file are those of the first file; those of the second one are marked `old`.

* Buffers are numbered; the heap has the contents of those that exist.  Reading, writing or deleting one that does
  not exist is undefined.  A C++ buffer is derived from the C buffer, so that one number stands for both pointers.
* Of the contents of a buffer the capacity, the capacity for its maxima and the objects (as numbers) are kept.
  `Buffer( Buffer const& )` (buffer.hpp:574-605) copies all of them; that remapping a copy works is proved for
  `Verif/Buffer`.  Allocation does not fail.
* The maps and lists of address assignments are values; they are lists of numbers here.
* A container or string which has been moved from is empty (as in libstdc++).
-/

namespace SixTrack.JobCopy
open SixTrack.BStore (Store)

/-- The contents of a buffer: its capacity, the capacity a buffer gets when room is reserved for the maxima of this
one, and its objects. -/
structure Buf where
  cap : Nat
  need : Nat
  objs : List Nat
  deriving DecidableEq, Repr

/-- `Buffer()` (buffer.hpp:41, 68) -/
def Buf.new : Buf := ⟨256, 128, []⟩

/-- `clear( true )` and `reset()` (buffer.h:1010-1015): no objects and no room for any. -/
def Buf.reset (b : Buf) : Buf := { b with need := 128, objs := [] }

/-- `deepCopyFrom` (buffer.hpp:660-706) for a buffer which may be modified and resized; the result does not matter
to the callers. -/
def Buf.deepCopyFrom (b src : Buf) : Buf :=
  if 0 < src.cap then
    let cap := if b.cap < src.cap then max b.cap src.need else b.cap
    if src.cap ≤ cap then ⟨cap, src.need, src.objs⟩
    else ⟨cap, if b.cap < src.cap then src.need else b.need, []⟩
  else b

/-- The buffers of the program; `next` is the first number which has not been used. -/
structure Heap where
  next : Nat
  at_ : Nat → Option Buf

/-- `new` -/
def Heap.new (h : Heap) (b : Buf) : Heap :=
  ⟨h.next + 1, fun p => if p = h.next then some b else h.at_ p⟩

def Heap.get (h : Heap) (p : Nat) : Res Buf :=
  match h.at_ p with
  | some b => .ok b
  | none => .ub

def Heap.set (h : Heap) (p : Nat) (b : Buf) : Res Heap :=
  match h.at_ p with
  | some _ => .ok { h with at_ := fun q => if q = p then some b else h.at_ q }
  | none => .ub

/-- `delete` of one buffer -/
def Heap.free (h : Heap) (p : Nat) : Res Heap :=
  match h.at_ p with
  | some _ => .ok { h with at_ := fun q => if q = p then none else h.at_ q }
  | none => .ub

/-- `delete` of what several `unique_ptr`s hold -/
def Heap.freeAll (h : Heap) : List Nat → Res Heap
  | [] => .ok h
  | p :: ps => do
    let h ← h.free p
    h.freeAll ps

/-- `new Buffer( *p )` for a pointer which may be null: `COPY_PTR_BUFFER` (track_job_base.hpp:1467-1480; old: 61-74)
for a pointer which holds nothing before. -/
def Heap.copy (h : Heap) : Option Nat → Res (Heap × Option Nat)
  | none => .ok (h, none)
  | some p => do
    let b ← h.get p
    return (h.new b, some h.next)

/-- `COPY_PTR_BUFFER` for a pointer which holds `old`. -/
def Heap.copyOnto (h : Heap) (old src : Option Nat) : Res (Heap × Option Nat) := do
  let (h, p) ← h.copy src
  let h ← h.freeAll old.toList
  return (h, p)

/-- `TrackJobBufferStore( TrackJobBufferStore const& )` (track_job_buffer_store.cpp:84-104) -/
def copyStore (h : Heap) (s : Store) : Res (Heap × Store) :=
  if s.ownsBuffer then do
    let (h, p) ← h.copy s.own
    return (h, ⟨p, p, p⟩)
  else .ok (h, ⟨s.cxx, s.c99, none⟩)

/-- Copying a vector of them. -/
def copyStores (h : Heap) : List Store → Res (Heap × List Store)
  | [] => .ok (h, [])
  | s :: ss => do
    let (h, s') ← copyStore h s
    let (h, ss') ← copyStores h ss
    return (h, s' :: ss')

/-- `TrackJobBufferStore::operator=( TrackJobBufferStore const& )` (track_job_buffer_store.cpp:128-150) for two
different stores -/
def assignStore (h : Heap) (s r : Store) : Res (Heap × Store) :=
  if r.ownsBuffer then do
    let (h, p) ← h.copyOnto s.own r.own
    return (h, ⟨p, p, p⟩)
  else .ok (h, ⟨r.cxx, r.c99, s.own⟩)

/-- The buffers that stores own. -/
def ownedBy (ss : List Store) : List Nat := ss.filterMap (·.own)

/-- Assigning a vector of stores when there is enough capacity: stores which are there are assigned to, missing
ones are copied, and those too many are destroyed. -/
def assignStores (h : Heap) : List Store → List Store → Res (Heap × List Store)
  | ss, [] => do
    let h ← h.freeAll (ownedBy ss)
    return (h, [])
  | [], r :: rs => copyStores h (r :: rs)
  | s :: ss, r :: rs => do
    let (h, s') ← assignStore h s r
    let (h, ss') ← assignStores h ss rs
    return (h, s' :: ss')

/-- Assigning a vector of stores; when the capacity is too small, all are copied to new memory, and the old ones are
destroyed. -/
def assignVector (h : Heap) (cap : Nat) (ss rs : List Store) : Res (Heap × List Store) :=
  if cap < rs.length then do
    let (h, new) ← copyStores h rs
    let h ← h.freeAll (ownedBy ss)
    return (h, new)
  else assignStores h ss rs

/-- The members of `TrackJobBaseNew` (track_job_base.hpp:925-974) and of its base classes (control/arch_info.hpp:83-84,
control/arch_base.hpp:80, 156-157). -/
structure Job where
  archId : Nat
  archStr : String
  config : String
  debugReg : Nat
  debug : Bool
  items : List Nat
  setIdx : List Nat
  setBegin : List Int
  setEnd : List Int
  monIdx : List Nat
  stored : List Store
  keys : List Nat
  myOut : Option Nat
  myEbe : Option Nat
  myAddr : Option Nat
  pPart : Option Nat
  pElem : Option Nat
  pOut : Option Nat
  cPart : Option Nat
  cElem : Option Nat
  cOut : Option Nat
  monOff : Nat
  ebeOff : Nat
  numSets : Nat
  numElems : Nat
  ebeCfg : Nat
  numStored : Nat
  ebeOrder : Int
  numPart : Int
  numPartSets : Int
  minPart : Int
  maxPart : Int
  minElem : Int
  maxElem : Int
  minTurn : Int
  maxTurn : Int
  untilTurn : Int
  collect : Nat
  clearReset : Nat
  clearAll : Nat
  rolling : Bool
  hasMon : Bool
  hasEbe : Bool
  hasAddr : Bool
  reqCollect : Bool
  usesCtl : Bool
  usesArgs : Bool
  deriving DecidableEq

/-- A new job (1732-1777); its two buffers are the next two. -/
def Job.new (h : Heap) (archId : Nat) (archStr config : String) : Heap × Job :=
  ((h.new Buf.new).new Buf.new,
    { archId, archStr, config, debugReg := 0, debug := false
      items := [], setIdx := [0], setBegin := [0], setEnd := [0], monIdx := [], stored := [], keys := []
      myOut := none, myEbe := some h.next, myAddr := some (h.next + 1)
      pPart := none, pElem := none, pOut := none, cPart := none, cElem := none, cOut := none
      monOff := 0, ebeOff := 0, numSets := 0, numElems := 0, ebeCfg := 0, numStored := 0
      ebeOrder := 0, numPart := 0, numPartSets := 0
      minPart := 0, maxPart := 0, minElem := 0, maxElem := 0, minTurn := 0, maxTurn := 0, untilTurn := 0
      collect := 5, clearReset := 0x07, clearAll := 0x1f
      rolling := true, hasMon := false, hasEbe := false, hasAddr := false
      reqCollect := true, usesCtl := false, usesArgs := false })

/-- `hasOutputBuffer` (1331-1334) -/
def Job.hasOut (j : Job) : Bool := j.cOut.isSome

/-- `ownsOutputBuffer` (1336-1346) -/
def Job.ownsOut (j : Job) : Bool := j.pOut.isSome && j.myOut.isSome

/-- The buffers which the destructor deletes. -/
def Job.owned (j : Job) : List Nat :=
  j.myOut.toList ++ j.myEbe.toList ++ j.myAddr.toList ++ ownedBy j.stored

/-- `~TrackJobBaseNew() = default` (track_job_base.hpp:171) -/
def Job.destroy (h : Heap) (j : Job) : Res Heap := h.freeAll j.owned

/-- The output buffer of a copy (1824-1838): what it owns, and the pointers. -/
def copyOut (h : Heap) (o : Job) : Res (Heap × Option Nat × Option Nat × Option Nat) :=
  if o.ownsOut then do
    let (h, p) ← h.copy o.pOut
    return (h, p, p, p)
  else if o.hasOut then .ok (h, none, o.pOut, o.cOut)
  else .ok (h, none, none, none)

/-- `TrackJobBaseNew( TrackJobBaseNew const& )` (1779-1845) -/
def Job.copyNew (h : Heap) (o : Job) : Res (Heap × Job) := do
  let (h, stored) ← copyStores h o.stored
  let (h, myOut, pOut, cOut) ← copyOut h o
  let (h, myEbe) ← h.copy o.myEbe
  let (h, myAddr) ← h.copy o.myAddr
  return (h,
    { archId := o.archId, archStr := o.archStr, config := o.config, debugReg := o.debugReg, debug := o.debug
      items := o.items, setIdx := o.setIdx, setBegin := o.setBegin, setEnd := o.setEnd, monIdx := o.monIdx
      stored, keys := o.keys, myOut, myEbe, myAddr
      pPart := o.pPart, pElem := o.pElem, pOut, cPart := o.cPart, cElem := o.cElem, cOut
      monOff := o.monOff, ebeOff := o.ebeOff, numSets := o.numSets, numElems := o.numElems
      ebeCfg := o.ebeCfg, numStored := o.numStored
      ebeOrder := o.ebeOrder, numPart := o.numPart, numPartSets := o.numPartSets
      minPart := o.minPart, maxPart := o.maxPart, minElem := o.minElem, maxElem := o.maxElem
      minTurn := o.minTurn, maxTurn := o.maxTurn, untilTurn := o.untilTurn
      collect := o.collect, clearReset := o.clearReset, clearAll := o.clearAll
      rolling := o.rolling, hasMon := o.hasMon, hasEbe := o.hasEbe, hasAddr := o.hasAddr
      reqCollect := o.reqCollect, usesCtl := o.usesCtl, usesArgs := o.usesArgs })

/-- The smallest and the largest `particle_index_t` (particles.h:2189-2190) -/
def MIN_VALUE : Int := -2 ^ 63
def MAX_VALUE : Int := 2 ^ 63 - 1

/-- Clearing and resetting the buffer of a `unique_ptr`, if there is one (3463-3467). -/
def Heap.resetAt (h : Heap) : Option Nat → Res Heap
  | none => .ok h
  | some p => do
    let b ← h.get p
    h.set p b.reset

/-- `doClearParticlesStructuresBaseImpl` (3454-3483) -/
def Job.clearParticles (h : Heap) (j : Job) : Res (Heap × Job) := do
  let h ← h.resetAt j.myAddr
  return (h, { j with
    pPart := none, cPart := none, numPart := 0, numPartSets := 0, numSets := 0
    setIdx := [0], setBegin := [0], setEnd := [0]
    minPart := MAX_VALUE, maxPart := MIN_VALUE, minElem := MAX_VALUE, maxElem := MIN_VALUE
    minTurn := MAX_VALUE, maxTurn := MIN_VALUE, hasAddr := false })

/-- `doClearBeamElementsStructuresBaseImpl` (3485-3494) -/
def Job.clearElements (j : Job) : Job := { j with pElem := none, cElem := none, monIdx := [], numElems := 0 }

/-- `doClearOutputStructuresBaseImpl` (3496-3521): the element-by-element buffer is used without a test
(3509-3510; the assertion before it is switched off or stops the program). -/
def Job.clearOutput (h : Heap) (j : Job) : Res (Heap × Job) :=
  match j.myEbe with
  | none => .ub
  | some e => do
    let h ← h.resetAt (some e)
    let h ← h.freeAll j.myOut.toList
    return (h, { j with
      pOut := none, cOut := none, hasMon := false, hasEbe := false, monOff := 0, ebeOff := 0, untilTurn := 0
      ebeCfg := 0, myOut := none, ebeOrder := 0, rolling := true })

/-- What moving from a job leaves there before anything is cleared: containers, strings and `unique_ptr`s are
empty, all other members as before. -/
def Job.movedFrom (o : Job) : Job :=
  { o with
    archStr := "", config := "", items := [], setIdx := [], setBegin := [], setEnd := [], monIdx := []
    stored := [], keys := [], myOut := none, myEbe := none, myAddr := none }

/-- Clearing the job that has been moved from (1908-1911, 2146-2148). -/
def Job.clearMoved (h : Heap) (o : Job) : Res (Heap × Job) := do
  let (h, o) ← o.clearParticles h
  o.clearElements.clearOutput h

/-- `TrackJobBaseNew( TrackJobBaseNew && )` (1847-1912): the new job, and what is left of the old one. -/
def Job.moveNew (h : Heap) (o : Job) : Res (Heap × Job × Job) := do
  let (h, left) ← o.movedFrom.clearMoved h
  return (h, o, left)

/-- The output buffer in a copy assignment (1934-1965); `deepCopyFrom` does nothing for a null
pointer, and the last case of the first branch does not happen. -/
def assignOut (h : Heap) (t r : Job) : Res (Heap × Job) :=
  if r.ownsOut then
    if t.ownsOut then
      match t.myOut, r.cOut with
      | some m, some c => do
        let src ← h.get c
        let dst ← h.get m
        let h ← h.set m (dst.deepCopyFrom src)
        return (h, { t with pOut := some m, cOut := some m })
      | some m, none => .ok (h, { t with pOut := some m, cOut := some m })
      | none, _ => .ub
    else .ok (h, { t with pOut := r.pOut, cOut := r.cOut })
  else if r.hasOut then
    if t.ownsOut then do
      let h ← h.freeAll t.myOut.toList
      return (h, { t with myOut := none, pOut := r.pOut, cOut := r.cOut })
    else .ok (h, { t with pOut := r.pOut, cOut := r.cOut })
  else .ok (h, t)

/-- The buffer of particle addresses in a copy assignment (1967-1977). -/
def assignAddr (h : Heap) (t r : Job) : Res (Heap × Job) := do
  let (h, p) ← (match r.myAddr with
    | some a => h.copy (some a)
    | none => .ok (h.new Buf.new, some h.next))
  let h ← h.freeAll t.myAddr.toList
  return (h, { t with myAddr := p })

/-- The other members in a copy assignment (1918-1931, 1979-2032); `m_assign_address_items`, `m_stored_buffers`,
`m_assign_item_keys` and `m_my_elem_by_elem_buffer` are not assigned. -/
def assignPlain (t r : Job) : Job :=
  { t with
    archId := r.archId, archStr := r.archStr, config := r.config, debugReg := r.debugReg, debug := r.debug
    setIdx := r.setIdx, setBegin := r.setBegin, setEnd := r.setEnd, monIdx := r.monIdx
    pPart := r.pPart, pElem := r.pElem, cPart := r.cPart, cElem := r.cElem
    monOff := r.monOff, ebeOff := r.ebeOff, numSets := r.numSets, numElems := r.numElems
    ebeCfg := r.ebeCfg, numStored := r.numStored
    ebeOrder := r.ebeOrder, numPart := r.numPart, numPartSets := r.numPartSets
    minPart := r.minPart, maxPart := r.maxPart, minElem := r.minElem, maxElem := r.maxElem
    minTurn := r.minTurn, maxTurn := r.maxTurn, untilTurn := r.untilTurn
    collect := r.collect, clearReset := r.clearReset, clearAll := r.clearAll
    rolling := r.rolling, hasMon := r.hasMon, hasEbe := r.hasEbe, hasAddr := r.hasAddr
    reqCollect := r.reqCollect, usesCtl := r.usesCtl, usesArgs := r.usesArgs }

/-- `operator=( TrackJobBaseNew const& )` (1914-2036) for two different jobs; `isArchCompatibleWith` is
arch_info.cpp:47-63. -/
def Job.copyAssign (h : Heap) (t r : Job) : Res (Heap × Job) :=
  if t.archId = r.archId then do
    let (h, t) ← assignOut h t r
    let (h, t) ← assignAddr h t r
    return (h, assignPlain t r)
  else .ok (h, t)

/-- `operator=( TrackJobBaseNew && )` (2038-2153) for two different jobs: the target, and what is left of the other
one.  `m_num_stored_buffers` and `m_ptr_c_output_buffer` are not assigned. -/
def Job.moveAssign (h : Heap) (t r : Job) : Res (Heap × Job × Job) := do
  let h ← h.freeAll t.owned
  let (h, left) ← r.movedFrom.clearMoved h
  return (h, { r with numStored := t.numStored, cOut := t.cOut }, left)

/-! ## The job of `common/internal` -/

/-- The members of `TrackJobBase` (internal/track_job_base.h:826-873); `storedCap` is the capacity of
`m_stored_buffers`, and `hasAddr` is `none` if `m_has_particle_addresses` has not been initialised. -/
structure Old where
  typeStr : String
  deviceId : String
  config : String
  items : List Nat
  setIdx : List Nat
  numInSets : List Nat
  monIdx : List Nat
  stored : List Store
  storedCap : Nat
  keys : List Nat
  myOut : Option Nat
  myEbe : Option Nat
  myAddr : Option Nat
  pPart : Option Nat
  pElem : Option Nat
  pOut : Option Nat
  cPart : Option Nat
  cElem : Option Nat
  cOut : Option Nat
  monOff : Nat
  ebeOff : Nat
  total : Nat
  numStored : Nat
  typeId : Nat
  ebeOrder : Int
  minPart : Int
  maxPart : Int
  minElem : Int
  maxElem : Int
  minTurn : Int
  maxTurn : Int
  untilTurn : Int
  collect : Nat
  reqCollect : Bool
  rolling : Bool
  hasMon : Bool
  hasEbe : Bool
  hasAddr : Option Bool
  debug : Bool
  deriving DecidableEq

/-- A new job (old: 1500-1546). -/
def Old.new (typeStr : String) (typeId : Nat) : Old :=
  { typeStr, deviceId := "", config := "", items := [], setIdx := [0], numInSets := [0], monIdx := []
    stored := [], storedCap := 0, keys := [], myOut := none, myEbe := none, myAddr := none
    pPart := none, pElem := none, pOut := none, cPart := none, cElem := none, cOut := none
    monOff := 0, ebeOff := 0, total := 0, numStored := 0, typeId, ebeOrder := 0
    minPart := 0, maxPart := 0, minElem := 0, maxElem := 0, minTurn := 0, maxTurn := 0, untilTurn := 0
    collect := 5, reqCollect := true, rolling := true, hasMon := false, hasEbe := false
    hasAddr := some false, debug := false }

/-- `hasOutputBuffer` (old: 1270-1273) -/
def Old.hasOut (j : Old) : Bool := j.cOut.isSome

/-- `ownsOutputBuffer` (old: 1275-1286) -/
def Old.ownsOut (j : Old) : Bool := j.pOut.isSome && j.myOut.isSome

/-- `hasParticleAddresses` -/
def Old.hasAddresses (j : Old) : Res Bool :=
  match j.hasAddr with
  | some b => .ok b
  | none => .ub

/-- The buffers which the destructor deletes. -/
def Old.owned (j : Old) : List Nat :=
  j.myOut.toList ++ j.myEbe.toList ++ j.myAddr.toList ++ ownedBy j.stored

def Old.destroy (h : Heap) (j : Old) : Res Heap := h.freeAll j.owned

/-- The output buffer of a copy (old: 1586-1597). -/
def copyOutOld (h : Heap) (o : Old) : Res (Heap × Option Nat) :=
  if o.ownsOut then h.copy o.myOut else .ok (h, none)

/-- `TrackJobBase( TrackJobBase const& )` (old: 1548-1604).  `m_device_id_str` is a copy of `m_type_str`;
`m_assign_item_keys` is not mentioned, and `m_has_particle_addresses` is not initialised. -/
def Old.copyNew (h : Heap) (o : Old) : Res (Heap × Old) := do
  let (h, stored) ← copyStores h o.stored
  let (h, myOut) ← copyOutOld h o
  let (h, myEbe) ← h.copy o.myEbe
  let (h, myAddr) ← h.copy o.myAddr
  return (h,
    { typeStr := o.typeStr, deviceId := o.typeStr, config := o.config
      items := o.items, setIdx := o.setIdx, numInSets := o.numInSets, monIdx := o.monIdx
      stored, storedCap := stored.length, keys := [], myOut, myEbe, myAddr
      pPart := o.pPart, pElem := o.pElem, pOut := myOut, cPart := o.cPart, cElem := o.cElem, cOut := myOut
      monOff := o.monOff, ebeOff := o.ebeOff, total := o.total, numStored := o.numStored, typeId := o.typeId
      ebeOrder := o.ebeOrder, minPart := o.minPart, maxPart := o.maxPart, minElem := o.minElem
      maxElem := o.maxElem, minTurn := o.minTurn, maxTurn := o.maxTurn, untilTurn := o.untilTurn
      collect := o.collect, reqCollect := o.reqCollect, rolling := o.rolling
      hasMon := o.hasMon, hasEbe := o.hasEbe, hasAddr := none, debug := o.debug })

/-- The members after `doClearBaseImpl` (old: 3198-3243).  `m_assign_item_keys`, `m_total_num_particles_in_sets`,
`m_type_id`, `m_collect_flags`, `m_requires_collect` and `m_debug_mode` stay as they are. -/
def Old.cleared (j : Old) : Old :=
  { j with
    setIdx := [0], numInSets := [0], monIdx := [], myOut := none, stored := [], items := []
    myEbe := none, myAddr := none
    pPart := none, pElem := none, pOut := none, cPart := none, cElem := none, cOut := none
    monOff := 0, ebeOff := 0, ebeOrder := 0, numStored := 0
    minPart := MAX_VALUE, maxPart := MIN_VALUE, minElem := MAX_VALUE, maxElem := MIN_VALUE
    minTurn := MAX_VALUE, maxTurn := MIN_VALUE, untilTurn := 0
    rolling := true, hasMon := false, hasEbe := false, hasAddr := some false }

/-- `doClearBaseImpl` (old: 3198-3243) -/
def Old.clear (h : Heap) (j : Old) : Res (Heap × Old) := do
  let h ← h.freeAll j.owned
  return (h, j.cleared)

/-- What moving from a job leaves there before `doClearBaseImpl`; the keys are not moved. -/
def Old.movedFrom (o : Old) : Old :=
  { o with
    typeStr := "", deviceId := "", config := "", items := [], setIdx := [], numInSets := [], monIdx := []
    stored := [], storedCap := 0, myOut := none, myEbe := none, myAddr := none }

/-- `TrackJobBase( TrackJobBase && )` (old: 1606-1656): the new job, and what is left of the old one.
`m_device_id_str` is made of `m_type_str`, which has been moved from by then (old: 1608-1609).  Reading a flag which
has not been initialised is undefined. -/
def Old.moveNew (h : Heap) (o : Old) : Res (Heap × Old × Old) := do
  let flag ← o.hasAddresses
  let (h, left) ← o.movedFrom.clear h
  return (h, { o with deviceId := "", keys := [], hasAddr := some flag }, left)

/-- The output buffer in a copy assignment (old: 1705-1720). -/
def assignOutOld (h : Heap) (t r : Old) : Res (Heap × Old) :=
  if r.ownsOut then do
    let (h, p) ← h.copyOnto t.myOut r.myOut
    return (h, { t with myOut := p, pOut := p, cOut := if p.isSome then p else t.cOut })
  else .ok (h, { t with pOut := r.pOut, cOut := r.cOut })

/-- The plain members in a copy assignment (old: 1663-1702, 1728); `m_assign_item_keys` and
`m_has_particle_addresses` are not assigned. -/
def assignPlainOld (t r : Old) : Old :=
  { t with
    typeStr := r.typeStr, deviceId := r.typeStr, config := r.config
    setIdx := r.setIdx, numInSets := r.numInSets, monIdx := r.monIdx
    pPart := r.pPart, pElem := r.pElem, cPart := r.cPart, cElem := r.cElem
    monOff := r.monOff, ebeOff := r.ebeOff, total := r.total, numStored := r.numStored
    ebeOrder := r.ebeOrder, typeId := r.typeId
    minPart := r.minPart, maxPart := r.maxPart, minElem := r.minElem, maxElem := r.maxElem
    minTurn := r.minTurn, maxTurn := r.maxTurn, untilTurn := r.untilTurn
    rolling := r.rolling, hasMon := r.hasMon, hasEbe := r.hasEbe, reqCollect := r.reqCollect
    collect := r.collect, items := r.items, debug := r.debug }

/-- `operator=( TrackJobBase const& )` (old: 1658-1735) for two different jobs. -/
def Old.copyAssign (h : Heap) (t r : Old) : Res (Heap × Old) := do
  let (h, stored) ← assignVector h t.storedCap t.stored r.stored
  let (h, t') ← assignOutOld h (assignPlainOld t r) r
  let (h, myEbe) ← h.copyOnto t.myEbe r.myEbe
  let (h, myAddr) ← h.copyOnto t.myAddr r.myAddr
  return (h, { t' with stored, storedCap := max t.storedCap r.stored.length, myEbe, myAddr })

/-- `operator=( TrackJobBase && )` (old: 1737-1840) for two different jobs: the target, and what is left of the
other one. -/
def Old.moveAssign (h : Heap) (t r : Old) : Res (Heap × Old × Old) := do
  let flag ← r.hasAddresses
  let h ← h.freeAll t.owned
  let (h, left) ← ({ r.movedFrom with typeId := 0 } : Old).clear h
  return (h, { r with deviceId := "", keys := t.keys, hasAddr := some flag }, left)

end SixTrack.JobCopy
