import Verif.Basic

/-!
# The arguments of a controller and the transfers to and from the device

Model of `/repo/sixtracklib/common/control/argument_base.cpp` (`ArgumentBase`),
`/repo/sixtracklib/common/control/controller_base.cpp` (`send`, `receive`, `remap` of
`ControllerBase`), `/repo/sixtracklib/cuda/control/argument.cpp` (`CudaArgument`) and the transfers
of `/repo/sixtracklib/cuda/control/controller.cpp` (`CudaController`).

An argument remembers where its data come from: a pointer to raw memory, a C buffer, or a C++ buffer
(which is a C buffer as well, `getCApiPtr`, buffer.hpp).  It has memory on the device.

Simplifications: the places of the host are separate from each other (no aliasing).  A buffer has no
data exactly if its capacity is zero.  What remapping does to the bytes of a buffer is a parameter
(`Fmt`); the slot size is the default one.  A kernel of the device that remaps leaves the bytes alone
if it fails.  All memory of the device starts at one address.  `cudaMemcpy` succeeds or fails as the
controller says and copies nothing if it fails.  The type of the controller and of the argument is
that of CUDA, so that the casts succeed and an argument needs memory on the device
(argument.cpp:29-34).
-/

namespace SixTrack.Arg

abbrev Bytes := List UInt8

/-- What remapping does to bytes that start with the image of a buffer: `base` is the address the
image was made for (its first word), `len` its length (the second word), `rebase` makes it one for
another address, or fails. -/
structure Fmt where
  base : Bytes → Nat
  len : Bytes → Nat
  rebase : Nat → Bytes → Option Bytes

/-- A place in the memory of the host: the data of the `i`-th buffer, or the `i`-th raw memory. -/
inductive Loc where
  | buf (i : Nat)
  | raw (i : Nat)
  deriving DecidableEq, Repr

/-- The memory of the host: the bytes at a place (as many as there is room for), its address, and the
member `data_size` of every buffer. -/
structure Host where
  mem : Loc → Bytes
  addr : Loc → Nat
  size : Nat → Nat

/-- These are the bytes at that place from now on. -/
def Host.put (h : Host) (l : Loc) (x : Bytes) : Host :=
  { h with mem := fun k => if k = l then x else h.mem k }

/-- This is the size of that buffer from now on. -/
def Host.setSize (h : Host) (i n : Nat) : Host :=
  { h with size := fun k => if k = i then n else h.size k }

/-- The flags of a controller (controller_base.hpp:317-326) and what its device does: whether copies
succeed, whether memory of a size can be had, what it contains then, and its address. -/
structure Ctl where
  readySend : Bool
  readyReceive : Bool
  /-- `readyForRemap`, controller_base.cpp:51-58 -/
  readyRemap : Bool
  debug : Bool
  copies : Bool
  alloc : Nat → Bool
  junk : Nat → UInt8
  devAddr : Nat

/-- The members of `ArgumentBase` (argument_base.hpp:190-200) and of `CudaArgument`. -/
structure Arg where
  /-- `m_ptr_raw_arg_begin` -/
  raw : Option Nat
  /-- `m_ptr_cobj_cxx_buffer` -/
  cxx : Option Nat
  /-- `m_ptr_cobj_c99_buffer` -/
  c99 : Option Nat
  /-- `m_ptr_base_controller` -/
  ctl : Option Ctl
  size : Nat
  cap : Nat
  /-- `m_has_arg_buffer` -/
  has : Bool
  /-- the memory of the device, `m_arg_buffer` -/
  dev : Option Bytes

/-- The constructor without data, argument_base.cpp:434-451 and argument.cpp:29-35. -/
def Arg.new (ctl : Option Ctl) : Arg := ⟨none, none, none, ctl, 0, 0, false, none⟩

/-- `doSetPtrCBuffer`, argument_base.cpp:572-597 -/
def Arg.setC (a : Arg) (p : Option Nat) : Arg :=
  { a with cxx := if a.cxx.isSome ∧ a.cxx ≠ p then none else a.cxx, c99 := p }

/-- `doSetBufferRef`, argument_base.cpp:550-565 -/
def Arg.setCxx (a : Arg) (i : Nat) : Arg := { a with c99 := some i, cxx := some i }

/-- `doDeleteCudaArgumentBuffer`, argument.cpp:212-227 -/
def Arg.delete (a : Arg) : Arg :=
  { a with dev := none, cap := 0, size := 0, cxx := none, c99 := none, raw := none }

/-- `doResetCudaArgumentBuffer` with new memory, argument.cpp:229-251 -/
def Arg.reset (a : Arg) (d : Bytes) : Arg :=
  let a := if a.dev.isSome then a.delete else a
  { a with dev := some d, cap := d.length }

/-- `doReserveArgumentBufferCudaBaseImpl`, argument.cpp:262-295, `CudaAllocArgBuffer` 299-320 -/
def Arg.reserve (a : Arg) (c : Ctl) (n : Nat) : Bool × Arg :=
  if a.cap < n then
    if c.alloc n then (true, { a.reset ((List.range n).map c.junk) with has := true })
    else (false, a)
  else (true, { a with has := true })

/-- The first bytes are overwritten; undefined behaviour if there is not so much room. -/
def overwrite (dest src : Bytes) : Res Bytes :=
  if src.length ≤ dest.length then .ok (src ++ dest.drop src.length) else .ub

/-- The first `n` bytes are read; undefined behaviour if there are not so many. -/
def readFirst (src : Bytes) (n : Nat) : Res Bytes :=
  if n ≤ src.length then .ok (src.take n) else .ub

/-- `CudaController::doSend` and `PerformSendOperation`, controller.cpp:874-906 and 1414-1439 -/
def doSend (c : Ctl) (a : Arg) (src : Bytes) (n : Nat) : Res (Bool × Arg) :=
  match a.has, a.dev with
  | true, some d =>
    if c.copies then do
      let x ← readFirst src n
      let d ← overwrite d x
      return (true, { a with dev := some d })
    else .ok (false, a)
  | _, _ => .ok (false, a)

/-- `doRemapCObjectsBufferArg` and `doRemapCObjectsBufferDirectly`, controller.cpp:978-1007 and
1044-1090: only in debug mode does the status tell whether the kernel was successful. -/
def doRemap (f : Fmt) (c : Ctl) (a : Arg) : Bool × Arg :=
  match a.c99, a.has, a.dev with
  | some _, true, some d =>
    if 0 < a.cap then
      match f.rebase c.devAddr d with
      | some d => (true, { a with dev := some d })
      | none => (!c.debug, a)
    else (false, a)
  | _, _, _ => (false, a)

/-- `ControllerBase::send` of a buffer, controller_base.cpp:81-143 -/
def ctlSendBuf (f : Fmt) (c : Ctl) (a : Arg) (h : Host) (i : Nat) (remap : Bool) : Res (Bool × Arg) :=
  if c.readySend ∧ c.readyRemap ∧ a.c99.isSome ∧ 0 < a.cap ∧ h.mem (.buf i) ≠ [] ∧ 0 < h.size i ∧
      h.size i ≤ a.cap then do
    let r ← doSend c a (h.mem (.buf i)) (h.size i)
    if r.1 ∧ remap then return doRemap f c r.2 else return r
  else .ok (false, a)

/-- `ControllerBase::send` of raw memory, controller_base.cpp:60-79 -/
def ctlSendRaw (c : Ctl) (a : Arg) (h : Host) (p : Nat) (n : Nat) : Res (Bool × Arg) :=
  if c.readySend ∧ c.readyRemap ∧ a.raw.isSome ∧ 0 < a.cap ∧ 0 < n ∧ n ≤ a.cap then
    doSend c a (h.mem (.raw p)) n
  else .ok (false, a)

/-- After a transfer the size of the argument is set, argument_base.cpp:98-107, 164-173, 232-244. -/
def Arg.sent (n : Nat) (r : Bool × Arg) : Bool × Arg :=
  if r.1 then (true, { r.2 with size := n }) else r

/-- More memory if the argument has too little: whether there is enough, the argument, and whether
there is new memory (argument_base.cpp:68-89, 135-156, 207-223). -/
def Arg.ensure (a : Arg) (c : Ctl) (n : Nat) : Bool × Arg × Bool :=
  if a.cap < n then ((a.reserve c n).1, (a.reserve c n).2, (a.reserve c n).1) else (true, a, false)

/-- The reference to a C++ buffer is set if there is new memory or if there is none yet,
argument_base.cpp:90-96. -/
def cxxTarget (r : Bool × Arg × Bool) (i : Nat) : Arg :=
  if r.2.2 ∨ r.2.1.cxx = none ∨ r.2.1.c99 = none then r.2.1.setCxx i else r.2.1

/-- `send` of a C++ buffer, argument_base.cpp:49-114 -/
def sendCxx (f : Fmt) (a : Arg) (h : Host) (i : Nat) (remap : Bool) : Res (Bool × Arg) :=
  match a.ctl with
  | none => .ok (false, a)
  | some c =>
    if (Arg.ensure { a with raw := none } c (h.size i)).1 then do
      let s ← ctlSendBuf f c (cxxTarget (Arg.ensure { a with raw := none } c (h.size i)) i) h i remap
      return Arg.sent (h.size i) s
    else .ok (false, (Arg.ensure { a with raw := none } c (h.size i)).2.1)

/-- The reference to a C buffer is set likewise, argument_base.cpp:157-162. -/
def cTarget (r : Bool × Arg × Bool) (i : Nat) : Arg :=
  if r.2.2 ∨ r.2.1.c99 = none then r.2.1.setC (some i) else r.2.1

/-- `send` of a C buffer, argument_base.cpp:116-181 -/
def sendC (f : Fmt) (a : Arg) (h : Host) (i : Nat) (remap : Bool) : Res (Bool × Arg) :=
  match a.ctl with
  | none => .ok (false, a)
  | some c =>
    if (Arg.ensure { a with raw := none } c (h.size i)).1 then do
      let s ← ctlSendBuf f c (cTarget (Arg.ensure { a with raw := none } c (h.size i)) i) h i remap
      return Arg.sent (h.size i) s
    else .ok (false, (Arg.ensure { a with raw := none } c (h.size i)).2.1)

/-- What the raw send does with the references to buffers, argument_base.cpp:198-205. -/
def Arg.dropBuffers (a : Arg) : Arg :=
  if a.cxx.isSome then { a with cxx := none }
  else if a.c99.isSome then a.setC none else a

/-- The raw pointer is set if there is new memory or if there is none yet, argument_base.cpp:225-230. -/
def rawTarget (r : Bool × Arg × Bool) (p : Nat) : Arg :=
  if r.2.2 ∨ r.2.1.raw = none then { r.2.1 with raw := some p } else r.2.1

/-- `send` of raw memory, argument_base.cpp:183-252 (`p` is not null) -/
def sendRaw (a : Arg) (h : Host) (p n : Nat) : Res (Bool × Arg) :=
  match a.ctl with
  | none => .ok (false, a)
  | some c =>
    if 0 < n then
      if (a.dropBuffers.ensure c n).1 then do
        let s ← ctlSendRaw c (rawTarget (a.dropBuffers.ensure c n) p) h p n
        return Arg.sent n s
      else .ok (false, (a.dropBuffers.ensure c n).2.1)
    else .ok (false, a)

/-- `send` of what the argument refers to, argument_base.cpp:26-47 -/
def send (f : Fmt) (a : Arg) (h : Host) (remap : Bool) : Res (Bool × Arg) :=
  match a.cxx, a.c99, a.raw with
  | some i, _, _ => sendCxx f a h i remap
  | none, some i, _ => sendC f a h i remap
  | none, none, some p => sendRaw a h p a.size
  | none, none, none => .ok (false, a)

/-- `CudaController::doReceive` and `PerformReceiveOperation`, controller.cpp:908-939 and 1441-1466:
the new bytes of the destination -/
def doReceive (c : Ctl) (a : Arg) (dest : Bytes) : Res (Bool × Bytes) :=
  match a.has, a.dev with
  | true, some d =>
    if c.copies then do
      let x ← readFirst d a.size
      let y ← overwrite dest x
      return (true, y)
    else .ok (false, dest)
  | _, _ => .ok (false, dest)

/-- `NS(Buffer_remap)`, buffer_generic.h:319-373, on the data of a buffer: nothing happens if the
image is for the address of the buffer already. -/
def hostRemap (f : Fmt) (h : Host) (i : Nat) : Bool × Host :=
  let x := h.mem (.buf i)
  if f.base x = h.addr (.buf i) then (true, h)
  else
    match f.rebase (h.addr (.buf i)) x with
    | some y => (true, (h.put (.buf i) y).setSize i (f.len y))
    | none => (false, h)

/-- `receive` into a buffer, argument_base.cpp:277-308 and controller_base.cpp:180-241 -/
def receiveBuf (f : Fmt) (a : Arg) (h : Host) (i : Nat) (remap : Bool) : Res (Bool × Host) :=
  match a.ctl with
  | none => .ok (false, h)
  | some c =>
    if a.c99.isSome ∧ c.readyReceive ∧ 0 < a.size ∧ a.size ≤ (h.mem (.buf i)).length ∧
        h.mem (.buf i) ≠ [] then do
      let r ← doReceive c a (h.mem (.buf i))
      if r.1 ∧ remap then return hostRemap f (h.put (.buf i) r.2) i
      else return (r.1, h.put (.buf i) r.2)
    else .ok (false, h)

/-- `receive` into raw memory whose capacity the caller states, argument_base.cpp:310-326 and
controller_base.cpp:145-178: the controller gets the size of the argument as the capacity, and it
remaps the raw memory if the argument refers to a buffer. -/
def receiveRaw (f : Fmt) (a : Arg) (h : Host) (p cap : Nat) : Res (Bool × Host) :=
  match a.ctl with
  | none => .ok (false, h)
  | some c =>
    if a.size ≤ cap ∧ c.readyReceive ∧ 0 < a.size then do
      let r ← doReceive c a (h.mem (.raw p))
      if r.1 ∧ a.c99.isSome then
        match f.rebase (h.addr (.raw p)) r.2 with
        | some y => return (true, h.put (.raw p) y)
        | none => return (false, h.put (.raw p) r.2)
      else return (r.1, h.put (.raw p) r.2)
    else .ok (false, h)

/-- `receive` into what the argument refers to, argument_base.cpp:254-275 -/
def receive (f : Fmt) (a : Arg) (h : Host) (remap : Bool) : Res (Bool × Host) :=
  match a.cxx, a.c99, a.raw with
  | some i, _, _ => receiveBuf f a h i remap
  | none, some i, _ => receiveBuf f a h i remap
  | none, none, some p => receiveRaw f a h p a.size
  | none, none, none => .ok (false, h)

/-! ## arguments that are made with data -/

/-- The constructor with a capacity, argument.cpp:128-135. -/
def Arg.newCap (c : Ctl) (n : Nat) : Arg := ((Arg.new (some c)).reserve c n).2

/-- The argument refers to a buffer and has its size, argument.cpp:77-81 and 120-124. -/
def Arg.refer (a : Arg) (h : Host) (i : Nat) (cxx : Bool) (d : Bytes) : Arg :=
  { a with dev := some d, size := h.size i, c99 := some i, cxx := if cxx then some i else none }

/-- The constructors with a buffer send and remap without asking for the flag and refer to the buffer
only if both succeed, argument.cpp:43-83 (C++ buffer) and 85-126 (C buffer). -/
def Arg.newBuf (f : Fmt) (c : Ctl) (h : Host) (i : Nat) (cxx : Bool) : Res (Bool × Arg) :=
  let a := Arg.newCap c (h.size i)
  match a.dev with
  | some d =>
    if 0 < h.size i ∧ h.size i ≤ a.cap ∧ c.readySend ∧ c.readyRemap ∧ h.mem (.buf i) ≠ [] ∧
        c.copies then do
      let x ← readFirst (h.mem (.buf i)) (h.size i)
      let d ← overwrite d x
      match f.rebase c.devAddr d with
      | some d => return (true, a.refer h i cxx d)
      | none => return (!c.debug, if c.debug then { a with dev := some d } else a.refer h i cxx d)
    else .ok (false, a)
  | none => .ok (false, a)

/-- The constructor with raw memory does not ask whether remapping is possible, argument.cpp:137-171. -/
def Arg.newRaw (c : Ctl) (h : Host) (p n : Nat) : Res (Bool × Arg) :=
  let a := Arg.newCap c n
  match a.dev with
  | some d =>
    if 0 < n ∧ c.readySend ∧ c.copies then do
      let x ← readFirst (h.mem (.raw p)) n
      let d ← overwrite d x
      return (true, { a with dev := some d, size := n, raw := some p })
    else .ok (false, a)
  | none => .ok (false, a)

/-! ## updating parts of an argument -/

/-- The place an argument refers to, argument_base.cpp:494-514. -/
def Arg.place (a : Arg) : Option Loc :=
  match a.cxx, a.c99, a.raw with
  | some i, _, _ => some (.buf i)
  | none, some i, _ => some (.buf i)
  | none, none, some p => some (.raw p)
  | none, none, none => none

/-- Bytes at an offset are overwritten; undefined behaviour if they do not fit. -/
def patch (dest : Bytes) (off : Nat) (v : Bytes) : Res Bytes :=
  if off + v.length ≤ dest.length then .ok (dest.take off ++ v ++ dest.drop (off + v.length)) else .ub

/-- A region: offset, number of bytes, and the new bytes, or null. -/
structure Region where
  off : Nat
  len : Nat
  val : Option Bytes
  deriving DecidableEq, Repr

/-- The loop of `doUpdateRegions`, argument_base.cpp:477-523.  The sum of the offset and the length
is one of unsigned 64-bit numbers. -/
def updateLoop (a : Arg) (h : Host) : List Region → Res (Bool × Host)
  | [] => .ok (true, h)
  | r :: rs =>
    match r.val with
    | none => .ok (false, h)
    | some v =>
      if r.len = 0 ∨ a.size < (r.off + r.len) % 2^64 then .ok (false, h)
      else
        match a.place with
        | none => .ok (false, h)
        | some l => do
          let x ← readFirst v r.len
          let y ← patch (h.mem l) r.off x
          updateLoop a (h.put l y) rs

/-- `doUpdateRegions`, argument_base.cpp:461-527 -/
def updateRegions (a : Arg) (h : Host) (rs : List Region) : Res (Bool × Host) :=
  if rs = [] then .ok (false, h) else updateLoop a h rs

end SixTrack.Arg
