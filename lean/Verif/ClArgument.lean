import Verif.Argument
import Verif.ClRun

/-!
# Arguments of OpenCL kernels

Model of `ClArgument`, `/repo/sixtracklib/opencl/internal/argument.cpp` (line numbers without a file) and
`/repo/sixtracklib/opencl/argument.h`, and of the kernels that remap buffers,
`/repo/sixtracklib/opencl/kernels/managed_buffer_remap.cl:14-27` and `managed_buffer_remap_debug.cl:16-47`.

* OpenCL buffers are numbered; `Sys` has their contents.  Whether transfers, allocations and launches succeed is a
  parameter (`Cl`).  The C++ bindings are those without exceptions.
* OpenCL refuses transfers without a buffer, without bytes or beyond the end of a buffer, and launches without work items
  or of a kernel that has arguments that have not been set.  A transfer or launch that fails does nothing.
* What remapping does to bytes is a parameter (`Fmt`, see `Verif/Argument.lean`); the memory of the host is that of
  `Verif/Argument.lean`.  A buffer has no data exactly if its capacity is zero.
* A remapping kernel with two arguments is the normal one, one with more is that for debugging, whose last argument is the
  third.  A kernel that cannot remap leaves the bytes alone.
* The queue of a context is a member, and so its address is not null; times are left out.
-/

namespace SixTrack.ClArg

open SixTrack.Arg (Bytes Fmt Host Loc hostRemap readFirst overwrite)
open SixTrack.ClContext

/-- The answers of OpenCL. -/
structure Cl where
  /-- transfers to and from the buffers of arguments -/
  writes : Bool
  reads : Bool
  /-- transfers to and from the buffer of the status flags -/
  flagWrites : Bool
  flagReads : Bool
  run : ClRun.Device
  /-- number of a new buffer of a size; `none` if there is no memory -/
  alloc : Nat → Option Nat
  junk : Nat → UInt8
  /-- address of a buffer on the device -/
  addr : Nat → Nat
  /-- what `getInfo< CL_MEM_SIZE >` gives for a `cl::Buffer` without memory -/
  sizeOfNothing : Nat

/-- A context, and the buffers on its device. -/
structure Sys where
  ctx : Ctx
  dev : Nat → Option Bytes
  /-- the buffer of the status flags, `internalStatusFlagsBuffer`, and its content -/
  flagsId : Nat
  flags : BitVec 64

/-- Members of `ClArgument`, argument.h:147-151, without the context. -/
structure Argument where
  /-- `m_cl_buffer` -/
  mem : Option Nat
  /-- `m_ptr_cobj_buffer` -/
  buf : Option Nat
  size : Nat
  deriving DecidableEq, Repr

/-- The constructor without data, 27-35 -/
def Argument.empty : Argument := ⟨none, none, 0⟩

def Sys.put (s : Sys) (b : Nat) (x : Bytes) : Sys := { s with dev := fun k => if k = b then some x else s.dev k }

/-- `enqueueWriteBuffer` -/
def enqueueWrite (o : Cl) (s : Sys) (b : Option Nat) (offset : Nat) (x : Bytes) : Bool × Sys :=
  match b with
  | some b =>
    match s.dev b with
    | some d =>
      if o.writes ∧ 0 < x.length ∧ offset + x.length ≤ d.length then
        (true, s.put b (d.take offset ++ x ++ d.drop (offset + x.length)))
      else (false, s)
    | none => (false, s)
  | none => (false, s)

/-- `enqueueReadBuffer` from the begin; `none` if it fails -/
def enqueueRead (o : Cl) (s : Sys) (b : Option Nat) (n : Nat) : Option Bytes :=
  match b with
  | some b =>
    match s.dev b with
    | some d => if o.reads ∧ 0 < n ∧ n ≤ d.length then some (d.take n) else none
    | none => none
  | none => none

/-- `cl::Buffer( context, CL_MEM_READ_WRITE, n, nullptr )`, 56-57: the status is not looked at. -/
def allocate (o : Cl) (s : Sys) (n : Nat) : Option Nat × Sys :=
  match o.alloc n with
  | some b => (some b, s.put b ((List.range n).map o.junk))
  | none => (none, s)

/-! ## Remapping -/

/-- The arguments of a kernel as OpenCL sees them. -/
def clArgs (c : Ctx) (k : Nat) : List (Option ClVal) :=
  match c.kernels[k]? with
  | some x => x.cl
  | none => []

/-- the debugging kernel's register after a failure, managed_buffer_remap_debug.cl:30-44; the buffer
and the slot size are there. -/
def failed (needs : Bool) : Res (BitVec 64) := DebugReg.storeStatus 
  (if needs then DebugReg.raiseNext 0#64 else 0#64) (-1#32)

/-- the first work item of the kernel with a buffer, managed_buffer_remap.cl:20-26 and
managed_buffer_remap_debug.cl:23-46; `needs` is `ManagedBuffer_needs_remapping`, managed_buffer_minimal.h:925-942. -/
def remapBuffer (f : Fmt) (o : Cl) (s : Sys) (b : Nat) (debug : Bool) : Res Sys :=
  match s.dev b with
  | some d =>
    match f.rebase (o.addr b) d with
    | some y => .ok { s.put b y with flags := if debug then 0#64 else s.flags }
    | none =>
      if debug then do
        let r ← failed (decide (f.base d ≠ o.addr b ∧ f.base d ≠ 0))
        .ok { s with flags := r }
      else .ok s
  | none => .ub

/-- The remapping kernel with these arguments: whether OpenCL launches it, and what it does. -/
def work (f : Fmt) (o : Cl) (s : Sys) (args : List (Option ClVal)) : Res (Bool × Sys) :=
  match args with
  | [some (.buffer b), some (.value v)] =>
    if v = SLOT_SIZE then do
      let s ← remapBuffer f o s b false
      .ok (true, s)
    else .ub
  | [some (.buffer b), some (.value v), some (.buffer r)] =>
    if v = SLOT_SIZE ∧ r = s.flagsId then do
      let s ← remapBuffer f o s b true
      .ok (true, s)
    else .ub
  | args => if args.all Option.isSome then .ub else .ok (false, s)

/-- A launch of the remapping kernel `k`: whether it succeeds, and what it does. -/
def launch (f : Fmt) (o : Cl) (s : Sys) (k n : Nat) : Res (Bool × Sys) :=
  match ClRun.runDefault o.run s.ctx [] k n with
  | (ok, some l, _) => if ok ∧ 0 < l.items then work f o s (clArgs s.ctx k) else .ok (false, s)
  | (_, none, _) => .ok (false, s)

/-- a call of `assignKernelArgument…` whose kernel is there -/
def assigned (s : Sys) (r : ClRun.Outcome Ctx) : Res Sys :=
  match r with
  | .ok c => .ok { s with ctx := c }
  | _ => .ub

/-- 399-416: the status flags are cleared, and their buffer becomes the argument 1.  A code other than 0 is a failure. -/
def clearFlags (o : Cl) (s : Sys) (k numArgs : Nat) : Res (Int × Sys) :=
  if 2 ≤ numArgs then
    if o.flagWrites then do
      let s ← assigned { s with flags := 0#64 } (ClRun.assignClBuffer s.ctx k 1 s.flagsId)
      .ok (0, s)
    else .ok (-2, s)
  else .ok (-1, s)

/-- 418-438: the bytes `x` of the buffer, and the arguments -/
def sendBytes (o : Cl) (s : Sys) (k : Nat) (b : Option Nat) (x : Bytes) : Res (Int × Sys) :=
  let r := enqueueWrite o s b 0 x
  if r.1 then
    match b with
    | some b => do
      let s ← assigned r.2 (ClRun.assignClBuffer r.2.ctx k 0 b)
      let s ← assigned s (ClRun.assignValue s.ctx k 1 8)
      .ok (0, s)
    | none => .ub
  else .ok (-4, r.2)

/-- 440-448: `runKernel` -/
def runRemap (f : Fmt) (o : Cl) (s : Sys) (k : Nat) : Res (Int × Sys) := do
  let r ← launch f o s k (ClRun.preferred s.ctx k)
  .ok (if r.1 then 0 else -8, r.2)

/-- 450-464: the status flags, the lower half of which is the code -/
def lookAtFlags (o : Cl) (s : Sys) (numArgs : Nat) : Int :=
  if 2 < numArgs then
    if o.flagReads then (s.flags.setWidth 32).toInt else -2
  else 0

/-- one step after another as long as the code is 0 -/
def andThen (r : Res (Int × Sys)) (f : Sys → Res (Int × Sys)) : Res (Int × Sys) := do
  let r ← r
  if r.1 = 0 then f r.2 else .ok r

/-- the steps for a kernel with arguments, 386-464 -/
def sendSteps (f : Fmt) (o : Cl) (s : Sys) (a : Argument) (x : Bytes) : Res (Int × Sys) :=
  let k := s.ctx.remapKernelId
  let numArgs := s.ctx.kernelNumArgs k
  if 0 < numArgs then
    andThen (andThen (andThen (clearFlags o s k numArgs) fun s => sendBytes o s k a.mem x) fun s => runRemap f o s k)
      fun s => .ok (lookAtFlags o s numArgs, s)
  else .ok (-1, s)

/-- `doWriteAndRemapCObjBufferBaseImpl`, 367-479, for the `i`-th buffer; the context is there. -/
def writeBuf (f : Fmt) (o : Cl) (s : Sys) (a : Argument) (h : Host) (i : Nat) : Res (Int × Sys × Argument) :=
  if s.ctx.hasNode ∧ s.ctx.hasRemapKernel ∧ 0 < h.size i ∧ h.size i ≤ a.size then do
    let x ← readFirst (h.mem (.buf i)) (h.size i)
    let r ← sendSteps f o s a x
    if r.1 = 0 then .ok (r.1, r.2, { a with buf := some i }) else .ok (r.1, r.2, a)
  else .ok (-1, s, a)

/-- `doReadAndRemapCObjBufferBaseImpl`, 481-515 -/
def readBuf (f : Fmt) (o : Cl) (s : Sys) (a : Argument) (h : Host) (i : Nat) : Res (Int × Host × Argument) :=
  if s.ctx.hasNode ∧ 0 < a.size ∧ a.size ≤ (h.mem (.buf i)).length then
    match enqueueRead o s a.mem a.size with
    | some x => do
      let y ← overwrite (h.mem (.buf i)) x
      let r := hostRemap f (h.put (.buf i) y) i
      if r.1 then .ok (0, r.2, { a with buf := some i }) else .ok (-1, r.2, a)
    | none => .ok (-1, h, a)
  else .ok (-1, h, a)

/-! ## Making, raw memory and regions -/

/-- The constructor with a size, 100-125 -/
def newSize (o : Cl) (s : Sys) (n : Nat) : Sys × Argument :=
  if 0 < n ∧ s.ctx.hasNode ∧ s.ctx.hasRemapKernel then
    let r := allocate o s n
    (r.2, ⟨r.1, none, n⟩)
  else (s, .empty)

/-- The constructors with a buffer, 37-98; a code other than 0 fails an assertion.  `none` if nothing is written. -/
def newBuf (f : Fmt) (o : Cl) (s : Sys) (h : Host) (i : Nat) : Res (Option Int × Sys × Argument) :=
  if 0 < h.size i ∧ s.ctx.hasNode ∧ s.ctx.hasRemapKernel then do
    let r := allocate o s (h.size i)
    let w ← writeBuf f o r.2 ⟨r.1, none, h.size i⟩ h i
    .ok (some w.1, w.2.1, w.2.2)
  else .ok (none, s, .empty)

/-- The constructor with raw memory that is not null, 127-159; the status of the transfer is only asserted. -/
def newRaw (o : Cl) (s : Sys) (h : Host) (p n : Nat) : Res (Sys × Argument) :=
  if 0 < n ∧ s.ctx.hasNode ∧ s.ctx.hasRemapKernel then do
    let r := allocate o s n
    let x ← readFirst (h.mem (.raw p)) n
    .ok ((enqueueWrite o r.2 r.1 0 x).2, ⟨r.1, none, n⟩)
  else .ok (s, .empty)

/-- `write` with raw memory that is not null, 183-205 -/
def writeRaw (o : Cl) (s : Sys) (a : Argument) (h : Host) (p n : Nat) : Res (Bool × Sys) :=
  if 0 < n ∧ n = a.size ∧ s.ctx.hasNode then do
    let x ← readFirst (h.mem (.raw p)) n
    .ok (enqueueWrite o s a.mem 0 x)
  else .ok (false, s)

/-- `read` to raw memory that is not null, 207-229 -/
def readRaw (o : Cl) (s : Sys) (a : Argument) (h : Host) (p n : Nat) : Res (Bool × Host) :=
  if 0 < n ∧ n = a.size ∧ s.ctx.hasNode then
    match enqueueRead o s a.mem n with
    | some x => do
      let y ← overwrite (h.mem (.raw p)) x
      .ok (true, h.put (.raw p) y)
    | none => .ok (false, h)
  else .ok (false, h)

/-- A region to be updated: offset, length and the new bytes, `none` for a null pointer. -/
structure Region where
  offset : Nat
  length : Nat
  value : Option Bytes
  deriving DecidableEq, Repr

/-- the loop of `doUpdateRegions`, 340-361; offsets and lengths are 64 bit numbers without a sign. -/
def regionsLoop (o : Cl) (a : Argument) : Sys → List Region → Res (Bool × Sys)
  | s, [] => .ok (true, s)
  | s, r :: rs =>
    match r.value with
    | none => .ok (false, s)
    | some v =>
      if r.length = 0 ∨ a.size < (r.offset + r.length) % 2^64 then .ok (false, s)
      else do
        let x ← readFirst v r.length
        let w := enqueueWrite o s a.mem r.offset x
        if w.1 then regionsLoop o a w.2 rs else .ok (false, w.2)

/-- `doUpdateRegions`, 317-365, whose arrays are there; the result says whether the status is a success. -/
def updateRegions (o : Cl) (s : Sys) (a : Argument) (rs : List Region) : Res (Bool × Sys) :=
  if 0 < a.size ∧ rs ≠ [] ∧ s.ctx.hasNode then regionsLoop o a s rs else .ok (false, s)

/-- `attachTo`, 279-293: the contexts are numbers; result: whether it succeeds, and the context from now on -/
def attachTo (o : Cl) (s : Sys) (a : Argument) (mine : Option Nat) (new : Option Nat) : Bool × Option Nat :=
  let n := match a.mem with
    | some b => ((s.dev b).map List.length).getD o.sizeOfNothing
    | none => o.sizeOfNothing
  if mine ≠ new ∧ new ≠ none ∧ n = 0 then (true, new) else (false, mine)

end SixTrack.ClArg
