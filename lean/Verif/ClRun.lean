import Verif.ClContext
import Verif.DebugReg
import Mathlib.Data.Rat.Defs
import Mathlib.Algebra.Order.Ring.Unbundled.Rat

/-!
# Arguments, launches, times and status flags of the kernels of an OpenCL context

Model of the rest of `ClContextBase`, `/repo/sixtracklib/opencl/internal/base_context.h` and `base_context.cpp`.  Line
numbers without a file are those of `base_context.cpp`.

* Addresses of arguments, buffers and values are numbers.  OpenCL refuses an argument beyond those of the kernel; that it
  may refuse an argument for its size is left out.  The statuses OpenCL returns here are not looked at by the library.
* Times are rational numbers and added without rounding; `NaN` is left out.
* Numbers of work items are 64 bit numbers without a sign.
* Assertions are not compiled.
-/

namespace SixTrack.ClRun
open ClContext

/-- How a call ends. -/
inductive Outcome (α : Type) where
  | ok (a : α)
  /-- an exception the caller can catch -/
  | throws
  /-- an exception inside of a `noexcept` function: the program is aborted -/
  | terminates
  | ub
  deriving DecidableEq, Repr

/-! ## Arguments -/

/-- `assignKernelArgument`, 1704-1717, with an argument at `arg` and its OpenCL buffer -/
def assignArgument (c : Ctx) (k index arg buffer : Nat) : Outcome Ctx :=
  if k < c.kernels.length then .ok (c.assign k index ⟨.clArgument, some arg⟩ (.buffer buffer)) else .throws

/-- `assignKernelArgumentRawPtr` with a pointer to data that may be changed, 1719-1732 -/
def assignRawPtr (c : Ctx) (k index size ptr : Nat) : Outcome Ctx :=
  if k < c.kernels.length then .ok (c.assign k index ⟨.rawPtr, some ptr⟩ (.bytes ptr size)) else .throws

/-- `assignKernelArgumentClBuffer`, 1734-1744 -/
def assignClBuffer (c : Ctx) (k index buffer : Nat) : Outcome Ctx :=
  if k < c.kernels.length then .ok (c.assign k index ⟨.clBuffer, some buffer⟩ (.buffer buffer)) else .throws

/-- `assignKernelArgumentRawPtr` with a pointer to constant data, 1746-1769: the id is not tested. -/
def assignRawPtrConst (c : Ctx) (k index size ptr : Nat) : Outcome Ctx :=
  if k < c.kernels.length then .ok (c.assign k index ⟨.rawPtr, none⟩ (.bytes ptr size)) else .ub

/-- `assignKernelArgumentValue`, base_context.h:758-774: the id is not tested. -/
def assignValue (c : Ctx) (k index v : Nat) : Outcome Ctx :=
  if k < c.kernels.length then .ok (c.assign k index ⟨.value, none⟩ (.value v)) else .ub

/-- the loop of `resetKernelArguments`, 1788-1794: `m_default_kernel_arg` is 0 (75) -/
def clearCl : List Arg → List (Option ClVal) → List (Option ClVal)
  | a :: as, v :: vs => (if a.ptr.isSome then some (.value 0) else v) :: clearCl as vs
  | _, vs => vs

/-- `KernelData::resetArguments`, base_context.h:1002-1017 -/
def resetArgs (x : Kernel) : Kernel := { x with args := List.replicate x.numArgs ⟨.none, none⟩ }

/-- `resetKernelArguments`, 1771-1801 -/
def resetArguments (c : Ctx) (k : Nat) : Ctx :=
  { c with kernels := c.kernels.modify k fun x => resetArgs { x with cl := clearCl x.args x.cl } }

/-- `resetSingleKernelArgument`, 1803-1813: `at` throws, but the function must not. -/
def resetArgument (c : Ctx) (k index : Nat) : Outcome Ctx :=
  if k < c.kernels.length then .ok (c.assign k index ⟨.none, none⟩ (.value 0)) else .terminates

/-- `ptrKernelArgument`, 1661-1691; `none` is a null pointer. -/
def argument (c : Ctx) (k index : Nat) : Res (Option Nat) :=
  match c.kernels[k]? with
  | some x =>
    if index < x.numArgs then
      match x.args[index]? with
      | some a => .ok a.ptr
      | none => .ub
    else .ok none
  | none => .ok none

/-- `kernelArgumentType`, 1693-1702 -/
def argumentType (c : Ctx) (k index : Nat) : Res ArgType :=
  match c.kernels[k]? with
  | some x =>
    if index < x.numArgs then
      match x.args[index]? with
      | some a => .ok a.type
      | none => .ub
    else .ok .invalid
  | none => .ok .invalid

/-! ## Work items -/

/-- `kernelWorkGroupSize`, 1566-1585 -/
def groupSize (c : Ctx) (k : Nat) : Nat :=
  if c.hasNode then
    match c.kernels[k]? with
    | some x => min x.group x.maxGroup
    | none => 0
  else 0

/-- `kernelPreferredWorkGroupSizeMultiple`, 1623-1635 -/
def preferred (c : Ctx) (k : Nat) : Nat :=
  if c.hasNode then
    match c.kernels[k]? with
    | some x => x.preferred
    | none => 0
  else 0

/-- `setKernelWorkGroupSize`, 1601-1621 -/
def setGroupSize (c : Ctx) (k n : Nat) : Bool × Ctx :=
  if c.hasNode then
    match c.kernels[k]? with
    | some x =>
      if n ≤ x.maxGroup then (true, { c with kernels := c.kernels.set k { x with group := n } }) else (false, c)
    | none => (false, c)
  else (false, c)

/-- the rounding of `calculateKernelNumWorkItems`, 1828-1837 -/
def roundUp (group n : Nat) : Nat :=
  if 0 < group then
    let threads := n / group * group
    if threads < n then (threads + group) % 2^64 else threads
  else n

/-- `calculateKernelNumWorkItems`, 1815-1840 -/
def numWorkItems (c : Ctx) (k n : Nat) : Nat :=
  roundUp (if groupSize c k = 0 then preferred c k else groupSize c k) n

/-- the rounding of `runKernel`, 1861-1873 -/
def launchItems (group n : Nat) : Nat :=
  if group ≠ 0 then ((n + group - 1) % 2^64 / group * group) % 2^64 else n

/-! ## Times -/

/-- `std::numeric_limits< double >::max()` -/
def DBL_MAX : ℚ := 2^1024 - 2^971

/-- `std::numeric_limits< double >::min()`, the smallest positive normal number -/
def DBL_MIN : ℚ := 1 / 2^1022

/-- The times and the last launch of `KernelData`, base_context.h:973-991 -/
structure Exec where
  count : Nat
  lastGroup : Nat
  lastItems : Nat
  min : ℚ
  max : ℚ
  last : ℚ
  sum : ℚ
  deriving DecidableEq, Repr

/-- the times of a new kernel, base_context.h:973-991 -/
def Exec.new : Exec := ⟨0, 0, 0, DBL_MAX, DBL_MIN, 0, 0⟩

/-- `resetTiming`, base_context.h:1033-1042 -/
def Exec.reset (x : Exec) : Exec := { x with min := DBL_MAX, max := DBL_MIN, last := 0, sum := 0, count := 0 }

/-- `addExecTime`, base_context.h:1044-1060 -/
def Exec.add (x : Exec) (t : ℚ) : Exec :=
  if 0 ≤ t then
    { x with
      last := t
      sum := x.sum + t
      count := x.count + 1
      min := if t < x.min then t else x.min
      max := if x.max < t then t else x.max }
  else x

/-- `avgExecTime`, base_context.h:1062-1067 -/
def Exec.avg (x : Exec) : ℚ := if 0 < x.count then x.sum / x.count else 0

/-! ## Launches -/

/-- What OpenCL does with a launch: whether the statuses of the launch and of `flush` are a success, and the times of start
and end in nanoseconds if they are known. -/
structure Device where
  ok : Bool
  times : Option (Nat × Nat)
  deriving DecidableEq, Repr

/-- A launch: the number of work items and the size of the groups, if it is given. -/
structure Launch where
  items : Nat
  group : Option Nat
  deriving DecidableEq, Repr

/-- `lastExecTime` and so on: the record of a kernel, the times of all kernels being a list, 1918-1972.  Without a kernel,
all the numbers are 0. -/
def execOf (xs : List Exec) (k : Nat) : Exec := (xs[k]?).getD ⟨0, 0, 0, 0, 0, 0, 0⟩

/-- the time of a launch, 1901-1905 -/
def elapsed (start stop : Nat) : ℚ := if start ≤ stop then ((stop - start : Nat) : ℚ) / 10^9 else 0

/-- 1907-1909 -/
def record (xs : List Exec) (k group items : Nat) (t : ℚ) : List Exec :=
  xs.modify k fun x => { x.add t with lastGroup := group, lastItems := items }

/-- `runKernel` with the size of the groups, 1850-1916.  The queue is a member and its address not null. -/
def runKernel (d : Device) (c : Ctx) (xs : List Exec) (k n group : Nat) : Bool × Option Launch × List Exec :=
  if k < c.kernels.length then
    let l : Launch := ⟨launchItems group n, if group ≠ 0 then some group else none⟩
    match d.times with
    | some t => (d.ok, some l, record xs k group l.items (elapsed t.1 t.2))
    | none => (d.ok, some l, xs)
  else (false, none, xs)

/-- `runKernel` with the size of the groups of the kernel, 1842-1848 -/
def runDefault (d : Device) (c : Ctx) (xs : List Exec) (k n : Nat) : Bool × Option Launch × List Exec :=
  runKernel d c xs k n (groupSize c k)

/-! ## Status flags -/

/-- `m_local_status_flags`, and the content of the buffer on the device -/
structure Flags where
  here : BitVec 64
  device : BitVec 64
  deriving DecidableEq, Repr

/-- `SIXTRL_ARCH_DEBUGGING_GENERAL_FAILURE`, definitions.h:128-130 -/
def GENERAL_FAILURE : BitVec 64 := 0xffffffff00000000#64

/-- `doSetStatusFlags`, 807-831; `ok` says whether the buffer can be written. -/
def setFlags (ok : Bool) (f : Flags) (v : BitVec 64) : BitVec 32 × Flags :=
  if ok then (0#32, ⟨v, v⟩) else (-1#32, ⟨v, f.device⟩)

/-- `doFetchStatusFlags`, 833-872, where the pointer is that of `m_local_status_flags`; `ok` says whether the buffer can be
read. -/
def fetchFlags (ok : Bool) (f : Flags) : Res (BitVec 32 × Flags) :=
  if ok then do
    let s ← DebugReg.getStatus f.device
    pure (s, ⟨f.device, f.device⟩)
  else .ok (-1#32, ⟨GENERAL_FAILURE, f.device⟩)

/-- `status_flags`, 2107-2115 -/
def statusFlags (ok : Bool) (f : Flags) : Res (BitVec 64 × Flags) := do
  let x ← fetchFlags ok f
  pure (if x.1 = 0#32 then x.2.here else GENERAL_FAILURE, x.2)

/-- `set_status_flags`, 2117-2121: the result is the status, as a number of 64 bits without a sign. -/
def setStatusFlags (ok : Bool) (f : Flags) (v : BitVec 64) : BitVec 64 × Flags :=
  let x := setFlags ok f v
  (x.1.signExtend 64, x.2)

/-- `prepare_status_flags_for_use`, 2123-2134 -/
def prepare (ok : Bool) (f : Flags) : BitVec 32 × Flags := setFlags ok f 0#64

/-- `eval_status_flags_after_use`, 2136-2157 -/
def evaluate (ok : Bool) (f : Flags) : Res (BitVec 32 × Flags) := do
  let x ← fetchFlags ok f
  if x.1 = 0#32 then
    if DebugReg.hasStatusFlags x.2.here then do
      let s ← DebugReg.getStatus x.2.here
      pure (s, x.2)
    else if DebugReg.hasAnyFlags x.2.here then pure (-1#32, x.2)
    else pure x
  else pure x

end SixTrack.ClRun
