import Verif.Argument
import Verif.DebugReg

/-!
# Remapping on the CUDA device, and the debug register

Model of the remapping of `/repo/sixtracklib/cuda/control/controller.cpp` (`controller`), with
`/repo/sixtracklib/cuda/wrappers/controller_wrappers.cu` (`wrappers`), `/repo/sixtracklib/cuda/kernels/managed_buffer_remap.cu`,
`/repo/sixtracklib/common/control/controller_base.cpp` and `/repo/sixtracklib/common/control/arch_base.cpp:157-244`.

Buffers and arguments are those of C81: what remapping does to bytes is a parameter, and a kernel that fails leaves the bytes alone.
The kernels are launched with one thread and their configurations are never in need of an update (C101).  A copy from or to the
device succeeds or fails as the controller says.
-/

namespace SixTrack.CudaRemap
open SixTrack.Arg DebugReg

/-- the controller: whether it can run kernels, its mode, which of the two kernels it has, whether there is a debug register on the
device, whether copies to and from the device succeed, the address of the memory, the register on the device, and that on the host -/
structure Sys where
  ready : Bool
  debug : Bool
  plainKernel : Bool
  debugKernel : Bool
  hasReg : Bool
  sends : Bool
  receives : Bool
  addr : Nat
  reg : BitVec 64
  loc : BitVec 64

/-- `doSetDebugRegister`, controller:942-958, 1470-1476: the register of the device is written first. -/
def Sys.setReg (s : Sys) (v : BitVec 64) : Bool × Sys :=
  if s.hasReg ∧ s.sends then (true, { s with reg := v, loc := v }) else (false, s)

/-- `doFetchDebugRegister` into the register on the host, controller:960-976, 1478-1487 and arch_base.cpp:228-244 -/
def Sys.fetchReg (s : Sys) : Bool × Sys :=
  if s.hasReg ∧ s.receives then (true, { s with loc := s.reg }) else (false, s)

/-- `debugRegister`, arch_base.cpp:159-167, and `SIXTRL_ARCH_DEBUGGING_GENERAL_FAILURE`, definitions.h:128-130 -/
def Sys.debugRegister (s : Sys) : BitVec 64 × Sys :=
  let r := s.fetchReg
  (if r.1 then r.2.loc else 0xffffffff00000000#64, r.2)

/-- `evaluateDebugRegisterAfterUse`, arch_base.cpp:189-210 -/
def Sys.evaluate (s : Sys) : Res (BitVec 32 × Sys) :=
  let r := s.fetchReg
  if r.1 then do
    let v ← DebugReg.evaluate r.2.loc
    pure (v, r.2)
  else .ok (-1#32, r.2)

/-- `ManagedBuffer_needs_remapping`, managed_buffer_minimal.h:925-942 -/
def needs (f : Fmt) (addr : Nat) (d : Bytes) : Bool := decide (f.base d ≠ addr ∧ f.base d ≠ 0)

/-- `ManagedBuffer_remap_cuda`, managed_buffer_remap.cu:18-26 -/
def plainRemap (f : Fmt) (addr : Nat) (d : Bytes) : Bytes := (f.rebase addr d).getD d

/-- `ManagedBuffer_remap_cuda_debug`, managed_buffer_remap.cu:28-58, with a buffer and slots of some size: the register and the
bytes -/
def debugRemap (f : Fmt) (addr : Nat) (d : Bytes) : Res (BitVec 64 × Bytes) :=
  match f.rebase addr d with
  | some y => do
    let r ← storeStatus 0#64 0#32
    pure (r, y)
  | none => do
    let r ← storeStatus (if needs f addr d then raiseNext 0#64 else 0#64) (-1#32)
    pure (r, d)

/-- `doRemapCObjectsBufferDirectly` in the debug mode, controller:1075-1087 -/
def remapDebug (f : Fmt) (s : Sys) (d : Bytes) : Res (BitVec 32 × Sys × Bytes) :=
  if s.hasReg then
    let p := s.setReg 0#64
    if p.1 then do
      let k ← debugRemap f s.addr d
      let e ← { p.2 with reg := k.1 }.evaluate
      pure (e.1, e.2, k.2)
    else .ok (-1#32, p.2, d)
  else .ok (-1#32, s, d)

/-- `doRemapCObjectsBufferDirectly`, controller:1044-1092, of memory `d` (none is a null pointer): the status, the controller and
the memory -/
def remapDirect (f : Fmt) (s : Sys) (d : Option Bytes) (slot : Nat) : Res (BitVec 32 × Sys × Option Bytes) :=
  match d with
  | some d =>
    if s.ready ∧ 0 < slot then
      if s.debug then
        if s.debugKernel then do
          let r ← remapDebug f s d
          pure (r.1, r.2.1, some r.2.2)
        else .ok (-1#32, s, some d)
      else if s.plainKernel then .ok (0#32, s, some (plainRemap f s.addr d))
      else .ok (-1#32, s, some d)
    else .ok (-1#32, s, some d)
  | none => .ok (-1#32, s, none)

/-- `readyForRemap`, controller_base.cpp:51-58 -/
def Sys.readyForRemap (s : Sys) : Bool := s.ready && ((!s.debug && s.plainKernel) || (s.debug && s.debugKernel))

/-- the argument refers to a buffer and has memory on the device, controller:994-997 and 1031-1034 -/
def usable (a : Arg.Arg) : Bool := a.c99.isSome && a.has && a.dev.isSome && decide (0 < a.cap)

/-- `remap` of an argument, controller_base.cpp:454-466 and controller:978-1006; the slot size is the default one -/
def remapArg (f : Fmt) (s : Sys) (a : Arg.Arg) : Res (BitVec 32 × Sys × Arg.Arg) :=
  if s.readyForRemap ∧ usable a then do
    let r ← remapDirect f s a.dev 8
    pure (r.1, r.2.1, { a with dev := r.2.2 })
  else .ok (-1#32, s, a)

/-- `Buffer_is_remapped_cuda_wrapper`, wrappers:88-145, with memory and slots of some size: the answer, the status and the
controller.  What cannot be received leaves `SIXTRL_ARCH_DEBUGGING_GENERAL_FAILURE`, which is none of the two answers. -/
def askDevice (f : Fmt) (s : Sys) (d : Bytes) : Bool × BitVec 32 × Sys :=
  if s.hasReg ∧ s.sends then
    let v : BitVec 64 := if needs f s.addr d then 1#64 else 2#64
    let got : BitVec 64 := if s.receives then v else 0xffffffff00000000#64
    (got == 2#64, if s.receives then 0#32 else -1#32, { s with reg := v })
  else (false, -1#32, s)

/-- `isRemapped` of memory, controller:710-725 and 1094-1115; `none` is an exception -/
def askDirect (f : Fmt) (s : Sys) (d : Option Bytes) (slot : Nat) : Option Bool × Sys :=
  match d with
  | some d =>
    if s.ready ∧ 0 < slot then
      let r := askDevice f s d
      (if r.2.1 = 0#32 then some r.1 else none, r.2.2)
    else (none, s)
  | none => (none, s)

/-- `isRemapped` of an argument, controller_base.cpp:474-490 and controller:1008-1042; `none` is an exception -/
def askArg (f : Fmt) (s : Sys) (a : Arg.Arg) : Option Bool × Sys :=
  if s.ready ∧ usable a then askDirect f s a.dev 8 else (none, s)

end SixTrack.CudaRemap
