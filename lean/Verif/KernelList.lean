import Verif.Basic

/-!
# The kernels of a controller

Model of the list of kernel configurations of `ControllerBase`
(`/repo/sixtracklib/common/control/controller_base.cpp`), of the kernels for remapping buffers and of
switching the debug mode (`ArchDebugBase`, `/repo/sixtracklib/common/control/arch_base.cpp`).

Simplifications: a configuration is its name (empty if it has none); the assertions
(controller_base.cpp:650-651, 678-680) are left out, so that an id is the position modulo `2^32`.
-/

namespace SixTrack.Kernels

/-- `ARCH_ILLEGAL_KERNEL_ID`, definitions.h:431-432 -/
def ILLEGAL : Nat := 2^32 - 1

/-- Members of `ControllerBase` (controller_base.hpp:317-326) and the flag of `ArchDebugBase`.
`debugId` is `none` as long as the member has no value. -/
structure Ctl where
  configs : List (Option String)
  num : Nat
  remapId : Nat
  debugId : Option Nat
  running : Bool
  send : Bool
  receive : Bool
  debug : Bool
  deriving DecidableEq, Repr

/-- The constructor does not initialise `m_remap_debug_kernel_id`, controller_base.cpp:503-517. -/
def new : Ctl := ⟨[], 0, ILLEGAL, none, false, false, false, false⟩

/-- `ptrKernelConfigBase` with an id, controller_base.cpp:385-402 -/
def Ctl.config (c : Ctl) (id : Nat) : Option String :=
  if id ≠ ILLEGAL ∧ id < c.configs.length then (c.configs[id]?).join else none

/-- `hasKernel` with an id, controller_base.cpp:364-368 -/
def Ctl.has (c : Ctl) (id : Nat) : Bool := (c.config id).isSome

/-- The loop of `doFindKernelConfigByName`, controller_base.cpp:622-635 -/
def findLoop (name : String) (ii : Nat) : List (Option String) → Nat
  | [] => ILLEGAL
  | some n :: rest => if n ≠ "" ∧ n = name then ii % 2^32 else findLoop name (ii + 1) rest
  | none :: rest => findLoop name (ii + 1) rest

/-- `doFindKernelConfigByName`, controller_base.cpp:610-639 -/
def Ctl.find (c : Ctl) (name : Option String) : Nat :=
  match name with
  | some n => if n ≠ "" then findLoop n 0 c.configs else ILLEGAL
  | none => ILLEGAL

/-- `hasKernel` with a name, controller_base.cpp:370-382 -/
def Ctl.hasName (c : Ctl) (name : Option String) : Bool := (c.config (c.find name)).isSome

/-- controller_base.cpp:656-657 -/
def Ctl.push (c : Ctl) (n : String) : Ctl := { c with configs := c.configs ++ [some n] }

/-- controller_base.cpp:659-662 -/
def Ctl.count (c : Ctl) (id : Nat) : Ctl := if (c.config id).isSome then { c with num := c.num + 1 } else c

/-- `doAppendKernelConfig`, controller_base.cpp:641-667: the id and the controller -/
def Ctl.append (c : Ctl) (conf : Option String) : Nat × Ctl :=
  match conf with
  | none => (ILLEGAL, c)
  | some n => (c.configs.length % 2^32, (c.push n).count (c.configs.length % 2^32))

/-- `doRemoveKernelConfig`, controller_base.cpp:669-688 -/
def Ctl.remove (c : Ctl) (id : Nat) : Ctl :=
  if (c.config id).isSome then { c with configs := c.configs.set id none, num := c.num - 1 } else c

/-- `hasRemapCObjectBufferKernel`, controller_base.cpp:252-255 -/
def Ctl.hasRemap (c : Ctl) : Bool := c.has c.remapId

/-- `hasRemapCObjectBufferDebugKernel`, controller_base.cpp:271-275: undefined behaviour as long as the
member has no value. -/
def Ctl.hasRemapDebug (c : Ctl) : Res Bool :=
  match c.debugId with
  | some id => .ok (c.has id)
  | none => .ub

/-- `readyForRemap`, controller_base.cpp:51-58 -/
def Ctl.readyForRemap (c : Ctl) : Res Bool :=
  if c.running then
    if c.debug then c.hasRemapDebug else .ok c.hasRemap
  else .ok false

/-- The condition of `doSwitchDebugMode`, controller_base.cpp:565-568 -/
def Ctl.canSwitch (c : Ctl) (on : Bool) : Res Bool := if on then c.hasRemapDebug else .ok c.hasRemap

/-- `doSwitchDebugMode`, controller_base.cpp:562-575 and arch_base.cpp:141-150 -/
def Ctl.switchDebug (c : Ctl) (on : Bool) : Res (Bool × Ctl) := do
  let h ← c.canSwitch on
  if h then pure (c.debug != on, { c with debug := on }) else pure (false, c)

/-- `enableDebugMode`, arch_base.cpp:109-123 -/
def Ctl.enableDebug (c : Ctl) : Res (Bool × Ctl) := if c.debug then .ok (true, c) else c.switchDebug true

/-- `disableDebugMode`, arch_base.cpp:125-139 -/
def Ctl.disableDebug (c : Ctl) : Res (Bool × Ctl) := if c.debug then c.switchDebug false else .ok (true, c)

/-- `doClear`, controller_base.cpp:519-528 -/
def Ctl.clear (c : Ctl) : Ctl :=
  { c with remapId := ILLEGAL, receive := false, send := false, running := false }

/-- What can happen to the list of kernels: `doAppendKernelConfig`, `doRemoveKernelConfig`,
`setRemapCObjectBufferKernelId` (controller_base.cpp:263-267), `setRemapCObjectBufferDebugKernelId`
(283-287), `doSetReadyForRunningKernelsFlag` (596-600), `clear`, and the two switches of the debug
mode -/
inductive Op
  | append (conf : Option String)
  | remove (id : Nat)
  | setRemap (id : Nat)
  | setDebugRemap (id : Nat)
  | setRunning (flag : Bool)
  | clear
  | debug (on : Bool)
  deriving DecidableEq, Repr

/-- One step -/
def Ctl.step (c : Ctl) : Op → Res Ctl
  | .append conf => .ok (c.append conf).2
  | .remove id => .ok (c.remove id)
  | .setRemap id => .ok { c with remapId := id }
  | .setDebugRemap id => .ok { c with debugId := some id }
  | .setRunning flag => .ok { c with running := flag }
  | .clear => .ok c.clear
  | .debug true => do let r ← c.enableDebug; pure r.2
  | .debug false => do let r ← c.disableDebug; pure r.2

/-- Several steps -/
def Ctl.run (c : Ctl) : List Op → Res Ctl
  | [] => .ok c
  | o :: os => do let d ← c.step o; d.run os

/-- The names of the two kernels for remapping, cuda/control/controller.cpp:1532-1534 and 1571-1573,
with `NS_` for the prefix of the build -/
def REMAP : String := "NS_Buffer_remap_cuda_wrapper"
@[inherit_doc REMAP] def REMAP_DEBUG : String := "NS_Buffer_remap_cuda_debug_wrapper"

/-- The part of `CudaController::doSelectNodeCudaImpl` after the node has been selected
(cuda/control/controller.cpp:1525-1607): `okR` and `okD` say whether the two configurations can be set
up; the second status takes the place of the first (1580). Adding a configuration
(`doAppendCudaKernelConfig`, 828-870) succeeds as a node is selected. -/
def Ctl.selectCuda (c : Ctl) (okR okD : Bool) : Bool × Ctl :=
  let r := if okR then c.append (some REMAP) else (ILLEGAL, c)
  let d := if okD then ({ r.2 with remapId := r.1 }).append (some REMAP_DEBUG)
    else (ILLEGAL, { r.2 with remapId := r.1 })
  (okD, { d.2 with debugId := some d.1 })

end SixTrack.Kernels
