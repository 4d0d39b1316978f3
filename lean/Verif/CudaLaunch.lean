import Verif.CudaGrid
import Verif.DebugReg

/-!
# Kernels of the CUDA track job

Model of `/repo/sixtracklib/cuda/track/track_job.cpp` (line numbers without a file): making the configurations of its kernels, and
launching them.  With `/repo/sixtracklib/cuda/control/default_kernel_config.c` (`default`),
`/repo/sixtracklib/cuda/control/controller.cpp` (`controller`), `/repo/sixtracklib/cuda/wrappers/track_job_wrappers.cu` (`wrappers`)
and `/repo/sixtracklib/common/track/track_job_ctrl_arg_base.cpp` (`base`).

* A configuration is that of `Verif/CudaGrid.lean`; the preferred multiples only matter for the success of setting them.
* A job is its kernels, its particle sets by number, and what it knows of the node; the selected node is its warp size.
* What a kernel does on the device is not modelled here: a launch is the call with its blocks and threads.  `Device` tells what
  a kernel for debugging leaves in the register, and whether the register can be sent and received.
* The checks of the arguments before the output is assigned, 1418-1442, 1494-1520, are a flag.
* The assertions are not modelled.
-/

namespace SixTrack.CudaLaunch
open KConf WorkItems CudaGrid

/-- the kernels of the job, in the order of 1060-1156 -/
inductive Kernel
  | until | elemByElem | line | monitors | config | addresses | assign
  deriving DecidableEq, Repr

/-- `ARCH_ILLEGAL_KERNEL_ID`, common/control/definitions.h:431-432 -/
def ILLEGAL : Nat := 2 ^ 32 - 1

/-- what matters of a job: `confs` are the configurations of its controller, `nodes` the number of available nodes, `warp` the warp
size of the selected one, `ids` the kernels of the job, `sets` the numbers of its particle sets and `total` their particles,
`addrBytes` the size of the buffer for addresses (`getSize`, 2060-2063), `objs` the number of objects in the particle buffer -/
structure Job where
  confs : List (Option Conf)
  nodes : Nat
  warp : Option Nat
  ids : Kernel → Nat
  sets : List Nat
  total : Nat
  addrBytes : Option Nat
  objs : Option Nat
  trackThreads : Nat
  threads : Nat
  debug : Bool
  register : Bool

/-- `ptrKernelConfig`, controller:729-739, common/control/controller_base.cpp:385-402 -/
def Job.conf (j : Job) (id : Nat) : Option Conf := if id ≠ ILLEGAL then (j.confs[id]?).join else none

/-! ## Configurations -/

/-- the number of work items for tracking, default:213-224 -/
def trackItems (n t : Nat) : Nat :=
  let b := n / t
  let b := if b * t < n then b + 1 else b
  if b = 0 then 1 else b

/-- setting sizes and updating, default:226-237, 114-125, 147-158, 179-190; the setters for one direction are
common/control/kernel_config_base.cpp:240-253, 456-469, 570-583 -/
def configure (c : Conf) (warp items threads : Nat) : Res (Bool × Conf) :=
  let r := c.items.set1 items
  if r.2 then
    let c := { c with items := r.1 }
    let q := c.groups.set1 threads
    if q.2 then
      let c := { c with groups := q.1 }
      if 0 < warp ∧ c.groups.dim = 1 then c.update else .ok (false, c)
    else .ok (false, c)
  else .ok (false, c)

/-- 2058-2068 -/
def Job.numSets (j : Job) : Nat :=
  match j.addrBytes with
  | some n => n
  | none => j.objs.getD 0

/-- the threads per block: 1951, 1987, 2024; 1876, 1913, 2072; default:173 -/
def Job.perBlock (j : Job) : Kernel → Nat
  | .until | .elemByElem | .line => j.trackThreads
  | .monitors | .config | .addresses => j.threads
  | .assign => 1

/-- the numbers of work items: default:28-29, 39-40, 49-50, track_job.cpp:1950, 1986, 2023; default:109, 143; track_job.cpp:2071-2072,
with the function for tracking along the line; default:174 -/
def Job.workItems (j : Job) : Kernel → Nat
  | .until | .elemByElem | .line => trackItems j.total j.trackThreads
  | .monitors | .config => 1
  | .addresses => trackItems j.numSets j.threads
  | .assign => 1

/-- the setters of kernel ids, 1836-2112, with default:105-107, 139-141, 170-171, 206-208, and base:1154-1175 -/
def Job.setKernel (j : Job) (k : Kernel) (id : Nat) : Res (Bool × Job) :=
  match j.conf id, j.warp with
  | some c, some w =>
    if 0 < j.perBlock k then do
      let r ← configure c w (j.workItems k) (j.perBlock k)
      let j := { j with confs := j.confs.set id (some r.2) }
      pure (r.1, if r.1 then { j with ids := fun x => if x = k then id else j.ids x } else j)
    else .ok (false, j)
  | _, _ => .ok (false, j)

/-- `addCudaKernelConfig`, controller:804-870, with common/control/controller_base.cpp:641-667: the id and the job -/
def Job.add (j : Job) : Nat × Job :=
  match j.warp with
  | some w => (j.confs.length % 2 ^ 32, { j with confs := j.confs ++ [some ((new 1 1 0 0 32).setWarp w)] })
  | none => (ILLEGAL, j)

/-- the kernels one after another, 1060-1139 -/
def Job.prepareLoop : List Kernel → Bool → Job → Res (Bool × Job)
  | [], ok, j => .ok (ok, j)
  | k :: ks, ok, j => do
    let r ← j.add.2.setKernel k j.add.1
    prepareLoop ks (ok && r.1) r.2

/-- `doPrepareDefaultKernelsCudaImpl`, 1028-1165; the kernel for assigning addresses comes after the status is set. -/
def Job.prepare (j : Job) : Res (Bool × Job) :=
  match j.warp with
  | some _ => do
    let r ← prepareLoop [.until, .elemByElem, .line, .monitors, .config, .addresses] true j
    let q ← prepareLoop [.assign] r.1 r.2
    pure (r.1 || q.1, q.2)
  | none => .ok (decide (0 < j.nodes), j)

/-- the threads per block from the configuration, 1797-1823: `a` and `b` are the values in the table, 128 and the warp size 32 are
cuda/track_job.hpp:75-79 and cuda/control/kernel_config.hpp:46 -/
def threadsOf (a b : Option Nat) : Nat × Nat :=
  let t := a.getD 128
  let u := b.getD t
  (if t = 0 ∨ t % 32 ≠ 0 then 128 else t, if u = 0 ∨ u % 32 ≠ 0 then 128 else u)

/-! ## Launches -/

/-- the kernels with their numbers, wrappers:23-402, 475-548 -/
inductive Call
  | until (set turn : Nat)
  | elemByElem (set config turn : Nat)
  | line (set first last : Nat) (finish : Bool)
  | monitors (turn : Int) (offset : Nat)
  | config (index offset : Nat)
  | addresses
  deriving DecidableEq, Repr

/-- A launch: the plain kernel or the one for debugging, with a register or a null pointer. -/
structure Launch where
  call : Call
  plain : Bool
  register : Bool
  grid : Dim3
  block : Dim3
  deriving DecidableEq, Repr

/-- which of the two kernels a wrapper takes if it has a register: wrappers:39, 108, 195, 266, 487, and 341, where it is the
other way round -/
def Call.takesPlain (c : Call) (register : Bool) : Bool :=
  match c with
  | .config _ _ => register
  | _ => !register

/-- the wrappers: the plain kernel dereferences both pointers (wrappers:68, 149, 224, 300, 378, 518), the other one looks at them
(wrappers:75-79) -/
def wrapper (conf : Option Conf) (c : Call) (register : Bool) : Res (Option Launch) :=
  match conf.bind Conf.launch with
  | some (g, b) => .ok (some ⟨c, c.takesPlain register, register && !c.takesPlain register, g, b⟩)
  | none => if c.takesPlain register then .ub else .ok none

/-- what happens on the device -/
structure Device where
  send : Bool
  receive : Bool
  leaves : Launch → BitVec 64

/-- what the register on the device holds after a launch; it was empty before, common/control/arch_base.cpp:176-187 -/
def Device.after (d : Device) : Option Launch → BitVec 64
  | some l => if l.register then d.leaves l else 0#64
  | none => 0#64

/-- launching in one mode or the other, 1452-1472, 1528-1550, 1608-1626, 2352-2384, 2423-2461, 2497-2531: the status and the launch -/
def Job.run (j : Job) (d : Device) (conf : Option Conf) (c : Call) : Res (BitVec 32 × Option Launch) :=
  if j.debug = false then do
    let l ← wrapper conf c false
    pure (0#32, l)
  else if j.register then
    if d.send then do
      let l ← wrapper conf c true
      let s ← if d.receive then DebugReg.evaluate (d.after l) else pure (-1#32)
      pure (s, l)
    else .ok (-1#32, none)
  else .ok (-1#32, none)

/-- `trackUntilTurn`, 2321-2387: the number of particle sets is only asserted. -/
def Job.trackUntil (j : Job) (d : Device) (turn : Nat) : Res (BitVec 32 × Option Launch) :=
  match j.sets with
  | s :: _ => j.run d (j.conf (j.ids .until)) (.until s turn)
  | [] => .ub

/-- `trackElemByElemUntilTurn`, 2389-2464 -/
def Job.trackElemByElem (j : Job) (d : Device) (config turn : Nat) : Res (BitVec 32 × Option Launch) :=
  match j.sets with
  | s :: _ => j.run d (j.conf (j.ids .elemByElem)) (.elemByElem s config turn)
  | [] => .ub

/-- `trackLine`, 2466-2534: the configuration is that for tracking element by element, 2479. -/
def Job.trackLine (j : Job) (d : Device) (first last : Nat) (finish : Bool) : Res (BitVec 32 × Option Launch) :=
  match j.sets with
  | s :: _ => j.run d (j.conf (j.ids .elemByElem)) (.line s first last finish)
  | [] => .ub

/-- the launch if the arguments are `ready` and there is a configuration, 1447-1473, 1525-1551, 1605-1627 -/
def Job.runIf (j : Job) (ready : Bool) (d : Device) (conf : Option Conf) (c : Call) : Res (BitVec 32 × Option Launch) :=
  if ready ∧ conf.isSome then j.run d conf c else .ok (-1#32, none)

/-- `doAssignOutputBufferToBeamMonitorsCudaImpl`, 1400-1476; `own` is `minInitialTurnId()`, which replaces the argument, 1450. -/
def Job.assignMonitors (j : Job) (ready : Bool) (d : Device) (own _turn : Int) (offset : Nat) :
    Res (BitVec 32 × Option Launch) :=
  j.runIf ready d (j.conf (j.ids .monitors)) (.monitors own offset)

/-- `doAssignOutputBufferToElemByElemConfigCudaImpl`, 1478-1554: the configuration is that for beam monitors, 1492. -/
def Job.assignConfig (j : Job) (ready : Bool) (d : Device) (index offset : Nat) : Res (BitVec 32 × Option Launch) :=
  j.runIf ready d (j.conf (j.ids .monitors)) (.config index offset)

/-- `doFetchParticleAddresses`, 1558-1630 -/
def Job.fetch (j : Job) (ready : Bool) (d : Device) : Res (BitVec 32 × Option Launch) :=
  j.runIf ready d (j.conf (j.ids .addresses)) .addresses

end SixTrack.CudaLaunch
