import Verif.Argument
import Verif.ParticleSets

/-!
# Setting up the CUDA track job

Model of `doInitCudaTrackJob`, `/repo/sixtracklib/cuda/track_job.hpp` (`hpp`), and of the functions of
`/repo/sixtracklib/cuda/track/track_job.cpp` (line numbers without a file) that make the arguments of a job, with
`/repo/sixtracklib/common/track/track_job_base.cpp` (`base`).

* The arguments are those of `Verif/Argument.lean`, the particle sets those of `Verif/ParticleSets.lean`.
* What the base class does to beam elements and output is modelled elsewhere (C71, C72): here it is whether it succeeds, the
  output buffer, and the buffer of the configuration for output element by element.  The same goes for making the kernels and
  for assigning the output on the device (C102), and for the buffer for addresses (C86).
* The host holds for every buffer what it contains when it is sent.
* The output is needed or not whatever the earlier steps do (`OutputBuffer_required_for_tracking_of_particle_sets` is called even
  if they fail).
* A success is `true`.  The assertions are not modelled; neither is a lack of memory of the host.
-/

namespace SixTrack.CudaInit
open SixTrack.Arg SixTrack.ParticleSets SixTrack.Particles

/-- the arguments of a job, common/track/track_job_ctrl_arg_base.hpp -/
inductive Slot
  | particles | addr | elements | output | config
  deriving DecidableEq, Repr

/-- what matters of a job: `addrBuf` is the buffer for addresses, which the job always has, base:1746, 2231-2238; `config` is the
buffer of the configuration for output element by element if there is a configuration; `made` says that the kernels were made -/
structure Job where
  ctl : Option Ctl
  addrBuf : Nat
  arg : Slot → Option Arg
  pbuf : Option Nat
  ebuf : Option Nat
  out : Option Nat
  config : Option Nat
  sets : Sets
  ranges : Option Particles.Ranges
  made : Bool

/-- what the job is set up with: `objs` are the objects of the buffer of particles, `addrOk` says whether the buffer for addresses
can be prepared, and the others what the base class and the kernels do -/
structure World where
  f : Fmt
  h : Host
  objs : List (Option (List Attr))
  addrOk : Bool
  elements : Bool
  kernels : Bool
  required : Bool
  needsConfig : Bool
  needsMonitors : Bool
  output : Bool
  outBuf : Option Nat
  config : Option Nat
  configBase : Bool
  configCuda : Bool
  monitorsBase : Bool
  monitorsCuda : Bool

/-- `doUpdateStored…Arg`, common/track/track_job_ctrl_arg_base.cpp:986-1021 -/
def Job.put (j : Job) (s : Slot) (a : Arg) : Job := { j with arg := fun x => if x = s then some a else j.arg x }

/-- the next step is only taken after a success -/
def andThen (r : Bool × Job) (step : Job → Res (Bool × Job)) : Res (Bool × Job) := if r.1 then step r.2 else .ok r

/-- `doPrepareParticlesStructures` of the base, base:2194-2259 -/
def Job.baseParticles (w : World) (p : Option Nat) (j : Job) : Res (Bool × Job) :=
  match p with
  | some _ => do
    let r ← findRanges w.objs j.sets
    pure (if r.1 = 0 ∧ w.addrOk then (true, { j with ranges := some r.2 }) else (false, j))
  | none => .ok (false, j)

/-- `doPrepareParticlesStructuresCudaImpl`, 1167-1244 -/
def Job.particles (w : World) (p : Option Nat) (j : Job) : Res (Bool × Job) :=
  match j.ctl, p with
  | some c, some i => do
    let a ← Arg.newBuf w.f c w.h j.addrBuf true
    let q ← Arg.newBuf w.f c w.h i false
    if a.2.cxx = some j.addrBuf then pure (true, if q.2.c99 = some i then (j.put .addr a.2).put .particles q.2 else j.put .addr a.2)
    else pure (false, j.put .addr a.2)
  | _, _ => .ok (false, j)

/-- `doPrepareBeamElementsStructures` of the base, base:2269-2366 -/
def Job.baseElements (w : World) (e : Option Nat) (j : Job) : Res (Bool × Job) := .ok (e.isSome && w.elements, j)

/-- `doPrepareBeamElementsStructuresCudaImpl`, 1246-1281 -/
def Job.elements (w : World) (e : Option Nat) (j : Job) : Res (Bool × Job) :=
  match j.ctl, e with
  | some c, some i => do
    let a ← Arg.newBuf w.f c w.h i false
    pure (if a.2.c99 = some i then (true, j.put .elements a.2) else (false, j))
  | _, _ => .ok (false, j)

/-- `doPrepareDefaultKernelsCudaImpl`, 1028-1165 -/
def Job.kernels (w : World) (j : Job) : Res (Bool × Job) := .ok (w.kernels, { j with made := w.kernels })

/-- `doPrepareOutputStructures` of the base, base:2368-2559 -/
def Job.baseOutput (w : World) (j : Job) : Res (Bool × Job) := .ok (w.output, { j with out := w.outBuf, config := w.config })

/-- the argument for the configuration, 1303-1363 -/
def Job.configArg (w : World) (c : Ctl) (j : Job) : Res (Bool × Job) :=
  match j.config with
  | none => .ok (true, j)
  | some k => do
    let a ← Arg.newBuf w.f c w.h k true
    let s ← sendCxx w.f a.2 w.h k true
    pure (decide (s.1 ∧ s.2.cxx = some k), j.put .config s.2)

/-- the argument for the output, 1365-1396 -/
def Job.outputArg (w : World) (c : Ctl) (o : Nat) (j : Job) : Res (Bool × Job) := do
  let a ← Arg.newBuf w.f c w.h o false
  pure (decide (a.2.c99 = some o), j.put .output a.2)

/-- `doPrepareOutputStructuresCudaImpl`, 1283-1398 -/
def Job.output (w : World) (p : Option Nat) (j : Job) : Res (Bool × Job) :=
  match j.ctl, j.out, p with
  | some c, some o, some _ => do
    let r ← j.configArg w c
    andThen r (Job.outputArg w c o)
  | _, _, _ => .ok (false, j)

/-- a step of which only the status matters here -/
def status (b : Bool) (j : Job) : Res (Bool × Job) := .ok (b, j)

/-- assigning the output to the configuration, hpp:796-813 and 1720-1732 -/
def assignConfig (w : World) (r : Bool × Job) : Res (Bool × Job) :=
  if w.needsConfig then andThen r (status (w.configBase && w.configCuda)) else .ok r

/-- assigning the output to the monitors, hpp:815-833 and 1734-1752 -/
def assignMonitors (w : World) (r : Bool × Job) : Res (Bool × Job) :=
  if w.needsMonitors then andThen r (status (w.monitorsBase && w.monitorsCuda)) else .ok r

/-- assigning the output, hpp:793-834 and 1717-1753 -/
def assign (w : World) (r : Bool × Job) : Res (Bool × Job) :=
  if r.1 ∧ r.2.out.isSome ∧ w.required then do
    let r ← assignConfig w r
    assignMonitors w r
  else .ok r

/-- the particle sets in hpp:738-747: the status of `doSetParticleSetIndices` is ignored. -/
def Job.choose (w : World) (idx : List Nat) (j : Job) : Res (Bool × Job) :=
  if idx ≠ [] then .ok (true, { j with sets := (setIndices j.sets w.objs idx).2 }) else .ok (false, j)

/-- the output in hpp:774-791 -/
def initOutput (w : World) (p given : Option Nat) (r : Bool × Job) : Res (Bool × Job) :=
  if w.required ∨ given.isSome then do
    let r ← andThen r (Job.baseOutput w)
    andThen r (Job.output w p)
  else .ok r

/-- `doInitCudaTrackJob`, hpp:678-837; `early` says whether the controller, the configuration and the node are fine, 700-721. -/
def Job.init (w : World) (j : Job) (early : Bool) (p e given : Option Nat) (idx : List Nat) : Res (Bool × Job) := do
  let r ← andThen (early && j.ctl.isSome, j) (Job.baseParticles w p)
  let r ← andThen r (Job.particles w p)
  let r ← andThen r fun j => .ok (true, { j with pbuf := p })
  let r ← andThen r (Job.choose w idx)
  let r ← andThen r (Job.baseElements w e)
  let r ← andThen r (Job.elements w e)
  let r ← andThen r fun j => .ok (true, { j with ebuf := e })
  let r ← andThen r (Job.kernels w)
  let r ← initOutput w p given r
  assign w r

/-- the output in `doResetCudaImpl`, 1699-1715: the status so far is forgotten. -/
def resetOutput (w : World) (p given : Option Nat) (r : Bool × Job) : Res (Bool × Job) :=
  if w.required ∨ given.isSome then do
    let o ← Job.baseOutput w r.2
    if o.1 ∧ o.2.out.isSome then Job.output w p o.2
    else pure (if o.2.out = none then (false, o.2) else o)
  else .ok r

/-- `doResetCudaImpl` without the output, 1662-1697 -/
def Job.renew (w : World) (j : Job) (p e : Option Nat) : Res (Bool × Job) := do
  let r ← j.baseParticles w p
  let r ← andThen r (Job.particles w p)
  let r ← andThen r (Job.baseElements w e)
  let r ← andThen r (Job.elements w e)
  let r ← andThen r (Job.kernels w)
  andThen r fun j => .ok (true, { j with pbuf := p, ebuf := e })

/-- `doResetCudaImpl`, 1654-1764 -/
def Job.reset (w : World) (j : Job) (p e given : Option Nat) : Res (Bool × Job) := do
  let r ← j.renew w p e
  let r ← resetOutput w p given r
  if r.1 ∧ w.required ∧ r.2.out = none then pure (false, r.2) else assign w r

/-- `a && b` of two statuses, which is converted to a status, 749-761: `ARCH_STATUS_SUCCESS` is 0. -/
def bothStatus (a : Int) (b : Unit → Int) : Int := if a ≠ 0 then (if b () ≠ 0 then 1 else 0) else 0

end SixTrack.CudaInit
