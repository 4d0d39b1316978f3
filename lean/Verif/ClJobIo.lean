import Verif.ClArgument
import Verif.StoredBuffers

/-!
# Transfers of the OpenCL job

Model of `collect` and `push` of `TrackJobCl`, `/repo/sixtracklib/opencl/internal/track_job_cl.cpp` (line numbers without a
file), with what `TrackJobBase` adds, `/repo/sixtracklib/common/internal/track_job_base.cpp` (`base`) and
`track_job_base.h`, and the flags of `/repo/sixtracklib/common/track/definitions.h`.

* Arguments, buffers of the host and OpenCL are those of `Verif/ClArgument.lean`; the arguments have the context of the job.
* `ptrCParticlesBuffer` and the like are members; a null pointer as a buffer is refused by an argument like one without data
  (buffer.h:708-720).
* The context is there.  What launching the kernel that fetches addresses does is a parameter, see `Verif/ClTrack.lean`.
* Stored buffers are those of `Verif/StoredBuffers.lean`; here the arguments of their slots are given as well.
-/

namespace SixTrack.ClIo
open SixTrack.Arg (Bytes Fmt Host)
open SixTrack.ClArg
open SixTrack.AssignList (ILLEGAL_ID MIN_USER_ID)

/-- What a job transfers, in the order of `collect` and `push`, 1368-1443 -/
inductive Part
  | particles
  | output
  | elements
  | addresses
  deriving DecidableEq, Repr

/-- `TRACK_JOB_IO_...`, definitions.h:143-156 -/
def Part.flag : Part → BitVec 16
  | .particles => 1
  | .elements => 2
  | .output => 4
  | .addresses => 16

/-- `TRACK_JOB_COLLECT_ALL`, definitions.h:158-159 -/
def COLLECT_ALL : BitVec 16 := 31

/-- `TRACK_JOB_PUSH_ALL`, definitions.h:161-162 -/
def PUSH_ALL : BitVec 16 := 15

/-- `TRACK_JOB_IO_DEFAULT_FLAGS`, definitions.h:164-165 -/
def DEFAULT_FLAGS : BitVec 16 := 5

/-- `IsCollectFlagSet`, track_job_base.h:1151-1156 -/
def isSet (flags flag : BitVec 16) : Bool := flags &&& flag == flag

/-- `UnsetCollectFlag`, track_job_base.h:1158-1164 -/
def unset (flags flag : BitVec 16) : BitVec 16 := flags &&& ~~~flag

/-- The members: the arguments and the buffers, `m_collect_flags` and `m_has_particle_addresses`, and the stored buffers with
the arguments of their slots. -/
structure Job where
  sys : Sys
  host : Host
  arg : Part → Option Argument
  buf : Part → Option Nat
  flags : BitVec 16
  hasAddr : Bool
  stored : StoredBuf.Dev
  slot : Nat → Argument

/-- the argument of a part from now on -/
def Job.setArg (j : Job) (p : Part) (a : Argument) : Job :=
  { j with arg := fun q => if q = p then some a else j.arg q }

/-- the argument of a slot from now on -/
def Job.setSlot (j : Job) (k : Nat) (a : Argument) : Job := { j with slot := fun i => if i = k then a else j.slot i }

/-! ## Collecting and pushing -/

/-- reading a part, as in 1371-1377: nobody looks at the result. -/
def Job.read (f : Fmt) (o : Cl) (j : Job) (p : Part) : Res Job :=
  match j.arg p, j.buf p with
  | some a, some i => do
    let r ← readBuf f o j.sys a j.host i
    pure ({ j with host := r.2.1 }.setArg p r.2.2)
  | _, _ => .ok j

/-- writing a part, as in 1409-1415: the result is thrown away, 1442. -/
def Job.write (f : Fmt) (o : Cl) (j : Job) (p : Part) : Res Job :=
  match j.arg p, j.buf p with
  | some a, some i => do
    let r ← writeBuf f o j.sys a j.host i
    pure ({ j with sys := r.2.1 }.setArg p r.2.2)
  | _, _ => .ok j

/-- one part after another -/
def each (g : Job → Part → Res Job) (flags : BitVec 16) : Job → List Part → Res Job
  | j, [] => .ok j
  | j, p :: ps => do
    let j ← if isSet flags p.flag then g j p else pure j
    each g flags j ps

/-- the order of the parts -/
def PARTS : List Part := [.particles, .output, .elements, .addresses]

/-- `collect` with flags, 1368-1401; `doCollect`, 695-698 -/
def Job.doCollect (f : Fmt) (o : Cl) (j : Job) (flags : BitVec 16) : Res Job := each (Job.read f o) flags j PARTS

/-- `push` with flags, 1403-1443; `doPush`, 700-703 -/
def Job.doPush (f : Fmt) (o : Cl) (j : Job) (flags : BitVec 16) : Res Job := each (Job.write f o) flags j PARTS

/-- `collect` with flags, base:108-111 -/
def Job.collect (f : Fmt) (o : Cl) (j : Job) (flags : BitVec 16) : Res Job := j.doCollect f o (flags &&& COLLECT_ALL)

/-- `collect`, base:103-106 -/
def Job.collectDefault (f : Fmt) (o : Cl) (j : Job) : Res Job := j.doCollect f o j.flags

/-- `push`, base:203-206 -/
def Job.push (f : Fmt) (o : Cl) (j : Job) (flags : BitVec 16) : Res Job := j.doPush f o flags

/-- `collectParticles` and the like, base:113-126 -/
def Job.collectPart (f : Fmt) (o : Cl) (j : Job) (p : Part) : Res Job := j.doCollect f o p.flag

/-- `collectParticlesAddresses`, base:128-132: always a success -/
def Job.collectAddresses (f : Fmt) (o : Cl) (j : Job) : Res (Bool × Job) := do
  let j ← j.doCollect f o Part.addresses.flag
  pure (true, j)

/-- `pushParticles` and the like, base:208-226 -/
def Job.pushPart (f : Fmt) (o : Cl) (j : Job) (p : Part) : Res Job := j.doPush f o p.flag

/-! ## Flags -/

/-- `enableCollectParticles` and the like, base:134-137, 151-154, 168-171 -/
def Job.enable (j : Job) (p : Part) : Job := { j with flags := j.flags ||| p.flag }

/-- `disableCollectParticles` and the like, base:139-143, 156-160, 173-177 -/
def Job.disable (j : Job) (p : Part) : Job := { j with flags := unset j.flags p.flag }

/-- `isCollectingParticles` and the like, base:145-149, 162-166, 179-183 -/
def Job.collects (j : Job) (p : Part) : Bool := isSet j.flags p.flag

/-- `setCollectFlags`, base:190-194 -/
def Job.setFlags (j : Job) (flags : BitVec 16) : Job := { j with flags := flags &&& COLLECT_ALL }

/-! ## Addresses of particles -/

/-- `doFetchParticleAddresses`, 381-401, with a kernel for it or not, and what launching it does; the result says whether it
is a success. -/
def Job.doFetch (f : Fmt) (o : Cl) (kernel : Bool) (launch : Sys → Res (Bool × Sys)) (j : Job) : Res (Bool × Job) :=
  if j.sys.ctx.hasNode ∧ kernel then
    match j.arg .addresses with
    | some a => do
      let r ← launch j.sys
      let j := { j with sys := r.2 }
      if r.1 then
        match j.buf .addresses with
        | some i => do
          let r ← readBuf f o j.sys a j.host i
          pure (decide (r.1 = 0), { j with host := r.2.1 }.setArg .addresses r.2.2)
        | none => .ok (false, j)
      else pure (false, j)
    | none => .ok (false, j)
  else .ok (false, j)

/-- `fetchParticleAddresses`, base:259-275; collecting is required, 52, 78. -/
def Job.fetch (f : Fmt) (o : Cl) (kernel : Bool) (launch : Sys → Res (Bool × Sys)) (j : Job) : Res (Bool × Job) := do
  let r ← j.doFetch f o kernel launch
  if r.1 then do
    let c ← r.2.collectAddresses f o
    if c.1 then pure (true, { c.2 with hasAddr := true }) else pure c
  else pure r

/-- The buffers after `doClearBaseImpl`, base:3198-3243: the arguments stay. -/
def Job.clear (j : Job) : Res Job := do
  let s ← j.stored.job.clearOld
  pure { j with buf := fun _ => none, hasAddr := false, stored := { j.stored with job := s } }

/-! ## Stored buffers -/

/-- `doAddStoredBuffer`, 626-643, with `doAddStoredBufferOclImpl`, 1171-1219: the argument is made of the new buffer, the
status does not depend on it. -/
def Job.addStored (f : Fmt) (o : Cl) (j : Job) (g : StoredBuf.Gift) : Res (Nat × Job) := do
  let r ← j.stored.add g
  match r.1.arg r.2 with
  | some i => do
    let a ← newBuf f o j.sys j.host i
    pure (r.2, { j with stored := r.1, sys := a.2.1 }.setSlot (r.2 - MIN_USER_ID) a.2.2)
  | none => .ok (r.2, { j with stored := r.1 })

/-- `doRemoveStoredBuffer`, 645-652, 1221-1239 -/
def Job.removeStored (j : Job) (id : Nat) : Res (Bool × Job) := do
  let r ← j.stored.remove id
  pure (decide (r.2 = SixTrack.SUCCESS), { j with stored := r.1 })

/-- `doPushStoredBufferOclImpl`, 1241-1273 -/
def Job.pushStored (f : Fmt) (o : Cl) (j : Job) (id : Nat) : Res (Bool × Job) :=
  match j.stored.transfer id with
  | some (_, i) => do
    let r ← writeBuf f o j.sys (j.slot (id - MIN_USER_ID)) j.host i
    pure (decide (r.1 = 0), { j with sys := r.2.1 }.setSlot (id - MIN_USER_ID) r.2.2)
  | none => .ok (false, j)

/-- `doCollectStoredBufferOclImpl`, 1275-1305 -/
def Job.collectStored (f : Fmt) (o : Cl) (j : Job) (id : Nat) : Res (Bool × Job) :=
  match j.stored.transfer id with
  | some (_, i) => do
    let r ← readBuf f o j.sys (j.slot (id - MIN_USER_ID)) j.host i
    pure (decide (r.1 = 0), { j with host := r.2.1 }.setSlot (id - MIN_USER_ID) r.2.2)
  | none => .ok (false, j)

end SixTrack.ClIo
