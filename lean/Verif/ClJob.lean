import Verif.ClTrack

/-!
# Preparing, resetting and tracking of the OpenCL job

Model of `TrackJobCl`, `/repo/sixtracklib/opencl/internal/track_job_cl.cpp` (line numbers without a file) and
`/repo/sixtracklib/opencl/track_job_cl.h`.  What its context does is in `Verif/ClTrack.lean`.

* The job has a context; it may have no node if no device has been asked for, 781-812.
* C buffers are numbered.  Whether the constructor of an argument manages to write the buffer to the device, and whether
  later transfers succeed, are parameters (`Env`); only if it does, the argument has the C buffer (`Verif/ClArgument.lean`).
  An argument always has memory, and belongs to the context of the job.
* What the functions of `TrackJobBase` give is a parameter (`Base`, see `Verif/OldJob.lean`); which C buffers the job keeps,
  and the number of particles it keeps, are left out.
* The particle sets are given with their numbers of particles.  Clearing the job, which a reset begins with, concerns the
  members of `TrackJobBase` only: the class has no `doClear`.
* Assertions are not compiled; those in 830-831 and in 1445-1634 would end a program that tracks several sets or has no node.
-/

namespace SixTrack.ClJob
open ClContext ClRun ClTrack

/-- An argument of the job, and the C buffer it has been made with. -/
structure Held where
  buf : Buf
  of : Nat
  deriving DecidableEq, Repr

/-- The members: the context `m_ptr_context`, the particle sets, the C buffer of the addresses of particles, and the
arguments `m_ptr_..._arg`, track_job_cl.h:397-402. -/
structure Job where
  t : Tracker
  sets : List (Nat × Nat)
  addr : Nat
  particles : Option Held
  elements : Option Held
  output : Option Held
  addresses : Option Held
  config : Option Held

/-- OpenCL, and the arguments: their addresses, their memory, numbers of objects and slot sizes of the C buffers, whether
making an argument writes the buffer, and whether reading and writing succeed later. -/
structure Env where
  dev : Dev
  at_ : Nat → Nat
  mem : Nat → Nat
  content : Nat → Nat × Nat
  made : Nat → Bool
  reads : Nat → Bool
  writes : Nat → Bool

/-- What the functions of `TrackJobBase` give: whether they succeed, whether output is required, the output buffer, the
buffer of the configuration for tracking element by element, which outputs the job has, the number of particles, and the
first turn and the offsets for the output. -/
structure Base where
  particles : Bool
  elements : Bool
  output : Bool
  ebe : Bool
  mon : Bool
  needsEbe : Bool
  needsMon : Bool
  out : Option Nat
  config : Option Nat
  hasEbe : Bool
  hasMon : Bool
  total : Nat
  minTurn : Int
  ebeOffset : Nat
  monOffset : Nat

/-- `new arg_t( buffer, context )`, as in 838 -/
def Env.arg (e : Env) (c : Nat) : Buf := ⟨e.at_ c, e.mem c, true, if e.made c then some (e.content c) else none⟩

/-- an argument which has been made with the buffer `c`, and has it -/
def Held.has (h : Option Held) (c : Nat) : Bool :=
  match h with
  | some h => h.buf.mine && h.buf.cobj.isSome && decide (h.of = c)
  | none => false

/-! ## Preparing -/

/-- the context after a call that has a status -/
def Job.after (j : Job) (r : Bool × Tracker) : Bool × Job := (r.1, { j with t := r.2 })

/-- `do_update_stored_particles_addr_arg`, 738-759, with the argument made in 841-842 -/
def storeAddr (e : Env) (j : Job) : Res (Bool × Job) :=
  let b := e.arg j.addr
  let j := { j with addresses := some ⟨b, j.addr⟩ }
  if b.cobj.isSome ∧ b.mine then
    if j.t.ctx.hasNode then do
      let r ← j.t.assignAddrBuffer b
      pure (j.after r)
    else .ok (true, j)
  else .ok (false, j)

/-- the two assignments in 857-862; the first of the particle sets is read -/
def assignFirst (j : Job) (b : Buf) : Res Job := do
  let r ← j.t.assignParticles b
  if r.1 then
    match j.sets with
    | (p, n) :: _ => do
      let s ← r.2.assignSet p n
      pure { j with t := s.2 }
    | [] => .ub
  else pure { j with t := r.2 }

/-- `doPrepareParticlesStructuresOclImp`, 817-869: the last condition, 849-865, can not make it fail. -/
def prepareParticles (e : Env) (base : Base) (j : Job) (pb : Option Nat) : Res (Bool × Job) :=
  match pb with
  | none => .ok (false, j)
  | some pb => do
    let r ← storeAddr e { j with particles := some ⟨e.arg pb, pb⟩ }
    if r.1 ∧ 0 < base.total ∧ (e.arg pb).cobj.isSome ∧ (e.arg pb).mine ∧ r.2.t.ctx.hasNode then do
      let j ← assignFirst r.2 (e.arg pb)
      pure (r.1, j)
    else pure r

/-- `doPrepareBeamElementsStructuresOclImp`, 871-898 -/
def prepareElements (e : Env) (j : Job) (be : Option Nat) : Res (Bool × Job) :=
  match be with
  | none => .ok (false, j)
  | some be =>
    let j := { j with elements := some ⟨e.arg be, be⟩ }
    if (e.arg be).cobj.isSome ∧ (e.arg be).mine then
      if j.t.ctx.hasNode then do
        let r ← j.t.assignElements (e.arg be)
        pure (j.after r)
      else .ok (true, j)
    else .ok (false, j)

/-- the configuration, 936-966: after it has been written, the argument has the C buffer. -/
def prepareConfig (e : Env) (j : Job) (c : Nat) : Res (Bool × Job) :=
  if e.writes c then do
    let b := { e.arg c with cobj := some (e.content c) }
    let j := { j with config := some ⟨b, c⟩ }
    let r ← j.t.assignConfig b
    if r.1 then do
      let s ← r.2.assignConfigIndex 0
      pure (j.after s)
    else pure (j.after r)
  else .ok (false, { j with config := some ⟨e.arg c, c⟩ })

/-- 916-929 -/
def assignOut (e : Env) (j : Job) (out : Nat) : Res (Bool × Job) :=
  let j := { j with output := some ⟨e.arg out, out⟩ }
  if j.t.ctx.hasNode then do
    let r ← j.t.assignOutput (e.arg out)
    pure (j.after r)
  else .ok (true, j)

/-- `doPrepareOutputStructuresOclImpl`, 900-970, for an output buffer and particles that are not null -/
def prepareOutput (e : Env) (base : Base) (j : Job) (out : Nat) : Res (Bool × Job) := do
  let r ← assignOut e j out
  if r.1 then
    match base.config with
    | some c => prepareConfig e r.2 c
    | none => pure r
  else pure r

/-! ## Handing out the output -/

/-- the output buffer becomes an argument again, 993-995 and 1033-1035 -/
def again (j : Job) : Res (Bool × Job) :=
  match j.output with
  | some h => do
    let r ← j.t.assignOutput h.buf
    pure (j.after r)
  | none => .ub

/-- `doAssignOutputBufferToBeamMonitorsOclImp`, 972-1011 -/
def handMonitors (e : Env) (base : Base) (j : Job) (be out : Nat) : Res (Bool × Job) :=
  if j.t.ctx.hasNode then do
    let h ← j.t.has .monOut
    if h ∧ base.hasMon ∧ Held.has j.elements be ∧ Held.has j.output out then do
      let r ← again j
      if r.1 then do
        let s ← r.2.t.assignMonitors e.dev base.minTurn base.monOffset
        pure (decide (s.1 = 0#32) && e.reads be, { r.2 with t := s.2 })
      else pure r
    else pure (false, j)
  else .ok (false, j)

/-- `doAssignOutputBufferToElemByElemConfigOclImpl`, 1013-1059: it succeeds if the conditions are met, whatever the calls
give, 1055. -/
def handEbe (e : Env) (base : Base) (j : Job) (out : Nat) : Res (Bool × Job) :=
  if j.t.ctx.hasNode then do
    let h ← j.t.has .elemOut
    if h ∧ base.hasEbe ∧ j.config.isSome ∧ base.config.isSome ∧ j.elements.isSome ∧ Held.has j.output out then do
      let r ← again j
      if r.1 then do
        let s ← r.2.t.assignElemOut e.dev base.ebeOffset
        pure (true, { r.2 with t := s.2 })
      else pure (true, r.2)
    else pure (false, j)
  else .ok (false, j)

/-- 1127-1139: the output of tracking element by element -/
def stepEbe (e : Env) (base : Base) (j : Job) (out : Nat) : Res (Bool × Job) :=
  if base.needsEbe then
    if base.ebe then handEbe e base j out else .ok (false, j)
  else .ok (true, j)

/-- 1141-1159: the output of monitors -/
def stepMonitors (e : Env) (base : Base) (j : Job) (be out : Nat) : Res (Bool × Job) :=
  if base.needsMon then
    if base.mon then handMonitors e base j be out else .ok (false, j)
  else .ok (true, j)

/-- 1124-1164; `strict`: a required output buffer has to be there, as in a reset, 1161-1164, but not when the job is made -/
def handOut (e : Env) (base : Base) (j : Job) (be : Nat) (strict : Bool) : Res (Bool × Job) :=
  if base.needsEbe ∨ base.needsMon then
    match base.out with
    | some out => do
      let r ← stepEbe e base j out
      if r.1 then stepMonitors e base r.2 be out else pure r
    | none => .ok (!strict, j)
  else .ok (true, j)

/-- 1102-1164, track_job_cl.h:723-780 -/
def outputPart (e : Env) (base : Base) (j : Job) (be : Nat) (given : Option Nat) (strict : Bool) : Res (Bool × Job) :=
  if base.needsEbe ∨ base.needsMon ∨ given.isSome then
    if base.output then
      match base.out with
      | some out => do
        let r ← prepareOutput e base j out
        if r.1 then handOut e base r.2 be strict else pure r
      | none => handOut e base j be strict
    else .ok (false, j)
  else .ok (true, j)

/-- `doResetOclImp`, 1061-1167, whose beam elements are not null if the base accepts them -/
def resetJob (e : Env) (base : Base) (j : Job) (pb be given : Option Nat) : Res (Bool × Job) :=
  if base.particles ∧ base.elements then do
    let r ← prepareParticles e base j pb
    if r.1 then do
      let s ← prepareElements e r.2 be
      match s.1, be with
      | true, some be => outputPart e base s.2 be given true
      | _, _ => pure (false, s.2)
    else pure r
  else .ok (false, j)

/-- `doInitTrackJobCl`, track_job_cl.h:641-783, after the context has been made and the sets have been chosen: the order is
that of the particles and then the elements. -/
def initJob (e : Env) (base : Base) (j : Job) (pb be given : Option Nat) : Res (Bool × Job) :=
  if base.particles then do
    let r ← prepareParticles e base j pb
    if r.1 ∧ base.elements then do
      let s ← prepareElements e r.2 be
      match s.1, be with
      | true, some be => outputPart e base s.2 be given false
      | _, _ => pure (false, s.2)
    else pure (false, r.2)
  else .ok (false, j)

/-! ## Tracking -/

/-- the loops over the particle sets in 1485-1493 and the like -/
def trackSets (call : Tracker → Nat → Nat → Res (BitVec 32 × Tracker)) :
    Tracker → BitVec 32 → List (Nat × Nat) → Res (BitVec 32 × Tracker)
  | t, s, [] => .ok (s, t)
  | t, s, (p, n) :: rest => do
    let r ← call t p n
    trackSets call r.2 (s ||| r.1) rest

/-- the assignment after a loop, 1498-1500 and the like: an argument of the kernel for the task -/
def putBack (t : Tracker) (w : Task) (p : Nat) : Res Tracker := do
  let k ← t.id w
  let c ← put t.ctx k 1 ⟨.value, none⟩ (.value p)
  pure { t with ctx := c }

/-- the common part of the functions below -/
def overSets (w : Task) (one : Tracker → Res (BitVec 32 × Tracker))
    (call : Tracker → Nat → Nat → Res (BitVec 32 × Tracker)) (j : Job) : Res (BitVec 32 × Job) :=
  match j.sets with
  | [] => .ok (-1#32, j)
  | [_] => do
    let r ← one j.t
    pure (r.1, { j with t := r.2 })
  | sets => do
    let r ← trackSets call j.t 0#32 sets
    let t ← putBack r.2 w j.t.pset
    pure (r.1, { j with t := t })

/-- `track`, 1445-1504; the turn has no sign and becomes a number with a sign. -/
def track (d : Dev) (j : Job) (turn : BitVec 64) : Res (BitVec 32 × Job) :=
  overSets .turn (fun t => t.trackUntil d turn.toInt) (fun t p n => t.trackUntilSet d turn.toInt p n false) j

/-- `trackElemByElem`, 1506-1570 -/
def trackElem (d : Dev) (j : Job) (turn : BitVec 64) : Res (BitVec 32 × Job) :=
  overSets .elem (fun t => t.trackElem d turn.toNat) (fun t p n => t.trackElemSet d turn.toNat p n false) j

/-- `trackLine`, 1572-1634 -/
def trackLine (d : Dev) (j : Job) (first last : Nat) (finish : Bool) : Res (BitVec 32 × Job) :=
  overSets .line (fun t => t.trackLine d first last finish) (fun t p n => t.trackLineSet d first last finish p n false) j

end SixTrack.ClJob
