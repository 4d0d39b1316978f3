import Verif.ClJob
import Verif.AssignList
import Verif.StoredBuffers

/-!
# Address assignments of the OpenCL job

Model of `buffer_by_buffer_id`, `/repo/sixtracklib/common/internal/track_job_base.cpp` (`base`), and of the arguments by
buffer id and of the address assignments of `TrackJobCl`, `/repo/sixtracklib/opencl/internal/track_job_cl.cpp` (line
numbers without a file).

* The lists of items are those of `Verif/AssignList.lean`, stored buffers those of `Verif/StoredBuffers.lean`, arguments
  those of `Verif/ClJob.lean`, and the launch is that of `Verif/ClTrack.lean`.  What the kernel does is in `Verif/Assign.lean`.
* The buffers of the job itself, and their arguments, are given by their ids 1 to 5 (control/definitions.h:138-156).
* The argument of the items is made for each launch; whether it gets their buffer is a parameter.  It is gone after the
  launch: what OpenCL does with its memory then is left out.
-/

namespace SixTrack.ClAddr
open ClTrack ClJob AssignList

/-- The members: the context, the lists of items, the buffers of the job and their arguments, and the stored buffers with
the arguments of their slots. -/
structure Job where
  t : Tracker
  lists : Lists
  own : Nat → Option Nat
  held : Nat → Option Held
  stored : StoredBuf.Dev
  slot : Nat → ClTrack.Buf

/-- OpenCL, and the arguments made of items: their addresses, their memory, and whether they get the buffer. -/
structure Env where
  dev : ClTrack.Dev
  at_ : Key → Nat
  mem : Key → Nat
  made : Key → Bool

/-- `buffer_by_buffer_id`, base:939-987 -/
def Job.buffer (j : Job) (id : Nat) : Option Nat :=
  if 1 ≤ id ∧ id ≤ 5 then j.own id
  else if MIN_USER_ID ≤ id ∧ id ≤ MAX_USER_ID then j.stored.job.ptr id
  else none

/-- `ptr_const_argument_by_buffer_id`, 405-449, with `ptr_const_stored_buffer_argument`, 485-508 -/
def Job.argument (j : Job) (id : Nat) : Option Held :=
  if 1 ≤ id ∧ id ≤ 5 then j.held id
  else (j.stored.arg id).map fun b => ⟨j.slot (id - j.stored.job.minId), b⟩

/-- `NS(BUFFER_DEFAULT_SLOT_SIZE)`, buffer/buffer_type.h:103-105, 171-172: buffers of items have slots of that size. -/
def ITEM_SLOT : Nat := 8

/-- the argument `assign_items_arg`, 1352 -/
def Env.items (e : Env) (l : Lists) (k : Key) : ClTrack.Buf :=
  ⟨e.at_ k, e.mem k, true, if e.made k then some (l.num k, ITEM_SLOT) else none⟩

/-- `doPerformAddressAssignmentsOclImpl`, 1317-1360; the result says whether the status is a success. -/
def Job.perform (e : Env) (j : Job) (k : Key) : Res (Bool × Job) :=
  match j.buffer k.dest, j.argument k.dest, j.buffer k.src, j.argument k.src with
  | some d, some da, some s, some sa =>
    if 0 < j.lists.num k ∧ Held.has (some sa) s ∧ Held.has (some da) d then do
      let r ← j.t.assignAddresses e.dev (e.items j.lists k) da.buf k.dest sa.buf k.src
      pure (decide (r.1 = 0#32), { j with t := r.2 })
    else .ok (false, j)
  | _, _, _, _ => .ok (false, j)

/-- the loop in `assign_all_addresses`, base:1115-1119 -/
def Job.performAll (e : Env) : Job → List Key → Res (Bool × Job)
  | j, [] => .ok (true, j)
  | j, k :: ks => do
    let r ← j.perform e k
    if r.1 then r.2.performAll e ks else pure r

/-- `assign_all_addresses`, base:1108-1122 -/
def Job.assignAll (e : Env) (j : Job) : Res (Bool × Job) := j.performAll e (j.lists.map.map Prod.fst)

end SixTrack.ClAddr
