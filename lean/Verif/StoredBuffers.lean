import Verif.BufferStore
import Verif.AssignList

/-!
# The buffers a user stores in a track job

Model of `/repo/sixtracklib/common/track/track_job_base.cpp` (`TrackJobBaseNew`, lines 1192-1322, 1541-1573,
2797-2852) and of `/repo/sixtracklib/common/internal/track_job_base.cpp` (`TrackJobBase`, lines 1132-1262,
2484-2549, 3066-3094), which are the same up to names, and of what the device jobs add
(`/repo/sixtracklib/cuda/track/track_job.cpp`, 678-708, 838-871, 2116-2240, and
`/repo/sixtracklib/opencl/internal/track_job_cl.cpp`, 485-515, 626-664, 1171-1310, again the same).  Line numbers
without a file are those of the first file.

* A slot of `m_stored_buffers` is a `BStore.Store` (see `Verif/BufferStore.lean`); buffers are numbers, `alive`
  tells which exist.  Slots are only moved when the vector grows, so that its position is all that changes.
* When a `std::vector` has to grow, it doubles its capacity (as libstdc++ does).  The number of slots ever used is
  less than 2^64 - 1024, so that ids do not wrap.
* Of a device argument only the buffer it has been made for is kept; `send` and `receive` are modelled in
  `Verif/Argument.lean`.  The controller (the context) is there.
-/

namespace SixTrack.StoredBuf
open SixTrack.BStore
open SixTrack.AssignList (ILLEGAL_ID MIN_USER_ID)

/-- The members that matter here: `m_stored_buffers`, its capacity, `m_num_stored_buffers`; and the buffers of the
program: `next` is the first number that has not been used. -/
structure Job where
  slots : List Store
  cap : Nat
  num : Nat
  next : Nat
  alive : Nat → Bool

/-- A new job (1742, 1756), in a program with the buffers `0`, …, `n - 1`. -/
def Job.new (n : Nat) : Job := ⟨[], 0, 0, n, fun b => decide (b < n)⟩

/-- What `add_stored_buffer` may be called with (track_job_buffer_store.h:77-93). -/
inductive Gift
  /-- a capacity and flags -/
  | create
  /-- a C++ buffer and whether to take ownership -/
  | cxx (b : Option Nat) (take : Bool)
  /-- a C buffer, whether to take ownership and whether to delete what is left of it then -/
  | c99 (b : Option Nat) (take del : Bool)
  /-- a `std::unique_ptr` to a C++ buffer -/
  | unique (b : Option Nat)
  /-- a C++ buffer to move from -/
  | move (b : Nat)
  deriving DecidableEq, Repr

/-- Delete a buffer; deleting one which does not exist is undefined. -/
def Job.free (j : Job) : Option Nat → Res Job
  | none => .ok j
  | some b => if j.alive b then .ok { j with alive := fun c => if c = b then false else j.alive c } else .ub

/-- `new Buffer`. -/
def Job.fresh (j : Job) : Job :=
  { j with next := j.next + 1, alive := fun b => if b = j.next then true else j.alive b }

/-- A store which owns `b`. -/
def owned (b : Nat) : Store := ⟨some b, some b, some b⟩

/-- The constructors of `TrackJobBufferStore` (track_job_buffer_store.cpp:41-83, with `reset`, 214-306). -/
def Job.construct (j : Job) : Gift → Res (Job × Store)
  | .create => .ok (j.fresh, owned j.next)
  | .cxx none _ => .ok (j, Store.empty)
  | .cxx (some b) take => .ok (j, if take then owned b else ⟨some b, some b, none⟩)
  | .c99 none _ _ => .ok (j, Store.empty)
  | .c99 (some b) take del =>
    if take then do
      let j' ← (if del then j.fresh.free (some b) else .ok j.fresh)
      return (j', owned j.next)
    else .ok (j, ⟨none, some b, none⟩)
  | .unique none => .ok (j, Store.empty)
  | .unique (some b) => .ok (j, owned b)
  | .move _ => .ok (j.fresh, owned j.next)

/-- `std::vector::emplace_back`: the capacity afterwards. -/
def grown (cap size : Nat) : Nat := if size < cap then cap else if size = 0 then 1 else 2 * size

/-- `do_add_stored_buffer` (2799-2811). -/
def Job.doAdd (j : Job) (s : Store) : Job × Nat :=
  ({ j with
      slots := j.slots ++ [s]
      cap := grown j.cap j.slots.length
      num := if s.active then j.num + 1 else j.num },
    MIN_USER_ID + j.slots.length)

/-- `add_stored_buffer` (track_job_base.hpp:1211-1217). -/
def Job.add (j : Job) (g : Gift) : Res (Job × Nat) := do
  let (j', s) ← j.construct g
  return j'.doAdd s

/-- `stored_buffers_capacity` (1193-1196). -/
def Job.capacity (j : Job) : Nat := j.cap

/-- `reserve_stored_buffers_capacity` (1198-1209); `reserve` of a vector takes the larger capacity. -/
def Job.reserve (j : Job) (capacity : Nat) : Job × Int :=
  if capacity < j.cap then ({ j with cap := max j.cap capacity }, SUCCESS) else (j, FAILURE)

/-- `has_stored_buffers` (1211-1214) -/
def Job.has (j : Job) : Bool := 0 < j.num

/-- `num_stored_buffers` (1216-1227) -/
def Job.count (j : Job) : Nat := j.num

/-- `min_stored_buffer_id` (1229-1233) -/
def Job.minId (j : Job) : Nat := if j.has then MIN_USER_ID else ILLEGAL_ID

/-- `max_stored_buffer_id` (1235-1247) -/
def Job.maxId (j : Job) : Nat :=
  if j.minId ≠ ILLEGAL_ID then j.minId + j.slots.length - 1 else j.minId

/-- The condition for an id in `do_get_ptr_buffer_store` (1549-1552) and `do_remove_stored_buffer` (2819-2822). -/
def Job.inRange (j : Job) (id : Nat) : Bool :=
  j.minId ≠ ILLEGAL_ID && id ≠ ILLEGAL_ID && j.minId ≤ id && id < j.minId + j.slots.length

/-- `do_get_ptr_buffer_store` (1541-1561) -/
def Job.store (j : Job) (id : Nat) : Option Store :=
  if j.inRange id then j.slots[id - j.minId]? else none

/-- `owns_stored_buffer` (1249-1255) -/
def Job.owns (j : Job) (id : Nat) : Bool :=
  match j.store id with
  | none => false
  | some s => s.ownsBuffer

/-- `ptr_stored_cxx_buffer` (1290-1298); `stored_cxx_buffer` (1268-1281) throws if this is a null pointer. -/
def Job.ptrCxx (j : Job) (id : Nat) : Option Nat :=
  match j.store id with
  | none => none
  | some s => s.cxx

/-- `ptr_stored_buffer` (1307-1315) -/
def Job.ptr (j : Job) (id : Nat) : Option Nat :=
  match j.store id with
  | none => none
  | some s => s.c99

/-- `do_remove_stored_buffer` (2813-2837), `remove_stored_buffer` (1257-1260). -/
def Job.remove (j : Job) (id : Nat) : Res (Job × Int) :=
  if j.inRange id then
    match j.slots[id - j.minId]? with
    | none => .ub
    | some s =>
      if s.active then do
        let j' ← j.free s.own
        return ({ j' with slots := j'.slots.set (id - j.minId) Store.empty, num := j'.num - 1 }, SUCCESS)
      else .ok (j, SUCCESS)
  else .ok (j, FAILURE)

/-- `do_push_stored_buffer` and `do_collect_stored_buffer` (2839-2857) on the host: there is nothing to copy. -/
def Job.push (j : Job) (id : Nat) : Int :=
  match j.store id with
  | none => FAILURE
  | some _ => SUCCESS

/-- Delete all that is in a list of stores. -/
def Job.freeAll (j : Job) : List Store → Res Job
  | [] => .ok j
  | s :: ss => do
    let j' ← j.free s.own
    j'.freeAll ss

/-- What `doClearBaseImpl` of the older job (internal/track_job_base.cpp:3198-3243) does with the stored buffers;
the newer job keeps them when it is cleared (track_job_base.cpp:2157-2197).  `clear` does not change the capacity
of a vector. -/
def Job.clearOld (j : Job) : Res Job := do
  let j' ← j.freeAll j.slots
  return { j' with slots := [], num := 0 }

/-- What a user does with the stored buffers of a job. -/
inductive Op
  | add (g : Gift)
  | remove (id : Nat)
  | reserve (capacity : Nat)
  | clearOld
  deriving DecidableEq, Repr

def Job.step (j : Job) : Op → Res Job
  | .add g => do
    let r ← j.add g
    return r.1
  | .remove id => do
    let r ← j.remove id
    return r.1
  | .reserve c => .ok (j.reserve c).1
  | .clearOld => j.clearOld

def Job.run (j : Job) : List Op → Res Job
  | [] => .ok j
  | o :: os => do
    let j' ← j.step o
    j'.run os

/-! ### Device jobs -/

/-- A device job: `args` is `m_stored_buffer_args` (`m_stored_buffers_args` for OpenCL); of an argument the buffer
is kept for which it has been made. -/
structure Dev where
  job : Job
  args : List (Option Nat)

/-- A new device job. -/
def Dev.new (n : Nat) : Dev := ⟨Job.new n, []⟩

/-- What the store of a slot refers to: the C++ buffer, else the C buffer (cuda/track/track_job.cpp:2144-2160,
2199-2207, 2229-2236). -/
def target (s : Store) : Option Nat :=
  match s.cxx with
  | some b => some b
  | none => s.c99

/-- `do_add_stored_buffer_cuda_impl` (cuda/track/track_job.cpp:2116-2164). -/
def Dev.addImpl (d : Dev) (id : Nat) : Res (Dev × Int) :=
  match d.job.store id with
  | none => .ok (d, FAILURE)
  | some s =>
    if MIN_USER_ID ≤ id then
      let args := d.args ++ List.replicate (d.job.slots.length - d.args.length) none
      match target s with
      | none => .ok ({ d with args := args }, FAILURE)
      | some b =>
        if id - MIN_USER_ID < args.length then
          .ok ({ d with args := args.set (id - MIN_USER_ID) (some b) }, SUCCESS)
        else .ub
    else .ok (d, FAILURE)

/-- `do_remove_stored_buffer_cuda_impl` (cuda/track/track_job.cpp:2166-2181); there is an assertion only that the
argument is there. -/
def Dev.removeImpl (d : Dev) (id : Nat) : Res (Dev × Int) :=
  if MIN_USER_ID ≤ id then
    if id - MIN_USER_ID < d.args.length then
      .ok ({ d with args := d.args.set (id - MIN_USER_ID) none }, SUCCESS)
    else .ub
  else .ok (d, FAILURE)

/-- `do_add_stored_buffer` of a device job (cuda/track/track_job.cpp:838-855). -/
def Dev.doAdd (d : Dev) (s : Store) : Res (Dev × Nat) :=
  let r := d.job.doAdd s
  if r.2 ≠ ILLEGAL_ID then do
    let (d1, st) ← Dev.addImpl { d with job := r.1 } r.2
    if st ≠ SUCCESS then do
      let (d2, _) ← d1.removeImpl r.2
      return (d2, ILLEGAL_ID)
    else return (d1, r.2)
  else .ok ({ d with job := r.1 }, r.2)

def Dev.add (d : Dev) (g : Gift) : Res (Dev × Nat) := do
  let (j, s) ← d.job.construct g
  Dev.doAdd { d with job := j } s

/-- `do_remove_stored_buffer` of a device job (cuda/track/track_job.cpp:857-861); a bitwise or of the status of the
host and that of the device, of which each is 0 or -1. -/
def Dev.remove (d : Dev) (id : Nat) : Res (Dev × Int) := do
  let (j, st) ← d.job.remove id
  let (d', st') ← Dev.removeImpl { d with job := j } id
  return (d', if st = SUCCESS then st' else FAILURE)

/-- `ptr_const_stored_buffer_argument` (cuda/track/track_job.cpp:678-701). -/
def Dev.arg (d : Dev) (id : Nat) : Option Nat :=
  if d.job.minId ≠ ILLEGAL_ID && id ≠ ILLEGAL_ID && d.job.minId ≤ id && id < d.job.maxId + 1 then
    (d.args[id - d.job.minId]?).join
  else none

/-- `do_push_stored_buffer_cuda_impl` and `do_collect_stored_buffer_cuda_impl` (cuda/track/track_job.cpp:2183-2240):
the argument that is used (the buffer it was made for) and the buffer that is sent to the device or filled from
there.  `none` is failure; otherwise the status is that of the transfer. -/
def Dev.transfer (d : Dev) (id : Nat) : Option (Nat × Nat) :=
  match d.job.store id, d.arg id with
  | some s, some a =>
    match target s with
    | some b => some (a, b)
    | none => none
  | _, _ => none

def Dev.step (d : Dev) : Op → Res Dev
  | .add g => do
    let r ← d.add g
    return r.1
  | .remove id => do
    let r ← d.remove id
    return r.1
  | .reserve c => .ok { d with job := (d.job.reserve c).1 }
  | .clearOld => do
    let j ← d.job.clearOld
    return { d with job := j }

def Dev.run (d : Dev) : List Op → Res Dev
  | [] => .ok d
  | o :: os => do
    let d' ← d.step o
    d'.run os

end SixTrack.StoredBuf
