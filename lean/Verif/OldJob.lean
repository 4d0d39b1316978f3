import Verif.ParticleSets
import Verif.StoredBuffers

/-!
# Making and resetting the older track job

Model of `/repo/sixtracklib/common/internal/track_job_base.h` and `.cpp` (`TrackJobBase`) and of the constructors in
`/repo/sixtracklib/common/internal/track_job_cpu.cpp` (`TrackJobCpu`).  Line numbers without a file are those of
`track_job_base.cpp`.

The functions that prepare the elements and the output (2012-2437) are those of the newer job up to names and to the
type of the status, so that `Verif/TrackJob.lean` is used for them, with its simplifications.  What differs is what a
reset clears and how it chooses the particle sets.

* An object of the particles buffer is `some ps` for a particle set with the particles `ps`, which may be none, and
  `none` for an object of another type.
* The buffer of the particle addresses (1963-2006) always finds memory and is left out (see
  `Verif/ParticlesAddr.lean`); so are the flags for collecting and the text of the configuration.
* Buffers need no remapping; those a job is given are not null unless this is said.
* To read the record of an object which is not in the buffer, or a buffer which has been freed, is undefined.
-/

namespace SixTrack.OldJob
open Particles ParticleSets
open TrackJob (Ref World)

/-- `m_particle_set_indices`, `m_num_particles_in_sets` and `m_total_num_particles_in_sets`, track_job_base.h:831-851; `numParticlesInSet`
(594-608) and `totalNumParticlesInSets` give the last two. -/
structure Sets where
  indices : List Nat
  nums : List Nat
  total : Nat
  deriving DecidableEq, Repr

/-- What `BufferIndex_get_const_particles` (particles.h:2652-2669) makes of an object: a set without particles is a
null pointer as well. -/
def view : Option (List Attr) → Option (List Attr)
  | some [] => none
  | o => o

/-- The number of particles counted for an object in the buffer (track_job_base.h:1086-1099); 0 for a null pointer. -/
def countOf (objs : List (Option (List Attr))) (i : Nat) : Nat :=
  match objs[i]? with
  | some (some ps) => ps.length
  | _ => 0

/-- `doInitDefaultParticleSetIndices`, 2968-2975: the total stays as it is. -/
def Sets.default (s : Sets) : Sets := ⟨[0], [0], s.total⟩

/-- The test on an index in `doSetParticleSetIndices`, track_job_base.h:1067-1074. -/
def accepted (objs : List (Option (List Attr))) (i : Nat) : Bool :=
  match objs[i]? with
  | some (some _) => true
  | _ => false

/-- `doSetParticleSetIndices`, track_job_base.h:1031-1114.  Without a buffer all indices are taken; then the count
reads the record at `null + i` (particles.h:3809-3826), which is null only for 0. -/
def setIndices (s : Sets) (buf : Option (List (Option (List Attr)))) (idx : List Nat) : Res Sets :=
  match buf with
  | some objs =>
    let is := unique (sortIdx (idx.filter (accepted objs)))
    .ok ⟨is, is.map (countOf objs), if is = [] then s.total else (is.map (countOf objs)).sum⟩
  | none =>
    let is := unique (sortIdx idx)
    if is.all (fun i => decide (i = 0)) then
      .ok ⟨is, is.map (fun _ => 0), if is = [] then s.total else 0⟩
    else .ub

/-- The job: the sets, the members that concern the elements and the output (of which `numElements` does not exist
here), the stored buffers, the address assignments, and whether `m_ptr_c_particles_buffer` and
`m_ptr_c_beam_elem_buffer` are set. -/
structure Job where
  sets : Sets
  side : TrackJob.Job
  stored : StoredBuf.Job
  lists : AssignList.Lists
  bound : Bool

/-- the ranges as the other members see them -/
def toSide (r : Particles.Ranges) : TrackJob.Ranges :=
  ⟨r.minId, r.maxId, r.minElem, r.maxElem, r.minTurn, r.maxTurn⟩

/-- The members after the constructor of the base, 1501-1546; `n` buffers exist in the program. -/
def Job.new (n : Nat) : Job :=
  { sets := ⟨[0], [0], 0⟩
    side :=
      { rng := ⟨0, 0, 0, 0, 0, 0⟩, numMonitors := 0, numElements := 0, cfg := none, out := none
        ebeOffset := 0, monOffset := 0, untilTurn := 0, hasEbe := false, hasMon := false
        order := EBE.ORDER_TEP, rolling := true }
    stored := StoredBuf.Job.new n
    lists := AssignList.Lists.new
    bound := false }

/-- the members that concern the elements and the output after `doClearBaseImpl`, 3198-3243 -/
def clearSide (t : TrackJob.Job) : TrackJob.Job :=
  { t.clearOutput with rng := toSide initRanges, numMonitors := 0, numElements := 0 }

/-- `doClearBaseImpl`, 3198-3243 -/
def Job.clear (j : Job) : Res Job := do
  let st ← j.stored.clearOld
  return { sets := j.sets.default, side := clearSide j.side, stored := st, lists := j.lists.clearOld
           bound := false }

/-- the ranges of the particles, 1921-1961, which is the same as in the newer job -/
def findRangesOf (objs : List (Option (List Attr))) (s : Sets) : Res (Int × Particles.Ranges) :=
  findRanges (objs.map view) ⟨s.indices, [], [], 0, 0, 0⟩

/-- The last part of `doReset`, 2390-2434.  Without sets the flags are `OUTPUT_BUFFER_NONE`, because no range is found
(output_buffer.c:86-129, particles.h:2294-2350). -/
def outputPart (s : Sets) (side : TrackJob.Job) (w : World) (given : Option Ref) (untilTurn : Nat)
    (fresh : Nat → Nat) : Res (Int × TrackJob.Job × World) :=
  if s.indices = [] then
    .ok (SUCCESS, if side.out = none then { side with out := given } else side, w)
  else TrackJob.resetOutput side w given untilTurn fresh

/-- `doReset`, 2373-2437, on the objects `objs` of the particles buffer and the lattice of `w`; also gives whether it
succeeds. -/
def doReset (j : Job) (w : World) (objs : List (Option (List Attr))) (given : Option Ref) (untilTurn : Nat)
    (fresh : Nat → Nat) : Res (Bool × Job × World) := do
  let r ← findRangesOf objs j.sets
  if r.1 = SUCCESS then
    let x := TrackJob.prepareElements { j.side with rng := toSide r.2 } w j.bound
    if x.1 = SUCCESS then
      let y ← outputPart j.sets x.2.1 x.2.2 given untilTurn fresh
      return (decide (y.1 = SUCCESS), { j with side := y.2.1, bound := true }, y.2.2)
    else return (false, { j with side := x.2.1 }, x.2.2)
  else return (false, j, w)

/-- the sets a reset chooses: the indices, or those of a cleared job if there are none -/
def chooseSets (s : Sets) (objs : List (Option (List Attr))) (idx : List Nat) : Res Sets :=
  if idx ≠ [] then setIndices s (some objs) idx else .ok s

/-- `reset`, track_job_base.h:894-979: the job is cleared first, and with it the output buffer it owns. -/
def reset (j : Job) (w : World) (objs : List (Option (List Attr))) (idx : List Nat) (given : Option Ref)
    (untilTurn : Nat) (fresh : Nat → Nat) : Res (Bool × Job × World) := do
  let c ← j.clear
  let s ← chooseSets c.sets objs idx
  if given = some .own then .ub
  else doReset { c with sets := s } { w with own := [] } objs given untilTurn fresh

/-- How a job is made. -/
inductive Choice
  /-- without indices, track_job_cpu.cpp:57-80, 147-182 -/
  | default
  /-- with one index, track_job_cpu.cpp:82-114, 184-227 -/
  | one (k : Nat)
  /-- with a list of indices, track_job_cpu.cpp:116-145, 230-276 -/
  | many (idx : List Nat)
  deriving DecidableEq, Repr

/-- the sets of a new job; a constructor with one index does not tell the buffer -/
def Choice.sets (objs : List (Option (List Attr))) : Choice → Res Sets
  | .default => .ok ⟨[0], [0], 0⟩
  | .one k => setIndices ⟨[0], [0], 0⟩ none [k]
  | .many idx => chooseSets ⟨[0], [0], 0⟩ objs idx

/-- The constructors of `TrackJobCpu`; the job has no output buffer, so that the caller can not pass it. -/
def make (n : Nat) (w : World) (objs : List (Option (List Attr))) (c : Choice) (given : Option Ref)
    (untilTurn : Nat) (fresh : Nat → Nat) : Res (Bool × Job × World) := do
  let s ← c.sets objs
  doReset { Job.new n with sets := s } w objs given untilTurn fresh

/-- `selectParticleSet`, 393-468, of a job that has its buffers; `cxxElems`, `cxxOut`: the elements and the output
buffer are known as C++ buffers (an own output buffer always is).  The particles buffer of the first branch is the
output buffer (399), which is emptied (437) or freed by the reset before it is read. -/
def selectSet (j : Job) (w : World) (objs : List (Option (List Attr))) (cxxElems cxxOut : Bool) (k : Nat)
    (fresh : Nat → Nat) : Res (Bool × Job × World) :=
  if j.bound = true ∧ k < objs.length then
    match j.side.out with
    | none => reset j w objs [k] none j.side.untilTurn.toNat fresh
    | some .own => if cxxElems then .ub else reset j w objs [k] none j.side.untilTurn.toNat fresh
    | some (.ext i) =>
      reset j (w.set (.ext i) []) (if cxxElems && cxxOut then [] else objs) [k] (some (.ext i))
        j.side.untilTurn.toNat fresh
  else .ok (false, j, w)

end SixTrack.OldJob
