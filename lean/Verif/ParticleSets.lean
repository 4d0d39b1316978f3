import Verif.Particles
import Verif.TrackJob

/-!
# Choosing the particle sets of a track job

Model of the functions of `/repo/sixtracklib/common/track/track_job_base.hpp` and `.cpp` that decide
which particle sets of the particles buffer a job tracks.

An object of the particles buffer is `some ps` for a particle set with the particles `ps`, and `none`
for an object of another type or a set without particles; for these
`BufferIndex_get_const_particles` (particles.h:2652-2669) returns a null pointer.
-/

namespace SixTrack.ParticleSets
open Particles

/-- The members of the job that describe the chosen sets, track_job_base.hpp:922-954. -/
structure Sets where
  indices : List Nat
  begins : List Int
  ends : List Int
  /-- `m_num_particle_sets_in_buffer` -/
  numInBuffer : Nat
  /-- `m_total_num_particles_in_sets` -/
  totalInSets : Int
  /-- `m_total_num_particles` -/
  total : Int
  deriving DecidableEq, Repr

/-- part of `sortIdx` -/
def insertIdx (a : Nat) : List Nat → List Nat
  | [] => [a]
  | b :: l => if a ≤ b then a :: b :: l else b :: insertIdx a l

/-- `std::sort`; for numbers the result does not depend on the algorithm -/
def sortIdx : List Nat → List Nat
  | [] => []
  | a :: l => insertIdx a (sortIdx l)

/-- `std::unique` with the `erase` that follows it -/
def unique : List Nat → List Nat
  | [] => []
  | [a] => [a]
  | a :: b :: l => if a = b then unique (b :: l) else a :: unique (b :: l)

/-- what the loop has collected: indices, begin and end offsets, number of particles in them -/
structure Found where
  indices : List Nat
  begins : List Int
  ends : List Int
  totalInSets : Int
  total : Int
  deriving DecidableEq, Repr

/-- number of particles, 0 for a null pointer (particles.h:2626-2632) -/
def numParticles : Option (List Attr) → Int
  | some ps => ps.length
  | none => 0

/-- The loop over the objects, track_job_base.hpp:1340-1373: `ii` is the index of the first object of
the list, `off` the running offset. -/
def setLoop : List (Option (List Attr)) → Nat → List Nat → Int → Found
  | [], _, _, off => ⟨[], [], [], 0, off⟩
  | p :: objs, ii, it, off =>
    let r := setLoop objs (ii + 1) (if it.head? = some ii then it.tail else it)
      (off + numParticles p)
    if it.head? = some ii ∧ p.isSome = true then
      ⟨ii :: r.indices, off :: r.begins, (off + numParticles p) :: r.ends,
        numParticles p + r.totalInSets, r.total⟩
    else r

/-- `Particles_buffer_get_num_of_particle_blocks`, particles.h:3745-3795 -/
def numBlocks (objs : List (Option (List Attr))) : Nat := (objs.filter Option.isSome).length

/-- `doSetParticleSetIndices`, track_job_base.hpp:1284-1395; `cur` holds the members before. -/
def setIndices (cur : Sets) (objs : List (Option (List Attr))) (idx : List Nat) : Int × Sets :=
  let cleared := { cur with indices := [], begins := [], ends := [] }
  if objs.length > 0 ∧ numBlocks objs > 0 then
    let sorted := unique (sortIdx idx)
    if sorted = [] then (FAILURE, cleared)
    else
      let r := setLoop objs 0 sorted 0
      (if r.indices = [] then FAILURE else SUCCESS,
        ⟨r.indices, r.begins, r.ends, numBlocks objs, r.totalInSets, r.total⟩)
  else (FAILURE, cleared)

/-- `doInitDefaultParticleSetIndices`, track_job_base.cpp:3320-3334 -/
def initDefault (cur : Sets) : Sets := { cur with indices := [0], begins := [0], ends := [0] }

/-- The part of `doClearParticlesStructuresBaseImpl` (track_job_base.cpp:3454-3480) that concerns the
sets: the totals become 0 and the default set is chosen. -/
def clear (_cur : Sets) : Sets := ⟨[0], [0], [0], 0, 0, 0⟩

/-- The choice of the sets in `reset` for C buffers, track_job_base.cpp:405-446; `keep`: the particles
buffer and the indices are those of the job already. -/
def choose (cur : Sets) (objs : List (Option (List Attr))) (idx : List Nat) (keep : Bool) :
    Int × Sets :=
  let c := if keep then cur else clear cur
  if idx ≠ [] then setIndices c objs idx else (SUCCESS, initDefault c)

/-- `numParticlesInSet`, track_job_base.cpp:619-644 -/
def Sets.numIn (s : Sets) (k : Nat) : Int :=
  if k < s.indices.length ∧ s.begins.length = s.ends.length ∧
      s.begins.length = s.indices.length then
    match s.begins[k]?, s.ends[k]? with
    | some b, some e => if b < e then e - b else 0
    | _, _ => 0
  else 0

/-- `Particles_find_min_max_attributes_of_particles_set_on_managed_buffer`, particles.h:2297-2355:
an index that is not below the number of objects is read beyond the index. -/
def findMinMaxChosen (objs : List (Option (List Attr))) : List Nat → Ranges → Res (Int × Ranges)
  | [], cur => .ok (0, cur)
  | i :: is, cur =>
    match objs[i]? with
    | none => .ub
    | some none => .ok (-1, cur)
    | some (some ps) => do
      let r ← findMinMax ps cur
      if r.1 = 0 then findMinMaxChosen objs is r.2 else pure r

/-- The ranges in `doPrepareParticlesStructures`, track_job_base.cpp:2194-2258, before the elements
are taken into account. -/
def findRanges (objs : List (Option (List Attr))) (s : Sets) : Res (Int × Ranges) :=
  if objs.length ≥ s.indices.length then
    match s.indices with
    | [] => if objs.length > 0 then
        findMinMax ((objs[0]?.join).getD []) initRanges else .ub
    | [i] => if i = 0 then findMinMax ((objs[0]?.join).getD []) initRanges
        else findMinMaxChosen objs s.indices initRanges
    | _ => findMinMaxChosen objs s.indices initRanges
  else .ok (FAILURE, initRanges)

/-! ## `selectParticleSet` -/

/-- The output buffer of a job, as far as it matters here. -/
inductive OutBuf where
  | none
  /-- owned by the job -/
  | own
  /-- given as a C++ buffer -/
  | cxx
  /-- given as a C buffer -/
  | c
  deriving DecidableEq, Repr

/-- What `selectParticleSet` does to the output buffer and the chosen sets. -/
structure Selected where
  status : Int
  outputCleared : Bool
  sets : Sets
  deriving DecidableEq, Repr

/-- `selectParticleSet`, track_job_base.cpp:465-541, up to the preparation of the structures in
`doReset`, for a job with particles and beam elements buffers that need no remapping; `cxxElems`: it was given as a C++ buffer.  The
particles buffer of the C++ branch is the output buffer (474): the one of the caller has just been
cleared (514-517); the one of the job is freed by the reset (3495-3521) before it is read. -/
def selectSet (cur : Sets) (objs : List (Option (List Attr))) (cxxElems : Bool) (out : OutBuf)
    (k : Nat) : Res Selected :=
  if k < objs.length then
    if cxxElems = true ∧ (out = .own ∨ out = .cxx) then
      if out = .own then .ub
      else
        let r := choose cur [] [k] false
        .ok ⟨r.1, true, r.2⟩
    else
      let r := choose cur objs [k] (decide (cur.indices = [k]))
      .ok ⟨r.1, decide (out = .cxx ∨ out = .c), r.2⟩
  else .ok ⟨FAILURE, false, cur⟩

end SixTrack.ParticleSets
