import Verif.Track
import Verif.DebugReg
import Verif.ParticleSets

/-!
# Tracking the particle sets of a job

Model of `/repo/sixtracklib/common/track/track_kernel_impl.h` (the kernels and their debug versions) and
of the tracking functions of the CPU job, `/repo/sixtracklib/common/track/track_job_cpu.cpp:45-215`.

The assertions of the kernels are not modelled (release build).  `track_status_t` is a signed 32 bit
integer (track/definitions.h:24); here it is a `BitVec 32`, because statuses are joined by `|=`.
-/

namespace SixTrack.JobTrack
open Track EBE

abbrev Status := BitVec 32

/-- `TRACK_STATUS_GENERAL_FAILURE`, track/definitions.h:40-41 -/
def failed : Status := BitVec.ofInt 32 (-1)

/-- What the kernels work on.  An object of the particles buffer is `none` if it is not a particle set
(as in `ParticleSets`). -/
structure Mem (C R : Type) where
  objs : List (Option (List (Part C)))
  /-- the output of the beam monitors -/
  out : Nat → R
  /-- the element-by-element output -/
  recs : Nat → Part C

/-- Tracking of one particle: status and result. -/
abbrev One (C R : Type) := EWorld C R → Res (Int × EWorld C R)

variable {E C R : Type}

/-- The call of `Track_particle_until_turn_objs`. -/
def untilOne (S : Sem E C R) (lat : List E) (untilTurn : Int) : One C R := fun v =>
  let r := trackUntil S lat untilTurn v.w
  .ok (r.1, ⟨r.2, v.recs⟩)

/-- The call of `Track_particle_line_objs`. -/
def lineOne (S : Sem E C R) (line : List E) (finish : Bool) : One C R := fun v =>
  let r := trackLine S line finish v.w
  .ok (r.1, ⟨r.2, v.recs⟩)

/-- The call of `Track_particle_element_by_element_until_turn_objs`, track.h:714-800.  The first thing
it does is to read the address of the output out of the configuration: undefined for a null pointer.
`nn`: number of records of the output. -/
def ebeOne (S : Sem E C R) (cfg : Option Cfg) (nn : Int) (lat : List E) (untilTurn : Int) : One C R :=
  fun v =>
    match cfg with
    | none => .ub
    | some c => if c.outAddr ≠ 0 then trackEbe S c nn lat untilTurn v else untilOne S lat untilTurn v

/-! ## Kernels -/

/-- State of the loop of a kernel. -/
structure Run (C R : Type) where
  status : Status
  parts : List (Part C)
  out : Nat → R
  recs : Nat → Part C

/-- `status |= …` for one particle. -/
def runOne (f : One C R) (i : Nat) (r : Run C R) : Res (Run C R) :=
  match r.parts[i]? with
  | none => .ub
  | some p => do
    let x ← f ⟨⟨p, r.out⟩, r.recs⟩
    pure ⟨r.status ||| BitVec.ofInt 32 x.1, r.parts.set i x.2.w.part, x.2.w.out, x.2.recs⟩

/-- `for( ; pidx < num_particles ; pidx += stride )`, track_kernel_impl.h:138-142, 299-303, 466-470; the
first number bounds the iterations. -/
def loop (f : One C R) (stride : Nat) : Nat → Nat → Run C R → Res (Run C R)
  | 0, _, r => .ok r
  | n + 1, pidx, r =>
    if pidx < r.parts.length then do
      let r' ← runOne f pidx r
      loop f stride n (pidx + stride) r'
    else .ok r

/-- The loop over the particles `ps` of set number `set`.  A negative index is read in front of the
arrays; a stride that is not positive never comes to an end or goes in front of the arrays. -/
def loopSet (f : One C R) (m : Mem C R) (set : Nat) (ps : List (Part C)) (pidx stride : Int) :
    Res (Status × Mem C R) :=
  if pidx < ps.length then
    if 0 ≤ pidx ∧ 0 < stride then do
      let r ← loop f stride.toNat ps.length pidx.toNat ⟨0, ps, m.out, m.recs⟩
      pure (r.status, ⟨m.objs.set set (some r.parts), r.out, r.recs⟩)
    else .ub
  else .ok (0, m)

/-- The kernels without debug register (track_kernel_impl.h:102-147, 253-306, 425-473) for the tracking
function `f`.  An index that is not below the number of objects is read beyond the index of the buffer; a
null pointer counts as no particles (particles.h:2626-2632). -/
def kernelOn (f : One C R) (m : Mem C R) (set : Nat) (pidx stride : Int) : Res (Status × Mem C R) :=
  match m.objs[set]? with
  | none => .ub
  | some none => .ok (0, m)
  | some (some ps) => loopSet f m set ps pidx stride

/-- `Track_particles_until_turn_kernel_impl`, track_kernel_impl.h:102-147 -/
def untilKernel (S : Sem E C R) (lat : List E) (untilTurn : Int) (m : Mem C R) (set : Nat)
    (pidx stride : Int) : Res (Status × Mem C R) :=
  kernelOn (untilOne S lat untilTurn) m set pidx stride

/-- The elements from `b` to `e`.  The pointers must stay in the index of the beam elements; if the end
is before the begin, the loop, which compares with `!=`, runs out of the index (unless all particles are
lost on the way). -/
def lineOf (lat : List E) (b e : Nat) : Res (List E) :=
  if b ≤ e ∧ e ≤ lat.length then .ok ((lat.drop b).take (e - b)) else .ub

/-- `Track_particles_line_kernel_impl`, track_kernel_impl.h:425-473 -/
def lineKernel (S : Sem E C R) (lat : List E) (b e : Nat) (finish : Bool) (m : Mem C R) (set : Nat)
    (pidx stride : Int) : Res (Status × Mem C R) := do
  let line ← lineOf lat b e
  kernelOn (lineOne S line finish) m set pidx stride

/-- `ElemByElemConfig_const_from_managed_buffer`, elem_by_elem_config.h:1218-1227, by
`ManagedBuffer_get_const_object` (managed_buffer_minimal.h:769-782), which takes the number of objects as
a valid index, and by `ElemByElemConfig_const_from_obj_index` (1189-1208), which reads the object.  An
object that is no configuration is `none`. -/
def configAt (cfgs : List (Option Cfg)) (i : Nat) : Res (Option Cfg) :=
  if i < cfgs.length then .ok (cfgs[i]?.join)
  else if i = cfgs.length then .ub
  else .ok none

/-- `Track_particles_elem_by_elem_until_turn_kernel_impl`, track_kernel_impl.h:253-306 -/
def ebeKernel (S : Sem E C R) (lat : List E) (cfgs : List (Option Cfg)) (ci : Nat) (nn : Int)
    (untilTurn : Int) (m : Mem C R) (set : Nat) (pidx stride : Int) : Res (Status × Mem C R) := do
  let c ← configAt cfgs ci
  kernelOn (ebeOne S c nn lat untilTurn) m set pidx stride

/-! ## The CPU job -/

/-- The loop over several sets, track_job_cpu.cpp:78-87, 145-157, 204-211. -/
def overSets (k : Nat → Mem C R → Res (Status × Mem C R)) :
    List Nat → Status → Mem C R → Res (Status × Mem C R)
  | [], s, m => .ok (s, m)
  | i :: is, s, m => do
    let r ← k i m
    overSets k is (s ||| r.1) r.2

/-- The three cases of the tracking functions: no set, one set, several sets. -/
def onSets (k : Nat → Mem C R → Res (Status × Mem C R)) (sets : List Nat) (m : Mem C R) :
    Res (Status × Mem C R) :=
  match sets with
  | [] => .ok (failed, m)
  | [i] => k i m
  | i :: j :: is => overSets k (i :: j :: is) 0 m

/-- `static_cast< particle_index_t >( until_turn )` of a 64 bit unsigned number -/
def turnNum (n : Nat) : Int := (BitVec.ofNat 64 n).toInt

/-- `trackUntil`, track_job_cpu.cpp:45-92 -/
def jobUntil (S : Sem E C R) (lat : List E) (untilTurn : Nat) (sets : List Nat) (m : Mem C R) :
    Res (Status × Mem C R) :=
  onSets (fun i m => untilKernel S lat (turnNum untilTurn) m i 0 1) sets m

/-- `trackElemByElem`, track_job_cpu.cpp:94-162; `ready`: the job has an output buffer,
element-by-element output and a configuration. -/
def jobEbe (S : Sem E C R) (lat : List E) (ready : Bool) (cfgs : List (Option Cfg)) (nn : Int)
    (untilTurn : Nat) (sets : List Nat) (m : Mem C R) : Res (Status × Mem C R) :=
  if ready then onSets (fun i m => ebeKernel S lat cfgs 0 nn (turnNum untilTurn) m i 0 1) sets m
  else .ok (failed, m)

/-- `trackLine`, track_job_cpu.cpp:164-215 -/
def jobLine (S : Sem E C R) (lat : List E) (b e : Nat) (finish : Bool) (sets : List Nat)
    (m : Mem C R) : Res (Status × Mem C R) :=
  onSets (fun i m => lineKernel S lat b e finish m i 0 1) sets m

/-! ## Debug kernels -/

/-- The arguments of the debug kernels besides the contents of the buffers.  `pRemap`, `eRemap`: the
buffer needs remapping, that is the addresses in its header are those of another place. -/
structure Args where
  pNull : Bool
  eNull : Bool
  pRemap : Bool
  eRemap : Bool
  slot : Nat
  set : Nat
  pidx : Int
  stride : Int
  deriving DecidableEq, Repr

/-- flag number `k` of the register, if `b` -/
def flag (b : Bool) (k : Nat) : BitVec 64 := if b then DebugReg.MIN_FLAG <<< k else 0

/-- The first test of the kernels, track_kernel_impl.h:178-180. -/
def Args.ok (a : Args) : Bool :=
  !a.pNull && !a.eNull && decide (0 < a.slot) && decide (0 ≤ a.pidx) && decide (0 < a.stride)

/-- The flags if it fails, track_kernel_impl.h:229-236. -/
def Args.flags (a : Args) : BitVec 64 :=
  flag a.pNull 1 ||| flag a.eNull 2 ||| flag (decide (a.slot = 0)) 3 ||| flag (decide (a.pidx < 0)) 0 |||
    flag (decide (a.stride ≤ 0)) 0

/-- `Particles_managed_buffer_get_particles`, particles.h:3655-3686, before any further test: the index
is read, at the address in the header, at the given place. -/
def particlesOf (a : Args) (m : Mem C R) : Res (Option (List (Part C))) :=
  if a.pRemap then .ub
  else match m.objs[a.set]? with
    | none => .ub
    | some p => .ok p

/-- The end of the kernels, track_kernel_impl.h:238-249: status, register, memory. -/
def finish (flags : BitVec 64) (r : Status × Mem C R) : Res (Status × BitVec 64 × Mem C R) :=
  if r.1 ≠ 0 then do
    let reg ← DebugReg.storeStatus flags r.1
    pure (r.1, reg, r.2)
  else .ok (r.1, flags, r.2)

/-- The part common to `Track_particles_until_turn_debug_kernel_impl` and the element-by-element version:
the end of the index of the beam elements is read before the test on remapping (190-191, 362-363). -/
def debugTurns (f : One C R) (a : Args) (untilTurn : Int) (m : Mem C R) :
    Res (Status × BitVec 64 × Mem C R) := do
  let p ← particlesOf a m
  if a.eRemap then .ub
  else match p with
    | some ps =>
      if 0 ≤ untilTurn then do
        let r ← loopSet f m a.set ps a.pidx a.stride
        finish 0 r
      else finish (flag true 8) (failed, m)
    | none => finish (flag true 4 ||| flag (decide (untilTurn < 0)) 8) (failed, m)

/-- `Track_particles_until_turn_debug_kernel_impl`, track_kernel_impl.h:149-250 -/
def untilDebug (S : Sem E C R) (lat : List E) (untilTurn : Int) (a : Args) (m : Mem C R) :
    Res (Status × BitVec 64 × Mem C R) :=
  if a.ok then debugTurns (untilOne S lat untilTurn) a untilTurn m
  else finish a.flags (failed, m)

/-- `Track_particles_elem_by_elem_until_turn_debug_kernel_impl`, track_kernel_impl.h:308-422; `cNull`:
null pointer for the buffer of the configuration.  That the configuration was found is not tested. -/
def ebeDebug (S : Sem E C R) (lat : List E) (cNull : Bool) (cfgs : List (Option Cfg)) (ci : Nat)
    (nn : Int) (untilTurn : Int) (a : Args) (m : Mem C R) : Res (Status × BitVec 64 × Mem C R) :=
  if a.ok && !cNull then do
    let c ← configAt cfgs ci
    debugTurns (ebeOne S c nn lat untilTurn) a untilTurn m
  else finish (a.flags ||| flag cNull 9) (failed, m)

/-- The inner test of the line kernel and what follows, track_kernel_impl.h:519-561.  The second half of
the test on the elements compares the begin with the number of elements (524-525).  The flags compare the
end with the number of elements (555-557), which is read at the address in the header. -/
def debugLine (S : Sem E C R) (lat : List E) (b e : Nat) (fin : Bool) (a : Args) (m : Mem C R)
    (p : Option (List (Part C))) : Res (Status × BitVec 64 × Mem C R) :=
  if a.eRemap = false ∧ p.isSome = true ∧ b ≤ e ∧ b ≤ lat.length then do
    let line ← lineOf lat b e
    let r ← loopSet (lineOne S line fin) m a.set (p.getD []) a.pidx a.stride
    finish 0 r
  else if a.eRemap = true ∧ b ≤ e then .ub
  else finish (flag a.eRemap 6 ||| flag p.isNone 4 ||| flag (decide (e < b ∨ lat.length < e)) 7) (failed, m)

/-- `Track_particles_line_debug_kernel_impl`, track_kernel_impl.h:475-576 -/
def lineDebug (S : Sem E C R) (lat : List E) (b e : Nat) (fin : Bool) (a : Args) (m : Mem C R) :
    Res (Status × BitVec 64 × Mem C R) :=
  if a.ok then do
    let p ← particlesOf a m
    debugLine S lat b e fin a m p
  else finish a.flags (failed, m)

/-- `Cuda_collect_status_flag_value` (cuda_tools.h:208-260) and `OpenCl1x_collect_status_flag_value`
(opencl/internal/status_flag.h:20-37) with atomic operations: the registers of the work-items are
or-ed. -/
def collect (reg : BitVec 64) (items : List (BitVec 64)) : BitVec 64 :=
  items.foldl (fun acc x => if x ≠ 0 then acc ||| x else acc) reg

/-- The work-items `ks` of a debug kernel (cuda/kernels/track_particles.cu:38-58,
opencl/kernels/track_particles_debug.cl:18-36), one after another: each adds its own register to the one
of the launch.  Real work-items run at the same time. -/
def items (k : Nat → Mem C R → Res (Status × BitVec 64 × Mem C R)) :
    List Nat → BitVec 64 → Mem C R → Res (BitVec 64 × Mem C R)
  | [], reg, m => .ok (reg, m)
  | i :: is, reg, m => do
    let r ← k i m
    items k is (collect reg [r.2.1]) r.2.2

/-- The arguments of work-item `k` of `n`. -/
def Args.item (a : Args) (n k : Nat) : Args := { a with pidx := k, stride := n }

end SixTrack.JobTrack
