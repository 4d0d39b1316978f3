import Verif.DebugReg
import Verif.ParticlesAddr
import Verif.WorkItems

/-!
# The CUDA kernel that stores the addresses of particle sets

Model of `/repo/sixtracklib/cuda/kernels/extract_particles_addr.cu:23-76` as launched by
`/repo/sixtracklib/cuda/wrappers/track_job_wrappers.cu:475-548`.  The threads of a launch run at the same time: one step is one step
of one thread, and a schedule says which thread makes the next step.  A store of the addresses of one set is one step (different
sets have different records); reading the register and writing it back are two steps, since `|=` is not atomic.

The buffers are those of C75, neither null nor in need of remapping, with slots of some size, and the register is given in the debug
mode (track_job_wrappers.cu:487, 533).  Loops count in natural numbers.
-/

namespace SixTrack.CudaStore
open DebugReg ParticlesAddr WorkItems

/-- `Particles_managed_buffer_store_addresses_debug`, particles_addr.h:987-1063: the register and the records.  After a failure the
record is looked up again (1035-1056), which again gives null. -/
def storeDebug (ab pb : List (Option Rec)) (i : Nat) : Res (BitVec 64 × List (Option Rec)) := do
  let r ← store ab pb i
  let f : BitVec 64 := 0#64
  let f := if r.1 ≠ SUCCESS ∧ pb.length = 0 then raiseNext f else f
  let f := if r.1 ≠ SUCCESS ∧ pb.length ≠ ab.length then raiseNext f else f
  let f := if r.1 ≠ SUCCESS ∧ ab.length ≤ i then raiseNext f else f
  let f := if r.1 ≠ SUCCESS then raiseNext f else f
  let d ← storeStatus f (BitVec.ofInt 32 r.1)
  pure (d, r.2)

/-- Where a thread is: at the loop with the index `i`, behind it with the local register `d`, having read `v` from the register, or
at the end. -/
inductive Phase where
  | loop (i : Nat)
  | leave (d : BitVec 64)
  | load (d v : BitVec 64)
  | done

/-- what the threads share, and where each of them is -/
structure World where
  ab : List (Option Rec)
  reg : BitVec 64
  phase : Dim3 × Dim3 → Phase

/-- thread `p` goes to `q` -/
def World.go (w : World) (p : Dim3 × Dim3) (q : Phase) : World := { w with phase := fun x => if x = p then q else w.phase x }

/-- one turn of the loop, extract_particles_addr.cu:36-40: the first parameter of the kernel, which is called the buffer of
particles, is the buffer of addresses (track_job_wrappers.cu:519-522); it is the first one of the function called, too. -/
def plainTurn (pb : List (Option Rec)) (stride : Nat) (p : Dim3 × Dim3) (i : Nat) (w : World) : Res World := do
  let r ← store w.ab pb i
  pure ({ w with ab := r.2 }.go p (.loop (i + stride)))

/-- one turn of the loop in the debug mode, 60-69 -/
def debugTurn (pb : List (Option Rec)) (stride : Nat) (p : Dim3 × Dim3) (i : Nat) (w : World) : Res World := do
  let r ← storeDebug w.ab pb i
  pure ({ w with ab := r.2 }.go p (if r.1 ≠ 0#64 then .leave r.1 else .loop (i + stride)))

/-- one step of thread `p`: 30-40 and, in the debug mode, 54-75; `n` objects -/
def World.step (debug : Bool) (pb : List (Option Rec)) (n stride : Nat) (p : Dim3 × Dim3) (w : World) : Res World :=
  match w.phase p with
  | .loop i =>
    if i < n then if debug then debugTurn pb stride p i w else plainTurn pb stride p i w
    else .ok (w.go p .done)
  | .leave d => .ok (w.go p (.load d w.reg))
  | .load d v => .ok ({ w with reg := v ||| d }.go p .done)
  | .done => .ok w

/-- the steps of a schedule -/
def World.steps (debug : Bool) (pb : List (Option Rec)) (n stride : Nat) : List (Dim3 × Dim3) → World → Res World
  | [], w => .ok w
  | p :: ps, w => do
    let w' ← w.step debug pb n stride p
    World.steps debug pb n stride ps w'

/-- A launch with the blocks `grid` of the threads `block`, for the addresses `ab`, the particles `pb` and the register `reg`. -/
def launch (grid block : Dim3) (debug : Bool) (ab pb : List (Option Rec)) (reg : BitVec 64) (sched : List (Dim3 × Dim3)) : Res World :=
  World.steps debug pb ab.length (totalThreads grid block).toNat sched
    ⟨ab, reg, fun p => .loop (threadId grid block p.2 p.1).toNat⟩

/-- Kernels of which only one thread works: managed_buffer_remap.cu:22, 36, 69, be_monitors_assign_out_buffer.cu:28, 43 and
elem_by_elem_assign_out_buffer.cu:29, 48 -/
def works (grid block : Dim3) (p : Dim3 × Dim3) : Bool := threadId grid block p.2 p.1 == 0#64

end SixTrack.CudaStore
