import Verif.Basic

/-!
# Beam monitors

Model of `/repo/sixtracklib/common/be_monitor/be_monitor.h` (struct and queries),
`/repo/sixtracklib/common/be_monitor/track.h` (where a monitor stores a particle) and
`/repo/sixtracklib/common/be_monitor/output_buffer.{h,c}` (sizing, preparing and assigning the
output).

Simplifications: a lattice is the list of its elements, of which only the monitors matter here; an
element object always has a non-null address.  An output buffer is the list of its objects, each
with its address and, if it is a particles object, the number of particles it holds; creating an
output object always succeeds (the buffer may grow).  The asserts (`SIXTRL_ASSERT`) are compiled
out in release builds; they show up as hypotheses of the theorems.
-/

namespace SixTrack.Monitor

/-- `NS(BeamMonitor)`, be_monitor.h:34-46 -/
structure Mon where
  numStores : Int
  start : Int
  skip : Int
  outAddr : Nat
  maxP : Int
  minP : Int
  rolling : Int
  turnOrdered : Int
  deriving DecidableEq, Repr

/-- `BeamMonitor_is_rolling`, be_monitor.h:558-563 -/
def Mon.isRolling (m : Mon) : Bool := m.rolling == 1
/-- `BeamMonitor_is_turn_ordered`, be_monitor.h:565-570 -/
def Mon.isTurnOrdered (m : Mon) : Bool := m.turnOrdered == 1

/-- `BeamMonitor_get_store_particle_index`, track.h:47-110: the index of the record for particle
`pid` at turn `turn`, or -1. -/
def Mon.storeIndex (m : Mon) (turn pid : Int) : Res Int := do
  let since ← i64 (turn - m.start)
  if since < 0 then
    return -1
  else do
    let r ← modI since m.skip
    if r ≠ 0 then
      return -1
    else do
      let idx0 ← divI since m.skip
      let idx ← (if idx0 ≥ m.numStores ∧ m.isRolling = true then modI idx0 m.numStores
        else pure idx0)
      if idx < m.numStores then do
        let off ← i64 (pid - m.minP)
        let d ← i64 (m.maxP - m.minP)
        let np ← i64 (d + 1)
        if m.isTurnOrdered then do
          let a ← i64 (np * idx)
          i64 (a + off)
        else do
          let a ← i64 (off * np)
          i64 (a + idx)
      else
        return -1

/-- `Track_particle_beam_monitor`, track.h:112-165, on the parts it touches: returns the status,
the state flag of the tracked particle and the output records.  `size` is the number of particles
of the output object; `Particles_copy_to_generic_addr_data` (particles.h:1695-1803) fails if the
destination index is not below it (and is only called for indices that are not negative).
The type parameter is the record that is copied. -/
def Mon.track {Rec : Type} (m : Mon) (turn pid state : Int) (rec : Rec) (size : Int)
    (out : Int → Option Rec) : Res (Int × Int × (Int → Option Rec)) :=
  if m.outAddr ≠ 0 then do
    let i ← m.storeIndex turn pid
    if 0 ≤ i then
      if i < size then
        return (0, state, fun j => if j = i then some rec else out j)
      else
        return (-1, 0, out)
    else
      return (0, state, out)
  else
    return (0, state, out)

/-- `BeamMonitor_has_turn_stored`, be_monitor.h:624-671 (a negative `maxNumTurns` means
"unlimited"). -/
def Mon.hasTurnStored (m : Mon) (turn maxNumTurns : Int) : Bool :=
  if 0 ≤ m.start ∧ m.start ≤ turn ∧ 0 < m.numStores ∧ 0 < m.skip ∧
      (turn ≤ maxNumTurns ∨ maxNumTurns < 0) then
    let since := turn - m.start
    if since.tmod m.skip = 0 then
      let idx := since.tdiv m.skip
      if m.isRolling = false then
        decide (idx < m.numStores)
      else if m.start < maxNumTurns then
        let maxTurn := maxNumTurns - m.start
        let maxStores := maxTurn.tdiv m.skip + (if maxTurn.tmod m.skip ≠ 0 then 1 else 0)
        decide (maxStores ≤ idx + m.numStores)
      else false
    else false
  else false

/-! ## lattices and output buffers -/

/-- A lattice element: a beam monitor or anything else. -/
inductive Elem where
  | monitor (m : Mon)
  | other
  deriving DecidableEq, Repr

/-- An object of the output buffer: its address and, if it is a particles object, the number of
particles. -/
structure OutObj where
  addr : Nat
  particles : Option Nat
  deriving DecidableEq, Repr

/-- 64 bit unsigned wrap-around of `(buf_size_t)a * (buf_size_t)b`. -/
def mulU64 (a b : Int) : Nat := ((a * b) % 2^64).toNat

/-- the condition under which prepare and assign consider a monitor,
output_buffer.c:311 and output_buffer.h:320-321 -/
def Mon.active (m : Mon) (firstTurn : Int) : Bool := decide (firstTurn ≤ m.start ∧ 0 < m.numStores)

/-- `stored_particles_per_turn`, output_buffer.h:335-339 -/
def Mon.particlesPerTurn (m : Mon) : Int :=
  if m.minP ≤ m.maxP then m.maxP - m.minP + 1 else 0

/-- The loop of `BeamMonitor_assign_managed_output_buffer`, output_buffer.h:303-365: walks over
the elements with the remaining output objects; returns the status and the elements. -/
def assignLoop (firstTurn : Int) : List Elem → List OutObj → Int × List Elem
  | [], _ => (SUCCESS, [])
  | .other :: es, outs =>
      let (s, es') := assignLoop firstTurn es outs
      (s, .other :: es')
  | .monitor m :: es, outs =>
      match outs with
      | [] => (FAILURE, .monitor m :: es)
      | o :: os =>
        if m.active firstTurn then
          -- `Particles_get_num_of_particles` of a null pointer is 0 (particles.h:2627-2632)
          let stored := o.particles.getD 0
          if 0 < m.particlesPerTurn ∧ o.particles.isSome ∧
              mulU64 m.particlesPerTurn m.numStores ≤ stored then
            let (s, es') := assignLoop firstTurn es os
            (s, .monitor { m with outAddr := o.addr } :: es')
          else if 0 < m.particlesPerTurn then
            (FAILURE, .monitor m :: es)
          else
            let (s, es') := assignLoop firstTurn es (o :: os)
            (s, .monitor m :: es')
        else
          let (s, es') := assignLoop firstTurn es (o :: os)
          (s, .monitor m :: es')

/-- `BeamMonitor_assign_managed_output_buffer`, output_buffer.h:240-368 -/
def assignManaged (es : List Elem) (outs : List OutObj) (minTurn : Int) (offset : Nat) :
    Int × List Elem :=
  if offset ≤ outs.length then assignLoop minTurn es (outs.drop offset) else (FAILURE, es)

/-- `BeamMonitor_assign_output_buffer`, output_buffer.c:348-378 -/
def assignOutput (es : List Elem) (outs : List OutObj) (minTurn : Int) (untilTurnEBE : Nat) :
    Int × List Elem :=
  if 0 ≤ minTurn ∧ (untilTurnEBE : Int) > minTurn ∧ es.length > 1 then
    assignManaged es outs minTurn 1
  else if 0 ≤ minTurn ∧ (untilTurnEBE = 0 ∨ (untilTurnEBE : Int) ≤ minTurn) then
    assignManaged es outs minTurn 0
  else
    (FAILURE, es)

/-- Loop of `BeamMonitor_prepare_output_buffer_detailed`, output_buffer.c:299-338.  `fresh k` is
the address at which the `k`-th new output object ends up. -/
def prepareLoop (minP maxP firstTurn : Int) (fresh : Nat → Nat) :
    List Elem → Nat → List Elem × List OutObj
  | [], _ => ([], [])
  | .other :: es, k =>
      let (es', os) := prepareLoop minP maxP firstTurn fresh es k
      (.other :: es', os)
  | .monitor m :: es, k =>
      if m.active firstTurn then
        let n := mulU64 (1 + maxP - minP) m.numStores
        let (es', os) := prepareLoop minP maxP firstTurn fresh es (k + 1)
        (.monitor { m with
            minP := minP
            maxP := maxP
            outAddr := 0 } :: es',
          { addr := fresh k, particles := some n } :: os)
      else
        let (es', os) := prepareLoop minP maxP firstTurn fresh es k
        (.monitor m :: es', os)

/-- `BeamMonitor_prepare_output_buffer_detailed`, output_buffer.c:247-345: status, elements, all
objects of the output buffer and the index of the first new one. -/
def prepareDetailed (es : List Elem) (outs : List OutObj) (minP maxP minTurn : Int)
    (fresh : Nat → Nat) : Int × List Elem × List OutObj × Nat :=
  if minTurn < 0 ∨ minP < 0 ∨ maxP < minP then (FAILURE, es, outs, 0)
  else
    let (es', os) := prepareLoop minP maxP minTurn fresh es 0
    (SUCCESS, es', outs ++ os, outs.length)

/-- Particles that `BeamMonitor_calculate_output_buffer_params_detailed` predicts for one monitor,
output_buffer.c:143-167 -/
def requiredParticles (m : Mon) (np firstTurn : Int) : Nat :=
  if firstTurn ≤ m.start ∨ m.isRolling = true then mulU64 np m.numStores
  else if m.start < firstTurn ∧ 1 ≤ m.skip then
    let alreadyStored := 1 + (firstTurn - m.start).tdiv m.skip
    if alreadyStored < m.numStores then mulU64 np (m.numStores - alreadyStored) else 0
  else 0

/-- The loop of `BeamMonitor_calculate_output_buffer_params_detailed`, output_buffer.c:127-182:
the numbers of particles of the predicted output objects, in order. -/
def predictLoop (np firstTurn : Int) : List Elem → List Nat
  | [] => []
  | .other :: es => predictLoop np firstTurn es
  | .monitor m :: es =>
      let r := requiredParticles m np firstTurn
      if 0 < r then r :: predictLoop np firstTurn es else predictLoop np firstTurn es

/-- `BeamMonitor_calculate_output_buffer_params_detailed`, output_buffer.c:83-193: status, number
of objects, slots and data pointers.  `slots n` are the slots of an output object for `n`
particles, `nptrs` the number of data pointers of a particles object. -/
def predict (es : List Elem) (minP maxP minTurn : Int) (slots : Nat → Nat) (nptrs : Nat) :
    Option (Nat × Nat × Nat) :=
  if 0 ≤ minTurn ∧ 0 ≤ minP ∧ minP ≤ maxP then
    let l := predictLoop (maxP - minP + 1) minTurn es
    some (l.length, (l.map slots).sum, nptrs * l.length)
  else none

end SixTrack.Monitor
