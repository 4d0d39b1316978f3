import Verif.Output

/-!
# The output side of a track job

Model of `/repo/sixtracklib/common/track/track_job_base.cpp` (`TrackJobBaseNew`, the base of the CPU
job, which uses these functions unchanged): resetting a job, preparing its output and giving it
another output buffer.

Simplifications: as in `Verif.Output`; the particles buffer enters by the ranges of its ids and turns
(what `Particles_get_min_max_attributes` finds) and is not null; every object in the beam elements
buffer is a beam element (otherwise resetting fails in 2283).  In a job that is not in debug mode the
configuration is assigned by the debug version of the function (2596-2617), which does the same and
reports the same status (output_buffer.h:364-425).  Giving a job another output buffer looks at the
particles again to find the flags; here they are those of the last reset.
-/

namespace SixTrack.TrackJob
open Monitor EBE Output

/-- Which buffer: the one the job owns, or the `i`-th of the buffers of the caller. -/
inductive Ref where
  | own
  | ext (i : Nat)
  deriving DecidableEq, Repr

/-- The ranges of the particle ids, the element ids and the turns of the particles. -/
structure Ranges where
  minP : Int
  maxP : Int
  minE : Int
  maxE : Int
  minT : Int
  maxT : Int
  deriving DecidableEq, Repr

/-- The members of `TrackJobBaseNew` that concern the output, track_job_base.hpp:900-990. -/
structure Job where
  rng : Ranges
  /-- size of `m_beam_monitor_indices` -/
  numMonitors : Nat
  /-- `m_num_beam_elements_in_buffer` -/
  numElements : Nat
  /-- the configuration in `m_my_elem_by_elem_buffer` -/
  cfg : Option Cfg
  /-- the output buffer -/
  out : Option Ref
  ebeOffset : Nat
  monOffset : Nat
  /-- `m_until_turn_elem_by_elem` -/
  untilTurn : Int
  hasEbe : Bool
  hasMon : Bool
  order : Int
  rolling : Bool
  deriving DecidableEq, Repr

/-- What the job works on: the objects of the output buffers and the lattice. -/
structure World where
  own : List OutObj
  ext : Nat → List OutObj
  lattice : List Elem

/-- the objects of a buffer -/
def World.get (w : World) : Ref → List OutObj
  | .own => w.own
  | .ext i => w.ext i

/-- the buffer has got these objects -/
def World.set (w : World) (r : Ref) (os : List OutObj) : World :=
  match r with
  | .own => { w with own := os }
  | .ext i => { w with ext := fun k => if k = i then os else w.ext k }

/-- `doClearOutputStructuresBaseImpl`, track_job_base.cpp:3495-3521 -/
def Job.clearOutput (j : Job) : Job :=
  { j with
    cfg := none, out := none, ebeOffset := 0, monOffset := 0, untilTurn := 0
    hasEbe := false, hasMon := false, order := ORDER_TEP, rolling := true }

/-- The first part of `doPrepareOutputStructures`, track_job_base.cpp:2405-2451: the output buffer
that is used from now on, `none` if the call fails. -/
def chooseOut (old given : Option Ref) : Option Ref :=
  match given with
  | none => some (old.getD .own)
  | some g => if old = some .own ∧ g = .own then none else some g

/-- The buffer the job owns after the first part: a new one if the job had none and gets none
(2408-2423); the own one is freed if another one is passed (2441-2447). -/
def ownAfter (old given : Option Ref) (own : List OutObj) : List OutObj :=
  if given = none ∧ old = none then [] else if old = some .own ∧ given ≠ none then [] else own

/-- an uninitialised configuration, `ElemByElemConfig_new` on the cleared buffer -/
def blankCfg : Cfg :=
  { order := 0, numP := 0, numE := 0, numT := 0, minP := 0, minE := 0, minT := 0,
    maxP := 0, maxE := 0, maxT := 0, rolling := 0, outAddr := 0 }

/-- The configuration of the element-by-element output, track_job_base.cpp:2476-2510: status,
configuration and `m_until_turn_elem_by_elem`. -/
def prepareCfg (j : Job) (r : Prepared) (untilTurn : Nat) : Res (Int × Option Cfg × Int) :=
  if r.status = SUCCESS ∧ 0 < untilTurn ∧ 0 ≤ j.rng.minT ∧ j.rng.minT ≤ r.maxTurn ∧
      j.rng.minT < untilTurn then do
    let c ← blankCfg.preset.initDetailed j.order j.rng.minP j.rng.maxP j.rng.minE j.rng.maxE
      j.rng.minT r.maxTurn j.rolling
    return (c.1, some c.2, if c.1 = SUCCESS then toIndex untilTurn else j.untilTurn)
  else return (r.status, none, if r.status = SUCCESS then 0 else j.untilTurn)

/-- The second part of `doPrepareOutputStructures`, track_job_base.cpp:2453-2522, on the buffer
`ref`. -/
def prepareOn (j : Job) (w : World) (ref : Ref) (untilTurn : Nat) (fresh : Nat → Nat) :
    Res (Int × Job × World) := do
  let r ← prepare w.lattice (w.get ref) j.rng.minP j.rng.maxP j.rng.minE j.rng.maxE j.rng.minT
    untilTurn fresh
  let c ← prepareCfg j r untilTurn
  return (c.1,
    { j with
      out := some ref, cfg := c.2.1, untilTurn := c.2.2
      ebeOffset := if c.1 = SUCCESS then r.ebeOffset else j.ebeOffset
      monOffset := if c.1 = SUCCESS then r.monOffset else j.monOffset },
    { w.set ref r.outs with lattice := r.elems })

/-- `doPrepareOutputStructures`, track_job_base.cpp:2368-2525 -/
def prepareOutput (j : Job) (w : World) (given : Option Ref) (untilTurn : Nat)
    (fresh : Nat → Nat) : Res (Int × Job × World) :=
  match chooseOut j.out given with
  | none => .ok (FAILURE, j, w)
  | some ref => prepareOn j { w with own := ownAfter j.out given w.own } ref untilTurn fresh

/-- `doAssignOutputBufferToElemByElemConfig`, track_job_base.cpp:2584-2628 -/
def assignCfg (j : Job) (w : World) : Int × Job :=
  match j.cfg, j.out with
  | some c, some ref =>
    if j.ebeOffset < (w.get ref).length then
      let a := assignEbe c (w.get ref) j.ebeOffset
      (a.1, { j with cfg := some a.2, hasEbe := decide (a.1 = SUCCESS) })
    else (FAILURE, j)
  | _, _ => (FAILURE, j)

/-- `doAssignOutputBufferToBeamMonitors`, track_job_base.cpp:2532-2581 -/
def assignMon (j : Job) (w : World) : Int × Job × World :=
  match j.out with
  | some ref =>
    if 0 < j.numMonitors ∧ 0 ≤ j.rng.minT ∧ j.monOffset < (w.get ref).length then
      let a := assignManaged w.lattice (w.get ref) j.rng.minT j.monOffset
      (a.1, { j with hasMon := decide (a.1 = SUCCESS) }, { w with lattice := a.2 })
    else (FAILURE, { j with hasMon := false }, w)
  | none => (FAILURE, { j with hasMon := false }, w)

/-- The type ids of the elements as far as they matter (`OBJECT_TYPE_BEAM_MONITOR` and
`OBJECT_TYPE_DRIFT`, objects_type_id.h:18-53). -/
def elemType : Elem → Nat
  | .monitor _ => 10
  | .other => 2

/-- is the element a monitor? -/
def isMonitor : Elem → Bool
  | .monitor _ => true
  | .other => false

/-- The loop over the monitors in `doPrepareBeamElementsStructures`, track_job_base.cpp:2334-2354 -/
def setMonitorRange (minP maxP : Int) (es : List Elem) : List Elem :=
  es.map fun e => match e with
    | .monitor m => .monitor { m with minP := minP, maxP := maxP }
    | .other => .other

/-- `doPrepareBeamElementsStructures`, track_job_base.cpp:2268-2361, after
`doPrepareParticlesStructures` (2194-2260) has set the ranges; `samePB`: the job still refers to a
particles buffer (it has not been cleared, 2648-2658).  The number of monitors does not exceed
the number of elements, so the test of 2303 does not apply. -/
def prepareElements (j : Job) (w : World) (samePB : Bool) : Int × Job × World :=
  if w.lattice.length > 0 then
    match findElementRange (w.lattice.map elemType) j.rng.minE j.rng.maxE 0 with
    | none => (FAILURE, j, w)
    | some x =>
      let n := (w.lattice.filter isMonitor).length
      if 0 < n ∧ samePB = true ∧ j.rng.minP ≤ j.rng.maxP then
        (SUCCESS, { j with rng := { j.rng with minE := x.1, maxE := x.2.1 }, numMonitors := n,
                           numElements := x.2.2 },
          { w with lattice := setMonitorRange j.rng.minP j.rng.maxP w.lattice })
      else
        (SUCCESS, { j with rng := { j.rng with minE := x.1, maxE := x.2.1 }, numMonitors := n }, w)
  else (FAILURE, j, w)

/-- The flags of `OutputBuffer_required_for_tracking_of_particle_sets`, output_buffer.c:86-129, for
the ranges of the job. -/
def Job.required (j : Job) (w : World) (untilTurn : Nat) : Flags :=
  Output.required w.lattice j.rng.minP j.rng.maxP j.rng.minE j.rng.maxE j.rng.minT j.rng.maxT
    untilTurn

/-- One step of a sequence: the next one runs if the status is success. -/
def andThen (x : Int × Job × World) (f : Job → World → Int × Job × World) : Int × Job × World :=
  if x.1 = SUCCESS then f x.2.1 x.2.2 else x

/-- the assignment of the configuration, if the flag asks for it -/
def stepCfg (flag : Bool) (j : Job) (w : World) : Int × Job × World :=
  if flag = true then ((assignCfg j w).1, (assignCfg j w).2, w) else (SUCCESS, j, w)

/-- the assignment of the monitors, if the flag asks for it -/
def stepMon (flag : Bool) (j : Job) (w : World) : Int × Job × World :=
  if flag = true then assignMon j w else (SUCCESS, j, w)

/-- The output part of `doReset`, track_job_base.cpp:2697-2743. -/
def resetOutput (j : Job) (w : World) (given : Option Ref) (untilTurn : Nat) (fresh : Nat → Nat) :
    Res (Int × Job × World) :=
  let f := j.required w untilTurn
  if (f.ebe || f.monitors) = true then do
    let x ← prepareOutput j w given untilTurn fresh
    return andThen (andThen x (stepCfg f.ebe)) (stepMon f.monitors)
  else
    -- 2736-2742
    return (SUCCESS, if j.out = none then { j with out := given } else j, w)

/-- `reset`, track_job_base.cpp:374-393 (317-350 for C++ buffers): clears what belongs to buffers
that are replaced (2630-2677), then `doReset` (2679-2746).  `p` are the ranges of the particles,
`lattice` the elements, `given` the output buffer that is passed; `samePB`, `sameBE`: these are the
buffers of the job already. -/
def reset (j : Job) (w : World) (p : Ranges) (given : Option Ref) (untilTurn : Nat)
    (samePB sameBE : Bool) (fresh : Nat → Nat) : Res (Int × Job × World) :=
  let j1 := if given ≠ none ∧ given = j.out then j else j.clearOutput
  let w1 := if given ≠ none ∧ given = j.out then w else { w with own := [] }
  let j2 := if sameBE = true then j1 else { j1 with numMonitors := 0, numElements := 0 }
  let x := prepareElements { j2 with rng := p } w1 samePB
  if x.1 = SUCCESS then resetOutput x.2.1 x.2.2 given untilTurn fresh else .ok x

/-- `numElemByElemTurns`, track_job_base.cpp:1392-1404 -/
def Job.numEbeTurns (j : Job) : Nat :=
  if j.rng.minT < j.untilTurn ∧ 0 ≤ j.rng.minT then (j.untilTurn - j.rng.minT).toNat else 0

/-- `doAssignNewOutputBuffer`, track_job_base.cpp:2748-2796, which is
`assignOutputBuffer( c_buffer_t* )` (569-573) -/
def assignNew (j : Job) (w : World) (given : Option Ref) (fresh : Nat → Nat) :
    Res (Int × Job × World) :=
  let f := j.required w j.numEbeTurns
  if (f.ebe || f.monitors) = true then do
    let x ← prepareOutput j w given j.numEbeTurns fresh
    return andThen (andThen x (stepMon (f.monitors && j.hasMon))) (stepCfg (f.ebe && j.hasEbe))
  else return (FAILURE, j, w)

/-- `assignOutputBuffer( buffer_t& )`, track_job_base.cpp:549-567: succeeds if
`doAssignNewOutputBuffer` returns something that is not zero. -/
def assignOutputCxx (j : Job) (w : World) (given : Ref) (fresh : Nat → Nat) :
    Res (Int × Job × World) := do
  let x ← assignNew j w (some given) fresh
  return (if x.1 ≠ 0 then SUCCESS else FAILURE, x.2)

end SixTrack.TrackJob
