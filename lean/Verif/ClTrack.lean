import Verif.ClRun

/-!
# Kernels, arguments and calls of the OpenCL context for tracking

Model of `ClContext`, `/repo/sixtracklib/opencl/internal/context.cpp` (line numbers without a file) and
`/repo/sixtracklib/opencl/context.h`: which kernel has which task, what their arguments are set to, and what is launched.

* A member that no constructor initialises is `none` until it is assigned; to read it is undefined behaviour.
* OpenCL launches a kernel only if all its arguments have been set and if there are work items.  What the kernels do is
  not described here, but the launches are recorded with the arguments.  In debug mode a kernel writes to the buffer of
  the status flags only if that buffer is one of its arguments.
* Turns are numbers of 64 bits with a sign; they are handed over as the number without a sign that has the same bits.
* Arguments always have memory on the device.
* Assertions are not compiled.
-/

namespace SixTrack.ClTrack
open ClContext ClRun

/-- The tasks of kernels: the members `m_..._kernel_id`, context.h:276-283 -/
inductive Task where
  | turn
  | elem
  | line
  | elemOut
  | monOut
  | fetch
  | clear
  | addr
  deriving DecidableEq, Repr

/-- `MIN_NUM_TRACK_UNTIL_ARGS` and so on, context.h:63-70 -/
def UNTIL_ARGS : Nat := 5
def LINE_ARGS : Nat := 7
def ELEM_ARGS : Nat := 7
def MON_OUT_ARGS : Nat := 5
def CLEAR_ARGS : Nat := 2
def ELEM_OUT_ARGS : Nat := 4
def FETCH_ARGS : Nat := 3

/-- A launch: the kernel, its arguments and the work items. -/
structure Call where
  kernel : Nat
  args : List (Option ClVal)
  launch : Launch
  deriving DecidableEq, Repr

/-- The context: that of `ClContextBase`, the records of executions, the status flags and the number of their buffer, the
members of `ClContext`, context.h:261-283 (the programs and `m_use_optimized_tracking` are in `Verif/ClTrackNew.lean`),
and the launches so far. -/
structure Tracker where
  ctx : Ctx
  execs : List Exec
  flags : Flags
  flagsId : Nat
  /-- `m_num_particles_in_pset` -/
  particles : Nat
  /-- `m_pset_index` -/
  pset : Nat
  /-- `m_elem_by_elem_config_index` -/
  config : Nat
  prog : Task → Option Nat
  kernel : Task → Option Nat
  calls : List Call

/-- What an argument (`ClArgument`) is for the context. -/
structure Buf where
  /-- its address -/
  at_ : Nat
  /-- its OpenCL buffer -/
  mem : Nat
  /-- `context() == this` -/
  mine : Bool
  /-- the C buffer, if it has one: number of objects and slot size -/
  cobj : Option (Nat × Nat)
  deriving DecidableEq, Repr

/-- What OpenCL does. -/
structure Dev where
  run : Device
  /-- transfers of the status flags -/
  writes : Bool
  reads : Bool
  /-- the status flags a kernel leaves -/
  flags : BitVec 64

/-! ## Kernels -/

/-- a member that has to be initialised -/
def read (x : Option Nat) : Res Nat :=
  match x with
  | some k => .ok k
  | none => .ub

/-- `has_track_until_kernel`, 670-676, `has_track_line_kernel`, 819-825, and the like, 997-1003, 1153-1161, 1251-1259,
1347-1353, 1427-1433: ids have no sign. -/
def Tracker.has (t : Tracker) (w : Task) : Res Bool :=
  if t.ctx.hasNode then do
    let k ← read (t.kernel w)
    pure (decide (k < t.ctx.kernels.length))
  else .ok false

/-- the id of a task that has a kernel according to the task `w'` -/
def Tracker.idIf (t : Tracker) (w' w : Task) : Res Nat := do
  let h ← t.has w'
  if h then read (t.kernel w) else pure ILLEGAL

/-- `track_until_kernel_id`, 678-682, `track_line_kernel_id`, 827-831 (which looks at the kernel of the other task),
`track_elem_by_elem_kernel_id`, 1005-1009, and the like, 1163-1169, 1261-1266, 1355-1359, 1435-1441;
`assign_addresses_kernel_id`, 1476-1479, looks at nothing. -/
def Tracker.id (t : Tracker) : Task → Res Nat
  | .line => t.idIf .turn .line
  | .addr => read (t.kernel .addr)
  | w => t.idIf w w

def setTask (f : Task → Option Nat) (w : Task) (k : Nat) : Task → Option Nat := fun w' => if w' = w then some k else f w'

/-- `set_track_until_kernel_id`, 684-707, and the like, 833-855, 1011-1035, 1171-1194, 1268-1291, 1361-1384, 1443-1466,
1481-1506; the result says whether the status is a success. -/
def Tracker.setKernel (t : Tracker) (w : Task) (k : Nat) : Bool × Tracker :=
  if t.ctx.hasNode ∧ k < t.ctx.kernels.length ∧ t.ctx.kernelProgram k < t.ctx.programs.length then
    (true, { t with kernel := setTask t.kernel w k, prog := setTask t.prog w (t.ctx.kernelProgram k) })
  else (false, t)

/-! ## Arguments -/

/-- An entry of the tables: the task, the minimal number of arguments and the index of the argument. -/
structure Row where
  task : Task
  min : Nat
  index : Nat
  deriving DecidableEq, Repr

/-- the ids of the tasks of a table, as in 343-346 -/
def Tracker.ids (t : Tracker) : List Row → Res (List (Nat × Row))
  | [] => .ok []
  | r :: rs => do
    let k ← t.id r.task
    let ks ← t.ids rs
    pure ((k, r) :: ks)

/-- `assignKernelArgument`, `assignKernelArgumentValue` and `assignKernelArgumentClBuffer` (see `Verif/ClRun.lean`), whose
kernel has to be there -/
def put (c : Ctx) (k index : Nat) (a : Arg) (v : ClVal) : Res Ctx :=
  if k < c.kernels.length then .ok (c.assign k index a v) else .ub

/-- the loops of the functions below, as in 363-381.  The minimal numbers of arguments are not zero.  A failure does not
end the loop; the result says whether the status is a success. -/
def putLoop (a : Arg) (v : ClVal) : Ctx → Bool → List (Nat × Row) → Res (Bool × Ctx)
  | c, ok, [] => .ok (ok, c)
  | c, ok, (k, r) :: rest =>
    if k = ILLEGAL then putLoop a v c ok rest
    else if c.kernelNumArgs k ≤ r.index ∨ c.kernelNumArgs k < r.min then putLoop a v c false rest
    else do
      let c ← put c k r.index a v
      putLoop a v c ok rest

/-- a table and a value -/
def Tracker.putRows (t : Tracker) (rows : List Row) (a : Arg) (v : ClVal) : Res (Bool × Tracker) := do
  let ks ← t.ids rows
  let r ← putLoop a v t.ctx true ks
  pure (r.1, { t with ctx := r.2 })

/-- a table and an argument that needs a C buffer -/
def Tracker.putBuf (t : Tracker) (rows : List Row) (b : Buf) : Res (Bool × Tracker) :=
  if b.cobj.isSome then t.putRows rows ⟨.clArgument, some b.at_⟩ (.buffer b.mem) else .ok (false, t)

/-- 343-361 -/
def particlesRows : List Row := [⟨.turn, UNTIL_ARGS, 0⟩, ⟨.line, LINE_ARGS, 0⟩, ⟨.elem, ELEM_ARGS, 0⟩, ⟨.fetch, FETCH_ARGS, 0⟩]

/-- `assign_particles_arg`, 323-384 -/
def Tracker.assignParticles (t : Tracker) (b : Buf) : Res (Bool × Tracker) := t.putBuf particlesRows b

/-- 399-412 -/
def psetRows : List Row := [⟨.turn, UNTIL_ARGS, 1⟩, ⟨.line, LINE_ARGS, 1⟩, ⟨.elem, ELEM_ARGS, 1⟩]

/-- `assign_particle_set_arg`, 386-444 -/
def Tracker.assignSet (t : Tracker) (p n : Nat) : Res (Bool × Tracker) := do
  let r ← t.putRows psetRows ⟨.value, none⟩ (.value p)
  pure (r.1, if r.1 then { r.2 with pset := p, particles := n } else r.2)

/-- 470-492 -/
def elementsRows : List Row :=
  [⟨.turn, UNTIL_ARGS, 2⟩, ⟨.line, LINE_ARGS, 2⟩, ⟨.elem, ELEM_ARGS, 2⟩, ⟨.monOut, MON_OUT_ARGS, 0⟩, ⟨.clear, CLEAR_ARGS, 0⟩]

/-- `assign_beam_elements_arg`, 446-514: there has to be an object. -/
def Tracker.assignElements (t : Tracker) (b : Buf) : Res (Bool × Tracker) :=
  match b.cobj with
  | some (n, _) => if 1 > n then .ok (false, t) else t.putBuf elementsRows b
  | none => .ok (false, t)

/-- 538-551 -/
def outputRows : List Row := [⟨.monOut, MON_OUT_ARGS, 1⟩, ⟨.elemOut, ELEM_OUT_ARGS, 2⟩]

/-- `assign_output_buffer_arg`, 516-574 -/
def Tracker.assignOutput (t : Tracker) (b : Buf) : Res (Bool × Tracker) := t.putBuf outputRows b

/-- 595-608 -/
def configRows : List Row := [⟨.elem, ELEM_ARGS, 3⟩, ⟨.elemOut, ELEM_OUT_ARGS, 0⟩]

/-- `assign_elem_by_elem_config_buffer_arg`, 576-631 -/
def Tracker.assignConfig (t : Tracker) (b : Buf) : Res (Bool × Tracker) := t.putBuf configRows b

/-- `assign_particles_addr_buffer_arg`, 633-659: the status is a success even if nothing has been assigned. -/
def Tracker.assignAddrBuffer (t : Tracker) (b : Buf) : Res (Bool × Tracker) :=
  if b.cobj.isSome then do
    let k ← t.id .fetch
    if k ≠ ILLEGAL ∧ FETCH_ARGS ≤ t.ctx.kernelNumArgs k then do
      let c ← put t.ctx k 1 ⟨.clArgument, some b.at_⟩ (.buffer b.mem)
      pure (true, { t with ctx := c })
    else pure (true, t)
  else .ok (false, t)

/-- 1961-1974 -/
def configIndexRows : List Row := [⟨.elem, ELEM_ARGS, 4⟩, ⟨.elemOut, ELEM_OUT_ARGS, 1⟩]

/-- `assign_elem_by_elem_config_index_arg`, 661-666, and `doAssignElemByElemConfigIndexArgPrivImpl`, 1950-2006 -/
def Tracker.assignConfigIndex (t : Tracker) (i : Nat) : Res (Bool × Tracker) := do
  let r ← t.putRows configIndexRows ⟨.value, none⟩ (.value i)
  pure (r.1, if r.1 then { r.2 with config := i } else r.2)

/-- 1895-1923 -/
def slotRows : List Row :=
  [⟨.turn, UNTIL_ARGS, 4⟩, ⟨.line, LINE_ARGS, 6⟩, ⟨.elem, ELEM_ARGS, 6⟩, ⟨.monOut, MON_OUT_ARGS, 4⟩, ⟨.clear, CLEAR_ARGS, 1⟩,
    ⟨.elemOut, ELEM_OUT_ARGS, 4⟩, ⟨.fetch, FETCH_ARGS, 2⟩]

/-- `doAssignSlotSizeArgPrivImpl`, 1883-1948 -/
def Tracker.assignSlot (t : Tracker) (n : Nat) : Res (Bool × Tracker) := t.putRows slotRows ⟨.value, none⟩ (.value n)

/-- `doAssignSlotSizeArg`, 2008-2018 -/
def Tracker.assignSlotAll (t : Tracker) (n : Nat) : Res (Bool × Tracker) :=
  let r := t.ctx.assignSlotSize n
  if r.1 then ({ t with ctx := r.2 } : Tracker).assignSlot n else .ok (false, { t with ctx := r.2 })

/-- 1818-1843 -/
def flagsRows : List Row :=
  [⟨.turn, UNTIL_ARGS, 5⟩, ⟨.line, LINE_ARGS, 7⟩, ⟨.elem, ELEM_ARGS, 7⟩, ⟨.monOut, MON_OUT_ARGS, 5⟩, ⟨.clear, CLEAR_ARGS, 2⟩,
    ⟨.elemOut, ELEM_OUT_ARGS, 5⟩]

/-- `doAssignStatusFlagsArgPrivImpl`, 1803-1867 -/
def Tracker.assignFlags (t : Tracker) (b : Nat) : Res (Bool × Tracker) :=
  if t.ctx.debug then t.putRows flagsRows ⟨.clBuffer, some b⟩ (.buffer b) else .ok (true, t)

/-- `doAssignStatusFlagsArg`, 1869-1881 -/
def Tracker.assignFlagsAll (t : Tracker) (b : Nat) : Res (Bool × Tracker) :=
  let r := t.ctx.assignStatusFlags b
  if r.1 then ({ t with ctx := r.2 } : Tracker).assignFlags b else .ok (false, { t with ctx := r.2 })

/-! ## Launches -/

/-- The arguments of a kernel as OpenCL sees them. -/
def argsOf (c : Ctx) (k : Nat) : List (Option ClVal) :=
  match c.kernels[k]? with
  | some x => x.cl
  | none => []

/-- what a kernel does to the buffer of the status flags -/
def flagsAfter (d : Dev) (t : Tracker) (k : Nat) : Flags :=
  if t.ctx.debug ∧ some (.buffer t.flagsId) ∈ argsOf t.ctx k then { t.flags with device := d.flags } else t.flags

/-- `runKernel` (see `Verif/ClRun.lean`) with groups of a size -/
def Tracker.launch (d : Dev) (t : Tracker) (k n group : Nat) : Bool × Tracker :=
  let r := runKernel { d.run with ok := d.run.ok && (argsOf t.ctx k).all Option.isSome && decide (0 < launchItems group n) }
    t.ctx t.execs k n group
  match r with
  | (true, some l, xs) =>
    (true, { t with execs := xs, calls := t.calls ++ [⟨k, argsOf t.ctx k, l⟩], flags := flagsAfter d t k })
  | (_, _, xs) => (false, { t with execs := xs })

/-- a launch with groups of the size of the last launch, as in 732-733; `lastExecWorkGroupSize`, base_context.cpp:1954-1962 -/
def Tracker.again (d : Dev) (t : Tracker) (k n : Nat) : Bool × Tracker := t.launch d k n (execOf t.execs k).lastGroup

/-- 730-748, and the like in the functions below: the status -/
def Tracker.perform (d : Dev) (t : Tracker) (k n : Nat) : Res (BitVec 32 × Tracker) :=
  if t.ctx.debug = false then
    let r := t.again d k n
    .ok (if r.1 then 0#32 else -1#32, r.2)
  else
    let p := prepare d.writes t.flags
    let t := { t with flags := p.2 }
    if p.1 = 0#32 then
      let r := t.again d k n
      if r.1 then do
        let s ← evaluate d.reads r.2.flags
        pure (s.1, { r.2 with flags := s.2 })
      else .ok (-1#32, r.2)
    else .ok (-1#32, t)

/-- calls of `assignKernelArgumentValue` for a kernel -/
def putValues (c : Ctx) (k : Nat) : List (Nat × Nat) → Res Ctx
  | [] => .ok c
  | (i, v) :: rest => do
    let c ← put c k i ⟨.value, none⟩ (.value v)
    putValues c k rest

/-- the common part of the functions below: some arguments are assigned, and the kernel is launched with `n` work items -/
def Tracker.call (d : Dev) (t : Tracker) (w : Task) (min : Nat) (values : List (Nat × Nat)) (n : Nat) :
    Res (BitVec 32 × Tracker) := do
  let k ← t.id w
  if t.ctx.hasNode ∧ min ≤ t.ctx.kernelNumArgs k then do
    let c ← putValues t.ctx k values
    Tracker.perform d { t with ctx := c } k n
  else pure (-1#32, t)

/-- the same for a set of particles, as in 771-778 and 804-811: the argument 1 is only changed if the index of the set is
not that of the selected set. -/
def Tracker.callSet (d : Dev) (t : Tracker) (w : Task) (min : Nat) (values : List (Nat × Nat)) (p n : Nat) (restore : Bool) :
    Res (BitVec 32 × Tracker) := do
  let k ← t.id w
  if t.ctx.hasNode ∧ min ≤ t.ctx.kernelNumArgs k then do
    let c ← putValues t.ctx k ((if t.pset ≠ p then [(1, p)] else []) ++ values)
    let r ← Tracker.perform d { t with ctx := c } k n
    let c ← putValues r.2.ctx k (if t.pset ≠ p ∧ restore then [(1, t.pset)] else [])
    pure (r.1, { r.2 with ctx := c })
  else pure (-1#32, t)

/-- a number of 64 bits with a sign, as a number without a sign -/
def turnArg (turn : Int) : Nat := (BitVec.ofInt 64 turn).toNat

/-- `track_until`, 709-751 -/
def Tracker.trackUntil (d : Dev) (t : Tracker) (turn : Int) : Res (BitVec 32 × Tracker) :=
  t.call d .turn UNTIL_ARGS [(3, turnArg turn)] t.particles

/-- `track_until` with a set, 753-815 -/
def Tracker.trackUntilSet (d : Dev) (t : Tracker) (turn : Int) (p n : Nat) (restore : Bool) : Res (BitVec 32 × Tracker) :=
  t.callSet d .turn UNTIL_ARGS [(3, turnArg turn)] p n restore

/-- 873-889 -/
def lineValues (first last : Nat) (finish : Bool) : List (Nat × Nat) := [(3, first), (4, last), (5, if finish then 1 else 0)]

/-- `track_line`, 857-912 -/
def Tracker.trackLine (d : Dev) (t : Tracker) (first last : Nat) (finish : Bool) : Res (BitVec 32 × Tracker) :=
  t.call d .line LINE_ARGS (lineValues first last finish) t.particles

/-- `track_line` with a set, 914-993 -/
def Tracker.trackLineSet (d : Dev) (t : Tracker) (first last : Nat) (finish : Bool) (p n : Nat) (restore : Bool) :
    Res (BitVec 32 × Tracker) :=
  t.callSet d .line LINE_ARGS (lineValues first last finish) p n restore

/-- `track_elem_by_elem`, 1037-1082; the turn is a number without a sign, 1038 -/
def Tracker.trackElem (d : Dev) (t : Tracker) (turn : Nat) : Res (BitVec 32 × Tracker) :=
  t.call d .elem ELEM_ARGS [(5, turn)] t.particles

/-- `track_elem_by_elem` with a set, 1084-1149: the number of work items is that of the selected set, 1120, 1129. -/
def Tracker.trackElemSet (d : Dev) (t : Tracker) (turn p _n : Nat) (restore : Bool) : Res (BitVec 32 × Tracker) :=
  t.callSet d .elem ELEM_ARGS [(5, turn)] p t.particles restore

/-- `assign_beam_monitor_output`, 1196-1247 -/
def Tracker.assignMonitors (d : Dev) (t : Tracker) (turn : Int) (offset : Nat) : Res (BitVec 32 × Tracker) :=
  t.call d .monOut MON_OUT_ARGS [(2, turnArg turn), (3, offset)] 1

/-- `assign_elem_by_elem_output`, 1293-1343 -/
def Tracker.assignElemOut (d : Dev) (t : Tracker) (offset : Nat) : Res (BitVec 32 × Tracker) :=
  t.call d .elemOut ELEM_OUT_ARGS [(1, t.config), (3, offset)] 1

/-- `clear_beam_monitor_output`, 1386-1423 -/
def Tracker.clearMonitors (d : Dev) (t : Tracker) : Res (BitVec 32 × Tracker) := t.call d .clear CLEAR_ARGS [] 1

/-- `fetch_particles_addr`, 1508-1531: no status flags; the number of arguments is not looked at. -/
def Tracker.fetchAddr (d : Dev) (t : Tracker) : Res (BitVec 32 × Tracker) := do
  let k ← t.id .fetch
  if t.ctx.hasNode then
    let r := t.again d k 1
    pure (if r.1 then 0#32 else -1#32, r.2)
  else pure (-1#32, t)

/-- the arguments of `assign_addresses`, 1581-1603 -/
def addrArgs (items dest src : Buf) (itemSlot destSlot srcSlot destId srcId : Nat) : List (Arg × ClVal) :=
  [(⟨.clArgument, some items.at_⟩, .buffer items.mem), (⟨.value, none⟩, .value itemSlot),
    (⟨.clArgument, some dest.at_⟩, .buffer dest.mem), (⟨.value, none⟩, .value destSlot), (⟨.value, none⟩, .value destId),
    (⟨.clArgument, some src.at_⟩, .buffer src.mem), (⟨.value, none⟩, .value srcSlot), (⟨.value, none⟩, .value srcId)]

/-- arguments one after another -/
def putArgs (c : Ctx) (k : Nat) : Nat → List (Arg × ClVal) → Res Ctx
  | _, [] => .ok c
  | i, (a, v) :: rest => do
    let c ← put c k i a v
    putArgs c k (i + 1) rest

/-- `ARCH_ILLEGAL_BUFFER_ID`, control/definitions.h:134-136 -/
def ILLEGAL_BUFFER : Nat := 0

/-- `assign_addresses`, 1533-1613: the slot size for the source is that of the destination, 1573-1574. -/
def Tracker.assignAddresses (d : Dev) (t : Tracker) (items dest : Buf) (destId : Nat) (src : Buf) (srcId : Nat) :
    Res (BitVec 32 × Tracker) := do
  let k ← t.id .addr
  match items.cobj, dest.cobj, src.cobj with
  | some (n, itemSlot), some (_, destSlot), some _ =>
    if k ≠ ILLEGAL ∧ destId ≠ ILLEGAL_BUFFER ∧ srcId ≠ ILLEGAL_BUFFER ∧ items.mine ∧ dest.mine ∧ src.mine then
      if n = 0 then pure (0#32, t)
      else if 0 < itemSlot ∧ 0 < destSlot ∧ 8 ≤ t.ctx.kernelNumArgs k then do
        let c ← putArgs t.ctx k 0 (addrArgs items dest src itemSlot destSlot destSlot destId srcId)
        let r := Tracker.launch d { t with ctx := c } k n (groupSize c k)
        pure (if r.1 then 0#32 else -1#32, r.2)
      else pure (-1#32, t)
    else pure (-1#32, t)
  | _, _, _ => pure (-1#32, t)

end SixTrack.ClTrack
