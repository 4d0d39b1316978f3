import Verif.ClTrack

/-!
# Programs, kernels and constructors of the OpenCL context for tracking

Model of `ClContext`, `/repo/sixtracklib/opencl/internal/context.cpp` (line numbers without a file) and
`/repo/sixtracklib/opencl/context.h`: the programs and kernels a context makes for itself, its feature flags, and what the
constructors and the selection of a node leave.

* As in `Verif/ClContext.lean`, to make a kernel from a program that has been built succeeds; whether the source has a
  kernel of that name is not looked at.  The kernels that the sources have are listed in `provided`.
* The text of the configuration of a context is stored and not looked at (base_context.cpp:2926-2931).
* Which nodes belong to AMD and the macros the library has been compiled with are parameters (`Setup`).
-/

namespace SixTrack.ClTrack
open ClContext ClRun

/-- The OpenCL library, its nodes and the macros of `common/generated/config.h`. -/
structure Setup where
  env : Env
  nodes : List NodeId
  /-- whether the name of the platform of a node begins with `amd `, base_context.cpp:635-657 -/
  amd : Nat → Bool
  /-- the text of a macro that is defined -/
  value : String → Option String
  /-- the buffer of the status flags, and what its memory holds before anything is written -/
  flagsId : Nat
  flags : Flags

/-- The context with `m_use_optimized_tracking`, context.h:285 -/
structure Obj where
  t : Tracker
  opt : Bool

/-- `isAvailableNodeAMDPlatform`, base_context.cpp:635-657: false for a node that is not there. -/
def Setup.isAmd (s : Setup) (c : Ctx) (i : Nat) : Bool := decide (i < c.nodes.length) && s.amd i

/-! ## Feature flags -/

/-- 1743-1786 -/
def FLAG_MACROS : List String :=
  ["SIXTRL_TRACK_BEAMBEAM4D", "SIXTRL_TRACK_BEAMBEAM6D", "SIXTRL_TRACK_SC_COASTING", "SIXTRL_TRACK_SC_BUNCHED",
    "SIXTRL_TRACK_TRICUB", "SIXTRL_APERTURE_CHECK_AT_DRIFT", "SIXTRL_APERTURE_CHECK_MIN_DRIFT_LENGTH",
    "SIXTRL_APERTURE_X_LIMIT", "SIXTRL_APERTURE_Y_LIMIT"]

/-- `doInitDefaultFeatureFlagsPrivImpl`, 1741-1789 -/
def setMacros (value : String → Option String) : List String → Ctx → Ctx
  | [], c => c
  | n :: ns, c =>
    match value n with
    | some v => setMacros value ns (c.setFlag n v)
    | none => setMacros value ns c

/-- 2095-2102 -/
def FEATURES : List String :=
  ["SIXTRL_TRACK_BEAMBEAM4D", "SIXTRL_TRACK_BEAMBEAM6D", "SIXTRL_TRACK_SPACECHARGE", "SIXTRL_TRACK_TRICUB",
    "SIXTRL_APERTURE_CHECK_AT_DRIFT", "SIXTRL_APERTURE_CHECK_MIN_DRIFT_LENGTH", "SIXTRL_APERTURE_X_LIMIT",
    "SIXTRL_APERTURE_Y_LIMIT"]

/-- 2104-2110 -/
def featureOptions (c : Ctx) : List String → String
  | [] => ""
  | n :: ns => (if c.hasFlag n then c.flagRepr n ++ " " else "") ++ featureOptions c ns

/-! ## Programs -/

/-- 2079-2090: other than for the program for remapping there is no space after `-I`. -/
def commonOptions (e : Env) (c : Ctx) : String :=
  (if c.options ≠ "" then c.options ++ " " else "") ++ c.flagRepr "_GPUCODE" ++ " " ++
    c.flagRepr "SIXTRL_BUFFER_ARGPTR_DEC" ++ " " ++ c.flagRepr "SIXTRL_BUFFER_DATAPTR_DEC" ++ " " ++ "-I" ++ e.incDir

/-- as in 2117-2118 -/
def particleOptions (space : String) : String :=
  "-DSIXTRL_PARTICLE_ARGPTR_DEC=" ++ space ++ " " ++ "-DSIXTRL_PARTICLE_DATAPTR_DEC=" ++ space ++ " "

/-- The programs: the files of 2049-2077 -/
inductive File where
  | track
  | trackOpt
  | mon
  | elem
  | fetch
  | addr
  deriving DecidableEq, Repr

/-- 2049-2077 -/
def fileName (debug : Bool) : File → String
  | .track => if debug then "track_particles_debug.cl" else "track_particles.cl"
  | .trackOpt =>
    if debug then "track_particles_optimized_priv_particles_debug.cl" else "track_particles_optimized_priv_particles.cl"
  | .mon => if debug then "be_monitors_assign_out_buffer_debug.cl" else "be_monitors_assign_out_buffer.cl"
  | .elem => if debug then "elem_by_elem_assign_out_buffer_debug.cl" else "elem_by_elem_assign_out_buffer.cl"
  | .fetch => "fetch_particles_addr.cl"
  | .addr => "assign_address_item.cl"

/-- 2115-2138 -/
def fileOptions (e : Env) (c : Ctx) : File → String
  | .track => commonOptions e c ++ " " ++ featureOptions c FEATURES ++ " " ++ particleOptions "__global"
  | .trackOpt => commonOptions e c ++ " " ++ featureOptions c FEATURES ++ " " ++ particleOptions "__private"
  | _ => commonOptions e c ++ " " ++ particleOptions "__global"

/-- a call of `addProgramFile` in 2140-2162; the options are those of the context `c₀` from before these calls. -/
def addProgram (e : Env) (c₀ c : Ctx) (f : File) : Nat × Ctx :=
  c.addFile e (c.kernelDir ++ fileName c.debug f) (fileOptions e c₀ f)

/-- 2170-2195 -/
def programsOf (track mon elem fetch addr : Nat) : Task → Option Nat
  | .turn => some track
  | .elem => some track
  | .line => some track
  | .monOut => some mon
  | .clear => some mon
  | .elemOut => some elem
  | .fetch => some fetch
  | .addr => some addr

/-- `doInitDefaultProgramsPrivImpl`, 2027-2200: the program that fetches addresses is not looked at. -/
def Obj.initProgs (e : Env) (o : Obj) : Bool × Obj :=
  let c := o.t.ctx
  let track := addProgram e c c .track
  let trackOpt := addProgram e c track.2 .trackOpt
  let mon := addProgram e c trackOpt.2 .mon
  let elem := addProgram e c mon.2 .elem
  let fetch := addProgram e c elem.2 .fetch
  let addr := addProgram e c fetch.2 .addr
  if track.1 ≠ ILLEGAL ∧ trackOpt.1 ≠ ILLEGAL ∧ mon.1 ≠ ILLEGAL ∧ elem.1 ≠ ILLEGAL ∧ addr.1 ≠ ILLEGAL then
    (true, { o with t := { o.t with
      ctx := addr.2
      prog := programsOf (if o.opt = false then track.1 else trackOpt.1) mon.1 elem.1 fetch.1 addr.1 } })
  else (false, { o with t := { o.t with ctx := addr.2 } })

/-! ## Kernels -/

/-- 2214-2397 with `SIXTRL_C99_NAMESPACE_PREFIX_STR` = `st_` -/
def kernelName (opt debug : Bool) (w : Task) : String :=
  let o := if opt then "_opt_pp" else ""
  let d := if debug then "_debug" else ""
  match w with
  | .turn => "st_Track_particles_until_turn" ++ o ++ d ++ "_opencl"
  | .elem => "st_Track_particles_elem_by_elem" ++ o ++ d ++ "_opencl"
  | .line => "st_Track_particles_line" ++ o ++ d ++ "_opencl"
  | .monOut => "st_BeamMonitor_assign_out_buffer_from_offset" ++ d ++ "_opencl"
  | .clear => "st_BeamMonitor_clear_all_line_obj" ++ d ++ "_opencl"
  | .elemOut => "st_ElemByElem_assign_out_buffer_from_offset" ++ d ++ "_opencl"
  | .fetch => "st_Particles_buffer_store_all_addresses_opencl"
  | .addr => "st_AssignAddressItem_process_managed_buffer_opencl"

/-- The kernels in `/repo/sixtracklib/opencl/kernels`: track_particles.cl:13, 27, 45, track_particles_debug.cl:18, 38, 62,
track_particles_optimized_priv_particles.cl:15, 29, 47, track_particles_optimized_priv_particles_debug.cl:18, 38, 62,
be_monitors_assign_out_buffer.cl:12, 28, be_monitors_assign_out_buffer_debug.cl:13, 36,
elem_by_elem_assign_out_buffer.cl:16, elem_by_elem_assign_out_buffer_debug.cl:15, fetch_particles_addr.cl:15 and
assign_address_item.cl:11. -/
def provided : List (String × List String) :=
  [("track_particles.cl", ["st_Track_particles_until_turn_opencl", "st_Track_particles_elem_by_elem_opencl",
      "st_Track_particles_line_opencl"]),
    ("track_particles_debug.cl", ["st_Track_particles_until_turn_debug_opencl",
      "st_Track_particles_elem_by_elem_debug_opencl", "st_Track_particles_line_debug_opencl"]),
    ("track_particles_optimized_priv_particles.cl", ["st_Track_particles_until_turn_opt_pp_opencl",
      "st_Track_particles_elem_by_elem_opt_pp_opencl", "st_Track_particles_line_opt_pp_opencl"]),
    ("track_particles_optimized_priv_particles_debug.cl", ["st_Track_particles_until_turn_opt_pp_debug_opencl",
      "st_Track_particles_elem_by_elem_opt_pp_debug_opencl", "st_Track_particles_line_opt_pp_debug_opencl"]),
    ("be_monitors_assign_out_buffer.cl", ["st_BeamMonitor_assign_out_buffer_from_offset_opencl",
      "st_BeamMonitor_clear_all_line_obj_opencl"]),
    ("be_monitors_assign_out_buffer_debug.cl", ["st_BeamMonitor_assign_out_buffer_from_offset_debug_opencl",
      "st_BeamMonitor_clear_all_line_obj_debug_opencl"]),
    ("elem_by_elem_assign_out_buffer.cl", ["st_ElemByElem_assign_out_buffer_from_offset_opencl"]),
    ("elem_by_elem_assign_out_buffer_debug.cl", ["st_ElemByElem_assign_out_buffer_from_offset_debug_opencl"]),
    ("fetch_particles_addr.cl", ["st_Particles_buffer_store_all_addresses_opencl"]),
    ("assign_address_item.cl", ["st_AssignAddressItem_process_managed_buffer_opencl"])]

/-- the records of executions when kernels have been added -/
def newExecs (xs : List Exec) (n : Nat) : List Exec := xs ++ List.replicate (n - xs.length) Exec.new

/-- another context of the base class, without any launches since its kernels were made -/
def Tracker.onto (t : Tracker) (c : Ctx) : Tracker := { t with ctx := c, execs := newExecs [] c.kernels.length }

/-- `enableKernel`, with the record of executions of a new kernel -/
def Tracker.enable (e : Env) (t : Tracker) (name : String) (p : Nat) : Nat × Tracker :=
  let x := t.ctx.enableKernel e name p
  (x.1, { t with ctx := x.2, execs := newExecs t.execs x.2.kernels.length })

/-- a kernel for a task, as in 2229-2236 -/
def Obj.enableSet (e : Env) (o : Obj) (w : Task) (p : Nat) : Bool × Obj :=
  let x := o.t.enable e (kernelName o.opt o.t.ctx.debug w) p
  let r := x.2.setKernel w x.1
  (r.1, { o with t := r.2 })

/-- a step of 2239-2388 for a task after the first: without a program it is passed over. -/
def Obj.enableNext (e : Env) (o : Obj) (w : Task) : Res (Bool × Obj) := do
  let p ← read (o.t.prog w)
  if p < o.t.ctx.programs.length then pure (o.enableSet e w p) else pure (true, o)

/-- the steps 2239-2388 -/
def enableAll (e : Env) : Obj → List Task → Res (Bool × Obj)
  | o, [] => .ok (true, o)
  | o, w :: ws => do
    let r ← o.enableNext e w
    if r.1 then enableAll e r.2 ws else pure r

/-- the first step, 2211-2238: without a program this fails. -/
def Obj.enableFirst (e : Env) (o : Obj) : Res (Bool × Obj) := do
  let p ← read (o.t.prog .turn)
  if p < o.t.ctx.programs.length then pure (o.enableSet e .turn p) else pure (false, o)

/-- the last step, 2390-2406: an illegal id is not a failure. -/
def Obj.enableLast (e : Env) (o : Obj) : Res (Bool × Obj) := do
  let p ← read (o.t.prog .addr)
  if p ≠ ILLEGAL ∧ p < o.t.ctx.programs.length then
    let x := o.t.enable e (kernelName o.opt o.t.ctx.debug .addr) p
    if x.1 ≠ ILLEGAL then
      let r := x.2.setKernel .addr x.1
      pure (r.1, { o with t := r.2 })
    else pure (true, { o with t := x.2 })
  else pure (true, o)

/-- the kernels between the first and the last, 2239-2388 -/
def MIDDLE : List Task := [.elem, .line, .monOut, .clear, .elemOut, .fetch]

/-- `doInitDefaultKernelsPrivImpl`, 2202-2408 -/
def Obj.initKerns (e : Env) (o : Obj) : Res (Bool × Obj) :=
  if o.t.ctx.hasNode then do
    let r ← o.enableFirst e
    if r.1 then do
      let r ← enableAll e r.2 MIDDLE
      if r.1 then r.2.enableLast e else pure r
    else pure r
  else .ok (false, o)

/-! ## Constructors -/

/-- What the initialisers leave: no constructor sets the id of the first kernel, and `addr` are the ids of the last program
and kernel, which only some set, 52-70, 80-98, 137-157, 194-214, 263-285. -/
def newTracker (s : Setup) (addr : Option Nat) : Tracker where
  ctx := make s.env s.nodes
  execs := []
  flags := s.flags
  flagsId := s.flagsId
  particles := 0
  pset := 0
  config := 0
  prog := fun w => if w = .addr then addr else some ILLEGAL
  kernel := fun w => if w = .turn then none else if w = .addr then addr else some ILLEGAL
  calls := []

/-- the feature flags and the programs, as in 72-77 -/
def Setup.build (s : Setup) (o : Obj) : Obj :=
  (Obj.initProgs s.env { o with t := { o.t with ctx := setMacros s.value FLAG_MACROS o.t.ctx } }).2

/-- `ClContextBase::doSelectNode`, base_context.cpp:986-1049: the status flags on the device are set to zero. -/
def Obj.selectPlain (e : Env) (o : Obj) (i : Nat) : Bool × Obj :=
  if o.t.ctx.hasNode = false ∧ i < o.t.ctx.nodes.length ∧ e.writes i then
    let x := o.t.ctx.selectBase e i
    (x.1, { o with t := { o.t.onto x.2 with flags := { o.t.flags with device := 0 } } })
  else (false, o)

/-- `ClContextBase::doInitDefaultKernels`, base_context.cpp:3028-3065 -/
def Obj.initRemap (e : Env) (o : Obj) : Bool × Obj :=
  let x := o.t.ctx.initKernels e
  (x.1, { o with t := { o.t with ctx := x.2, execs := newExecs o.t.execs x.2.kernels.length } })

/-- the end of the constructors with a node, as in 120-134: no status is looked at, and the arguments of the kernel for
remapping are not assigned. -/
def Setup.place (s : Setup) (o : Obj) (i : Nat) : Res Obj :=
  if i < o.t.ctx.nodes.length then
    let x := o.selectPlain s.env i
    if x.1 then do
      let y := (x.2.initRemap s.env).2
      let r ← y.initKerns s.env
      let a ← r.2.t.assignSlot SLOT_SIZE
      let b ← a.2.assignConfigIndex 0
      let c ← b.2.assignFlags s.flagsId
      pure { r.2 with t := c.2 }
    else pure x.2
  else .ok o

/-- the constructor without a node, 52-78 -/
def Setup.new (s : Setup) : Obj := s.build ⟨newTracker s none, false⟩

/-- the constructor with the index of a node, 80-135 -/
def Setup.newAt (s : Setup) (i : Nat) : Res Obj :=
  s.place (s.build ⟨newTracker s none, !s.isAmd (make s.env s.nodes) i⟩) i

/-- the constructor with a platform and a device, 263-319 -/
def Setup.newOn (s : Setup) (id : NodeId) : Res Obj :=
  let i := (make s.env s.nodes).findNode id
  s.place (s.build ⟨newTracker s (some ILLEGAL), !s.isAmd (make s.env s.nodes) i⟩) i

/-- the constructor with an id, 137-192: the programs are made before it is decided which are to be used. -/
def Setup.newId (s : Setup) (id : NodeId) : Res Obj :=
  let o := s.build ⟨newTracker s (some ILLEGAL), false⟩
  let i := o.t.ctx.findNode id
  s.place { o with opt := !s.isAmd o.t.ctx i } i

/-- the constructor with a text, 194-261 (see `findNodeStr`): another node may be taken after it is decided which programs
are to be used. -/
def Setup.newStr (s : Setup) (id : Option NodeId) : Res Obj :=
  let i := (make s.env s.nodes).findNodeStr id
  let o := s.build ⟨newTracker s (some ILLEGAL), !s.isAmd (make s.env s.nodes) i⟩
  s.place o (if o.t.ctx.nodes.length ≤ i then o.t.ctx.findNode o.t.ctx.defaultNode else i)

/-! ## Selecting a node and changing the programs -/

/-- `doInitDefaultPrograms`, 1791-1795, whose first part always succeeds -/
def Obj.initAllProgs (e : Env) (o : Obj) : Bool × Obj :=
  Obj.initProgs e { o with t := { o.t with ctx := (o.t.ctx.initPrograms e).2 } }

/-- `doInitDefaultKernels`, 1797-1801 -/
def Obj.initAllKerns (e : Env) (o : Obj) : Res (Bool × Obj) :=
  let x := o.initRemap e
  if x.1 then x.2.initKerns e else .ok x

/-- `clear`, base_context.cpp:1094-1099: the ids of kernels and of programs stay. -/
def Obj.clear (e : Env) (o : Obj) : Obj := (Obj.initAllProgs e { o with t := o.t.onto o.t.ctx.doClear }).2

/-- `enable_optimized_tracking` and `disable_optimized_tracking`, 1634-1657: the programs are initialised twice. -/
def Obj.setOpt (e : Env) (o : Obj) (on : Bool) : Res Obj :=
  if o.opt ≠ on ∧ o.t.ctx.hasNode = false then do
    let r ← Obj.initAllKerns e (Obj.initAllProgs e { o.clear e with opt := on }).2
    pure r.2
  else .ok o

/-- `doSelectNode`, 1717-1727 -/
def Setup.select (s : Setup) (o : Obj) (i : Nat) : Res (Bool × Obj) := do
  let o ← if o.opt ∧ s.isAmd o.t.ctx i then o.setOpt s.env false else pure o
  pure (o.selectPlain s.env i)

/-- `selectNode` with an index, base_context.cpp:733-754: the index of the configuration is not assigned. -/
def Setup.selectNode (s : Setup) (o : Obj) (i : Nat) : Res (Bool × Obj) := do
  let x ← s.select o i
  if x.1 then do
    let r ← x.2.initAllKerns s.env
    if r.1 then do
      let a ← r.2.t.assignSlotAll SLOT_SIZE
      if a.1 then do
        let b ← a.2.assignFlagsAll s.flagsId
        pure (b.1, { r.2 with t := b.2 })
      else pure (false, { r.2 with t := a.2 })
    else pure r
  else pure x

/-- `selectNode` with an id, with a platform and a device, or with a text, base_context.cpp:756-800: no argument is
assigned. -/
def Setup.selectAt (s : Setup) (o : Obj) (i : Nat) : Res (Bool × Obj) := do
  let x ← s.select o i
  if x.1 then x.2.initAllKerns s.env else pure x

/-- `reinit_default_programs`, base_context.cpp:1078-1091 -/
def Obj.reinit (e : Env) (o : Obj) : Res (Bool × Obj) :=
  if o.t.ctx.hasNode then .ok (false, o)
  else do
    let r ← Obj.initAllKerns e (Obj.initAllProgs e (o.clear e)).2
    pure (true, r.2)

/-- `SIXTRL_TRACK_MAP_..._STR`, cmake/SetupFeatures.cmake:13-15 -/
def MAP_ENABLED : String := "2"
def MAP_SKIP : String := "1"
def MAP_DISABLED : String := "0"

/-- `enable_beam_beam_tracking`, 1672-1683, `skip_beam_beam_tracking`, 1685-1697, and `disable_beam_beam_tracking`,
1701-1713 -/
def Obj.setBeamBeam (e : Env) (o : Obj) (v : String) : Res Obj :=
  if o.t.ctx.hasNode = false then do
    let r ← Obj.reinit e { o with t := { o.t with
      ctx := (o.t.ctx.setFlag "SIXTRL_TRACK_BEAMBEAM4D" v).setFlag "SIXTRL_TRACK_BEAMBEAM6D" v } }
    pure r.2
  else .ok o

/-- `is_beam_beam_tracking_enabled`, 1661-1670 -/
def beamBeam (c : Ctx) : Bool :=
  (!c.hasFlag "SIXTRL_TRACK_BEAMBEAM4D" || c.flag "SIXTRL_TRACK_BEAMBEAM4D" == some MAP_ENABLED) &&
    (!c.hasFlag "SIXTRL_TRACK_BEAMBEAM6D" || c.flag "SIXTRL_TRACK_BEAMBEAM6D" == some MAP_ENABLED)

/-- `enableDebugMode` and `disableDebugMode`, base_context.cpp:2083-2105 -/
def Obj.setDebug (e : Env) (o : Obj) (on : Bool) : Obj :=
  if o.t.ctx.debug ≠ on ∧ o.t.ctx.hasNode = false then
    (Obj.initAllProgs e (Obj.clear e { o with t := { o.t with ctx := { o.t.ctx with debug := on } } })).2
  else o

end SixTrack.ClTrack
