import Verif.Basic

/-!
# Nodes, programs and kernels of an OpenCL context

Model of `ClContextBase`, `/repo/sixtracklib/opencl/internal/base_context.h` and `base_context.cpp`.  Line numbers
without a file are those of `base_context.cpp`.

* The OpenCL library, the devices and the files are the arguments of the functions (`Env`).  The C++ bindings are those
  without exceptions; to build a kernel from a program that has been built succeeds.
* The ids of programs and kernels are 32 bit numbers without a sign (definitions.h:16-22), so that the tests for ids
  that are not negative always hold.  A context has fewer than `2^32 - 1` programs and kernels, and an id is not reduced
  modulo `2^32`.
* `m_cl_kernels` and `m_kernel_data` always have the same length (2032-2039) and are one list; `m_cl_programs` is the
  list of the sources.
* A null pointer to a name, a path or a text is the empty text, which is treated in the same way wherever this matters.
* The reports of the compiler and the information about nodes are left out.
-/

namespace SixTrack.ClContext

/-- `ARCH_ILLEGAL_KERNEL_ID` and `ARCH_ILLEGAL_PROGRAM_ID`, definitions.h:431-435 -/
def ILLEGAL : Nat := 0xffffffff

/-- `ComputeNodeId`, compute_arch.h:22-29 -/
structure NodeId where
  platform : Int
  device : Int
  deriving DecidableEq, Repr

/-- What OpenCL says about a kernel, 1425-1437 -/
structure KernelInfo where
  numArgs : Nat
  maxGroup : Nat
  preferred : Nat
  localMem : Nat
  deriving DecidableEq, Repr

/-- The OpenCL library, the files and the paths the library has been built with. -/
structure Env where
  /-- content of a file that can be opened -/
  file : String → Option String
  /-- whether the status flags can be written on a node, 1010-1014 -/
  writes : Nat → Bool
  /-- whether a source with options can be built on a node, 3095-3097 -/
  builds : Nat → String → String → Bool
  /-- node, source and name of a kernel -/
  kernel : Nat → String → String → KernelInfo
  /-- `NS(PATH_TO_SIXTRL_INCLUDE_DIR)` -/
  incDir : String
  /-- `GetDefaultPathKernelDir`, base_context.h:928-933 -/
  kernelDir : String
  /-- `SIXTRL_DEFAULT_OPENCL_COMPILER_FLAGS` -/
  options : String

/-- `ARG_TYPE_...`, base_context.h:69-85 -/
inductive ArgType where
  | none
  | value
  | rawPtr
  | clArgument
  | clBuffer
  | invalid
  deriving DecidableEq, Repr

/-- An entry of `m_arg_types` and of `m_arguments`: the pointer is `none` if it is null. -/
structure Arg where
  type : ArgType
  ptr : Option Nat
  deriving DecidableEq, Repr

/-- What an argument of an OpenCL kernel has been set to. -/
inductive ClVal where
  | value (v : Nat)
  | buffer (b : Nat)
  | bytes (address size : Nat)
  deriving DecidableEq, Repr

/-- `KernelData`, base_context.h:969-1125, without the times (see `Verif/ClRun.lean`), and the arguments of the OpenCL
kernel (`none` if it has not been set). -/
structure Kernel where
  name : String
  prog : Nat
  numArgs : Nat
  group : Nat
  maxGroup : Nat
  preferred : Nat
  localMem : Nat
  args : List Arg
  cl : List (Option ClVal)
  deriving DecidableEq, Repr

/-- `ProgramData`, base_context.h:940-967 -/
structure Program where
  path : String
  source : String
  options : String
  kernels : List Nat
  compiled : Bool
  deriving DecidableEq, Repr

/-- Members of `ClContextBase`, base_context.h:1195-1225 -/
structure Ctx where
  nodes : List NodeId
  selected : Int
  debug : Bool
  kernelDir : String
  incDir : String
  options : String
  flags : List (String × String)
  programs : List Program
  clPrograms : List String
  kernels : List Kernel
  remapProgram : Nat
  remapKernel : Nat
  deriving DecidableEq, Repr

/-! ## Nodes -/

/-- `hasSelectedNode`, 659-664 -/
def Ctx.hasNode (c : Ctx) : Bool := decide (0 ≤ c.selected ∧ c.selected.toNat < c.nodes.length)

/-- `selectedNodeIndex`, 704-711 -/
def Ctx.nodeIndex (c : Ctx) : Nat := if c.hasNode then c.selected.toNat else c.nodes.length

/-- The loop of `findAvailableNodesIndex`, 2866-2878 -/
def findLoop (id : NodeId) (index : Nat) : List NodeId → Nat
  | [] => index
  | n :: rest => if id.platform = n.platform ∧ id.device = n.device then index else findLoop id (index + 1) rest

/-- `findAvailableNodesIndex` with a platform and a device, 2855-2883 -/
def Ctx.findNode (c : Ctx) (id : NodeId) : Nat :=
  if 0 ≤ id.platform ∧ 0 ≤ id.device then findLoop id 0 c.nodes else c.nodes.length

/-- `findAvailableNodesIndex` with a text, 2885-2905; `id` is what the text has been read as (see `Verif/NodeId.lean`),
`none` if it is too short or has no two numbers. -/
def Ctx.findNodeStr (c : Ctx) (id : Option NodeId) : Nat :=
  match id with
  | some id => c.findNode id
  | none => c.nodes.length

/-- `isNodeIdAvailable`, 517-543 -/
def Ctx.available (c : Ctx) (id : NodeId) : Bool := decide (c.findNode id < c.nodes.length)

/-- `ptrAvailableNodesId` with an index, 581-586 -/
def Ctx.nodeAt (c : Ctx) (i : Nat) : Option NodeId := if i < c.nodes.length then c.nodes[i]? else none

/-- `ptrSelectedNodeId`, 690-695: the index -1 is taken for a large number. -/
def Ctx.selectedId (c : Ctx) : Option NodeId := c.nodeAt (if 0 ≤ c.selected then c.selected.toNat else 2^64 - 1)

/-- `ComputeNodeId_preset`: -1 and -1 -/
def NodeId.unset : NodeId := ⟨-1, -1⟩

/-- `defaultNodeId`, 496-509.  `m_available_nodes_info.data()` is null for an empty vector that never had elements. -/
def Ctx.defaultNode (c : Ctx) : NodeId := c.nodes.headD NodeId.unset

/-- `ComputeNodeId_is_valid`, compute_arch.h:331-337 -/
def NodeId.valid (id : NodeId) : Bool := id.platform != -1 && id.device != -1

/-- `ComputeNodeId_are_equal`, compute_arch.h:339-393, of two ids that are not null: those which are not valid are not
equal. -/
def NodeId.same (a b : NodeId) : Bool := a.valid && b.valid && decide (a = b)

/-- `isDefaultNode` with an id, 554-559 -/
def Ctx.isDefault (c : Ctx) (id : NodeId) : Bool := id.same c.defaultNode

/-- `isDefaultNode` with an index, 561-568; a null pointer is not equal to an id. -/
def Ctx.isDefaultIndex (c : Ctx) (i : Nat) : Bool :=
  match c.nodeAt i with
  | some id => id.same c.defaultNode
  | none => false

/-! ## Feature flags -/

/-- `std::map::find` -/
def lookup (name : String) : List (String × String) → Option String
  | [] => none
  | x :: rest => if x.1 = name then some x.2 else lookup name rest

/-- `feature_flag`, 2261-2295 -/
def Ctx.flag (c : Ctx) (name : String) : Option String := if name ≠ "" then lookup name c.flags else none

/-- `has_feature_flag`, 2190-2204 -/
def Ctx.hasFlag (c : Ctx) (name : String) : Bool := name != "" && (lookup name c.flags).isSome

/-- `set_feature_flag`, 2297-2315: `std::map::emplace` leaves a flag that is there already. -/
def Ctx.setFlag (c : Ctx) (name value : String) : Ctx :=
  if name ≠ "" ∧ (lookup name c.flags).isNone then { c with flags := c.flags ++ [(name, value)] } else c

/-- `feature_flag_repr`, 2317-2350 -/
def Ctx.flagRepr (c : Ctx) (name : String) (pre : String := "-D") (sep : String := "=") : String :=
  match c.flag name with
  | some v => pre ++ name ++ sep ++ v
  | none => ""

/-! ## Programs -/

/-- `doCompileProgramBaseImpl`, 3073-3180, for the node `i` -/
def compile (e : Env) (i : Nat) (p : Program) : Bool × Program :=
  if p.compiled = false ∧ p.kernels = [] ∧ p.options ≠ "" then
    (e.builds i p.source p.options, { p with compiled := e.builds i p.source p.options })
  else (false, p)

/-- `addProgramCode`, 1134-1166; the result is the id of the program. -/
def Ctx.addCode (e : Env) (c : Ctx) (source options : String) : Nat × Ctx :=
  if source ≠ "" then
    let p : Program := ⟨"", source, options, [], false⟩
    if c.hasNode then
      (c.programs.length, { c with programs := c.programs ++ [(compile e c.selected.toNat p).2]
                                   clPrograms := c.clPrograms ++ [source] })
    else (c.programs.length, { c with programs := c.programs ++ [p] })
  else (ILLEGAL, c)

/-- `addProgramCode` without options, 1121-1132 -/
def Ctx.addCodeDefault (e : Env) (c : Ctx) (source : String) : Nat × Ctx := c.addCode e source c.options

/-- `PROGRAM_PATH_RELATIVE` (0) and `PROGRAM_PATH_ABSOLUTE` (1), base_context.h:89-93, 1205-1217 -/
def Ctx.fullPath (c : Ctx) (path : String) (type : Nat) : String :=
  if path ≠ "" then
    if type = 1 then path else if type = 0 then c.kernelDir ++ path else ""
  else ""

/-- 1239-1243 -/
def Ctx.setPath (c : Ctx) (i : Nat) (path : String) : Ctx :=
  { c with programs := c.programs.modify i fun p => { p with path := path } }

/-- `addProgramFile`, 1196-1250 -/
def Ctx.addFile (e : Env) (c : Ctx) (path options : String) (type : Nat := 1) : Nat × Ctx :=
  let full := c.fullPath path type
  if full ≠ "" then
    match e.file full with
    | some source =>
      if source ≠ "" then
        let x := c.addCode e source (if options ≠ "" then options else c.options)
        (x.1, x.2.setPath x.1 full)
      else (ILLEGAL, c)
    | none => (ILLEGAL, c)
  else (ILLEGAL, c)

/-- `compileProgram`, 1261-1278 -/
def Ctx.compileProgram (e : Env) (c : Ctx) (i : Nat) : Bool × Ctx :=
  match c.programs[i]? with
  | some p =>
    if c.hasNode ∧ c.clPrograms.length = c.programs.length then
      let x := compile e c.selected.toNat p
      (x.1, { c with programs := c.programs.set i x.2 })
    else (false, c)
  | none => (false, c)

/-! ## Kernels -/

/-- the loop of `enableKernel` over the kernels of a program, 1374-1402 -/
def nameTaken (ks : List Kernel) (name : String) (ids : List Nat) : Bool :=
  ids.any fun i =>
    match ks[i]? with
    | some k => k.name != "" && k.name == name
    | none => false

/-- `KernelData` of a new kernel, 1411-1453, and base_context.h:1002-1017 -/
def newKernel (info : KernelInfo) (name : String) (prog : Nat) : Kernel :=
  ⟨name, prog, info.numArgs, 0, info.maxGroup, info.preferred, info.localMem,
    List.replicate info.numArgs ⟨.none, none⟩, List.replicate info.numArgs none⟩

/-- 1405-1456 -/
def Ctx.addKernel (e : Env) (c : Ctx) (name : String) (i : Nat) (p : Program) : Nat × Ctx :=
  (c.kernels.length,
    { c with
      kernels := c.kernels ++ [newKernel (e.kernel c.selected.toNat p.source name) name i]
      programs := c.programs.set i { p with kernels := p.kernels ++ [c.kernels.length] } })

/-- `enableKernel`, 1350-1459: the id stays illegal if the program has a kernel of this name. -/
def Ctx.enableKernel (e : Env) (c : Ctx) (name : String) (i : Nat) : Nat × Ctx :=
  if c.hasNode ∧ name ≠ "" ∧ i < c.clPrograms.length then
    match c.programs[i]? with
    | some p =>
      if p.compiled then
        if nameTaken c.kernels name p.kernels then (ILLEGAL, c) else c.addKernel e name i p
      else
        let x := c.compileProgram e i
        match x.2.programs[i]? with
        | some p' => if x.1 then x.2.addKernel e name i p' else (ILLEGAL, x.2)
        | none => (ILLEGAL, x.2)
    | none => (ILLEGAL, c)
  else (ILLEGAL, c)

/-- the loop of `findKernelByName`, 1472-1495 -/
def findKernelLoop (name : String) (programs index : Nat) : List Kernel → Nat
  | [] => ILLEGAL
  | k :: rest => if k.prog < programs ∧ k.name = name then index else findKernelLoop name programs (index + 1) rest

/-- `findKernelByName`, 1461-1499 -/
def Ctx.findKernel (c : Ctx) (name : String) : Nat :=
  if name ≠ "" then findKernelLoop name c.programs.length 0 c.kernels else ILLEGAL

/-- `kernelFunctionName`, 1524-1536; `none` is a null pointer. -/
def Ctx.kernelName (c : Ctx) (k : Nat) : Option String :=
  if c.hasNode then (c.kernels[k]?).map (·.name) else none

/-- `programIdByKernelId`, 1637-1649 -/
def Ctx.kernelProgram (c : Ctx) (k : Nat) : Nat :=
  if c.hasNode then
    match c.kernels[k]? with
    | some x => x.prog
    | none => ILLEGAL
  else ILLEGAL

/-- `kernelNumArgs`, 1552-1564 -/
def Ctx.kernelNumArgs (c : Ctx) (k : Nat) : Nat :=
  if c.hasNode then
    match c.kernels[k]? with
    | some x => x.numArgs
    | none => 0
  else 0

/-- `has_remapping_kernel`, 1516-1522 -/
def Ctx.hasRemapKernel (c : Ctx) : Bool := c.hasNode && decide (c.remapKernel < c.kernels.length)

/-- `remapping_kernel_id`, 2000-2005 -/
def Ctx.remapKernelId (c : Ctx) : Nat := if c.hasRemapKernel then c.remapKernel else ILLEGAL

/-- `set_remapping_kernel_id`, 2007-2030 -/
def Ctx.setRemapKernel (c : Ctx) (k : Nat) : Bool × Ctx :=
  match c.kernels[k]? with
  | some x =>
    if c.hasNode ∧ x.prog < c.programs.length then (true, { c with remapKernel := k, remapProgram := x.prog })
    else (false, c)
  | none => (false, c)

/-! ## Arguments of kernels -/

/-- `setKernelArg`, base_context.h:1019-1031 -/
def Kernel.setArg (k : Kernel) (index : Nat) (a : Arg) : Kernel :=
  if index < k.args.length then { k with args := k.args.set index a } else k

/-- `cl::Kernel::setArg`: OpenCL refuses an index beyond the arguments of the kernel. -/
def Kernel.setCl (k : Kernel) (index : Nat) (v : ClVal) : Kernel := { k with cl := k.cl.set index (some v) }

/-- the record and the argument of the OpenCL kernel, as in 1704-1717 -/
def Ctx.assign (c : Ctx) (k index : Nat) (a : Arg) (v : ClVal) : Ctx :=
  { c with kernels := c.kernels.modify k fun x => (x.setArg index a).setCl index v }

/-- `MIN_NUM_REMAP_BUFFER_ARGS`, base_context.h:87 -/
def MIN_REMAP_ARGS : Nat := 2

/-- `doAssignSlotSizeArgBaseImpl`, 930-968; the result says whether the status is a success. -/
def Ctx.assignSlotSize (c : Ctx) (n : Nat) : Bool × Ctx :=
  if 0 < n then
    if c.hasRemapKernel then
      if MIN_REMAP_ARGS ≤ c.kernelNumArgs c.remapKernel then
        (true, c.assign c.remapKernel 1 ⟨.value, none⟩ (.value n))
      else (false, c)
    else (true, c)
  else (false, c)

/-- `doAssignStatusFlagsArgBaseImpl`, 881-922, with the buffer `b` -/
def Ctx.assignStatusFlags (c : Ctx) (b : Nat) : Bool × Ctx :=
  if c.hasRemapKernel then
    if MIN_REMAP_ARGS ≤ c.kernelNumArgs c.remapKernel then
      if c.debug then
        if MIN_REMAP_ARGS < c.kernelNumArgs c.remapKernel then
          (true, c.assign c.remapKernel (c.kernelNumArgs c.remapKernel - 1) ⟨.clBuffer, some b⟩ (.buffer b))
        else (false, c)
      else (true, c)
    else (false, c)
  else (true, c)

/-! ## Making, selecting and clearing -/

/-- the options of the program for remapping, 3002-3014 -/
def Ctx.remapOptions (e : Env) (c : Ctx) : String :=
  (if c.options ≠ "" then c.options ++ " " else "") ++ c.flagRepr "_GPUCODE" ++ " " ++
    c.flagRepr "SIXTRL_BUFFER_ARGPTR_DEC" ++ " " ++ c.flagRepr "SIXTRL_BUFFER_DATAPTR_DEC" ++ " " ++ "-I " ++ e.incDir

/-- 2990-3000 -/
def Ctx.remapPath (c : Ctx) : String :=
  c.kernelDir ++ (if c.debug then "managed_buffer_remap_debug.cl" else "managed_buffer_remap.cl")

/-- `doInitDefaultProgramsBaseImpl`, 2986-3026: an id is never negative, and so this always succeeds. -/
def Ctx.initPrograms (e : Env) (c : Ctx) : Bool × Ctx :=
  let x := c.addFile e c.remapPath (c.remapOptions e)
  (true, { x.2 with remapProgram := x.1 })

/-- 3042-3051 with `SIXTRL_C99_NAMESPACE_PREFIX_STR` = `st_` -/
def Ctx.remapName (c : Ctx) : String :=
  if c.debug then "st_ManagedBuffer_remap_debug_opencl" else "st_ManagedBuffer_remap_opencl"

/-- `doInitDefaultKernelsBaseImpl`, 3033-3065 -/
def Ctx.initKernels (e : Env) (c : Ctx) : Bool × Ctx :=
  if c.hasNode ∧ c.remapProgram < c.programs.length then
    let x := c.enableKernel e c.remapName c.remapProgram
    x.2.setRemapKernel x.1
  else (false, c)

/-- a program before it is compiled for a node that is being selected, 1032-1034 -/
def Program.fresh (p : Program) : Program := { p with kernels := [], compiled := false }

/-- `doSelectNodeBaseImpl`, 986-1049 -/
def Ctx.selectBase (e : Env) (c : Ctx) (i : Nat) : Bool × Ctx :=
  if c.hasNode = false ∧ i < c.nodes.length ∧ e.writes i then
    (c.programs.all fun p => (compile e i p.fresh).1,
      { c with
        kernels := []
        selected := i
        clPrograms := c.programs.map (·.source)
        programs := c.programs.map fun p => (compile e i p.fresh).2 })
  else (false, c)

/-- `BUFFER_DEFAULT_SLOT_SIZE` -/
def SLOT_SIZE : Nat := 8

/-- the default kernels and their arguments, 739-750; `b` is the buffer of the status flags -/
def Ctx.ready (e : Env) (c : Ctx) (b : Nat) : Bool × Ctx :=
  let x := c.initKernels e
  if x.1 then
    let y := x.2.assignSlotSize SLOT_SIZE
    if y.1 then y.2.assignStatusFlags b else (false, y.2)
  else (false, x.2)

/-- `selectNode` with an index, 733-754 -/
def Ctx.selectNode (e : Env) (c : Ctx) (i b : Nat) : Bool × Ctx :=
  let x := c.selectBase e i
  if x.1 then x.2.ready e b else (false, x.2)

/-- `selectNode` with an id, a platform and a device, or a text, 756-800: the arguments are not assigned. -/
def Ctx.selectAt (e : Env) (c : Ctx) (i : Nat) : Bool × Ctx :=
  let x := c.selectBase e i
  if x.1 then x.2.initKernels e else (false, x.2)

/-- `selectNode` with an id, 756-773, or with a platform and a device, 775-788 -/
def Ctx.selectId (e : Env) (c : Ctx) (id : NodeId) : Bool × Ctx := c.selectAt e (c.findNode id)

/-- `selectNode` with a text, 790-800 -/
def Ctx.selectStr (e : Env) (c : Ctx) (id : Option NodeId) : Bool × Ctx := c.selectAt e (c.findNodeStr id)

/-- the members after the initialisers of the constructors and the default feature flags, 54-98, 2965-2979 -/
def base (e : Env) (nodes : List NodeId) : Ctx :=
  ((({ nodes := nodes, selected := -1, debug := false, kernelDir := e.kernelDir, incDir := e.incDir
       options := e.options, flags := [], programs := [], clPrograms := [], kernels := []
       remapProgram := ILLEGAL, remapKernel := ILLEGAL } : Ctx).setFlag "_GPUCODE" "1").setFlag
    "SIXTRL_BUFFER_ARGPTR_DEC" "__private").setFlag "SIXTRL_BUFFER_DATAPTR_DEC" "__global"

/-- the constructor without a node, 54-106 -/
def make (e : Env) (nodes : List NodeId) : Ctx := ((base e nodes).initPrograms e).2

/-- the constructors with a node, 108-377: the statuses are not looked at. -/
def makeOn (e : Env) (nodes : List NodeId) (i b : Nat) : Ctx :=
  let c := make e nodes
  if i < c.nodes.length then
    let x := c.selectBase e i
    if x.1 then (((x.2.initKernels e).2.assignSlotSize SLOT_SIZE).2.assignStatusFlags b).2 else x.2
  else c

/-- `doClearBaseImpl`, 2939-2958 -/
def Ctx.doClear (c : Ctx) : Ctx :=
  { c with clPrograms := [], programs := [], kernels := [], selected := -1, remapKernel := ILLEGAL }

/-- `clear`, 1094-1099 -/
def Ctx.clear (e : Env) (c : Ctx) : Ctx := (c.doClear.initPrograms e).2

/-- `reinit_default_programs`, 1078-1091: the programs are initialised twice. -/
def Ctx.reinit (e : Env) (c : Ctx) : Bool × Ctx :=
  if c.hasNode then (false, c) else (true, ((((c.clear e).initPrograms e).2).initKernels e).2)

/-- `enableDebugMode` and `disableDebugMode`, 2083-2105: the programs are initialised twice. -/
def Ctx.setDebug (e : Env) (c : Ctx) (on : Bool) : Ctx :=
  if c.debug ≠ on ∧ c.hasNode = false then ((({ c with debug := on } : Ctx).clear e).initPrograms e).2 else c

/-! ## Paths -/

/-- `set_default_path_to_kernel_dir` with a pointer, 411-420 -/
def Ctx.setKernelDir (c : Ctx) (path : String) : Ctx := if path ≠ "" then { c with kernelDir := path } else c

/-- `set_default_sixtrlib_inc_dir` with a `std::string`, 434-438 -/
def Ctx.setIncDirStr (c : Ctx) (path : String) : Ctx := { c with incDir := path }

/-- `set_default_sixtrlib_inc_dir` with a pointer, 440-448: it is the other directory that is set. -/
def Ctx.setIncDir (c : Ctx) (path : String) : Ctx := if path ≠ "" then { c with kernelDir := path } else c

/-- `setDefaultCompileOptions`, 1101-1114 -/
def Ctx.setOptions (c : Ctx) (options : String) : Ctx := { c with options := options }

/-! ## The C interface -/

/-- `NS(ClContextBase_new_on_selected_node_id_str)`, 3557-3575; `none` is a null pointer. -/
def newOnStr (e : Env) (nodes : List NodeId) (id : Option NodeId) : Option Ctx :=
  let c := make e nodes
  match c.nodeAt (c.findNodeStr id) with
  | some id' => if (c.selectId e id').1 then some (c.selectId e id').2 else none
  | none => none

/-- `NS(ClContextBase_new_on_selected_node_id)`, 3577-3612: with a default node, the context is deleted if the
selection has succeeded. -/
def newOnId (e : Env) (nodes : List NodeId) (id : Option NodeId) (b : Nat) : Option Ctx :=
  match id with
  | some id =>
    if id.valid then
      let c := makeOn e nodes ((make e nodes).findNode id) b
      if c.hasNode then some c else none
    else
      let x := (make e nodes).selectId e (make e nodes).defaultNode
      if x.1 then none else some x.2
  | none =>
    let x := (make e nodes).selectId e (make e nodes).defaultNode
    if x.1 then none else some x.2

/-- `NS(ClContextBase_new)`, 3614-3617 -/
def newCtx (e : Env) (nodes : List NodeId) (b : Nat) : Option Ctx := newOnId e nodes none b

end SixTrack.ClContext
