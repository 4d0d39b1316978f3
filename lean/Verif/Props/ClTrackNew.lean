import Verif.ClTrackStock

/-!
# C96: what a new OpenCL context for tracking has

Programs, compiler options, kernels and their arguments after each constructor.
-/

namespace SixTrack
open ClContext ClRun ClTrack

/-! ## Names of kernels -/

/-- The source file has a kernel with this name. -/
def Offers (file name : String) : Prop := ∃ ks, (file, ks) ∈ provided ∧ name ∈ ks

instance (file name : String) : Decidable (Offers file name) :=
  decidable_of_iff (provided.any fun p => decide (p.1 = file) && decide (name ∈ p.2)) (by
    unfold Offers
    simp only [List.any_eq_true, Bool.and_eq_true, decide_eq_true_eq, Prod.exists]
    constructor
    · rintro ⟨a, b, h, rfl, h'⟩
      exact ⟨b, h, h'⟩
    · rintro ⟨b, h, h'⟩
      exact ⟨file, b, h, rfl, h'⟩)

/-- Each kernel a context asks for is in the file of the program it is taken from, if the programs have been chosen for the
same kind of tracking; those for tracking are not in the file for the other kind. -/
theorem C96_names (opt debug : Bool) (w : Task) :
    Offers (fileName debug (fileOf opt w)) (kernelName opt debug w) ∧
      (w ∈ [Task.turn, .elem, .line] → ¬ Offers (fileName debug (fileOf (!opt) w)) (kernelName opt debug w)) ∧
      (w ∉ [Task.turn, .elem, .line] → fileOf (!opt) w = fileOf opt w ∧ kernelName (!opt) debug w = kernelName opt debug w) ∧
      (w ≠ .fetch → w ≠ .addr → ¬ Offers (fileName (!debug) (fileOf opt w)) (kernelName opt debug w)) ∧
      ∀ w', kernelName opt debug w = kernelName opt debug w' → w = w' := by
  refine ⟨?_, ?_, ?_, ?_, fun w' => kernelName_inj⟩
  all_goals revert opt debug w
  · intro opt debug w; cases opt <;> cases debug <;> cases w <;> decide +kernel
  · intro opt debug w; cases opt <;> cases debug <;> cases w <;> decide +kernel
  · intro opt debug w; cases opt <;> cases debug <;> cases w <;> decide +kernel
  · intro opt debug w; cases opt <;> cases debug <;> cases w <;> decide +kernel

example : Offers "track_particles_optimized_priv_particles.cl" "st_Track_particles_line_opt_pp_opencl" ∧
    ¬ Offers "track_particles.cl" "st_Track_particles_line_opt_pp_opencl" := by decide +kernel

/-! ## Options for the compiler -/

/-- the option for a macro the library has been compiled with -/
def macroOption (value : String → Option String) (n : String) : String :=
  match value n with
  | some v => "-D" ++ n ++ "=" ++ v ++ " "
  | none => ""

/-- the options all programs have -/
def sharedOptions (e : Env) : String :=
  (if e.options ≠ "" then e.options ++ " " else "") ++
    "-D_GPUCODE=1 -DSIXTRL_BUFFER_ARGPTR_DEC=__private -DSIXTRL_BUFFER_DATAPTR_DEC=__global -I" ++ e.incDir ++ " "

/-- the options for the features of tracking -/
def trackOptions (value : String → Option String) : String :=
  macroOption value "SIXTRL_TRACK_BEAMBEAM4D" ++ macroOption value "SIXTRL_TRACK_BEAMBEAM6D" ++
    macroOption value "SIXTRL_TRACK_TRICUB" ++ macroOption value "SIXTRL_APERTURE_CHECK_AT_DRIFT" ++
    macroOption value "SIXTRL_APERTURE_CHECK_MIN_DRIFT_LENGTH" ++ macroOption value "SIXTRL_APERTURE_X_LIMIT" ++
    macroOption value "SIXTRL_APERTURE_Y_LIMIT"

/-- the options for the address space of particles -/
def spaceOptions (space : String) : String :=
  "-DSIXTRL_PARTICLE_ARGPTR_DEC=" ++ space ++ " -DSIXTRL_PARTICLE_DATAPTR_DEC=" ++ space ++ " "

/-- the context when its programs are made -/
def freshCtx (s : Setup) : Ctx := setMacros s.value FLAG_MACROS (make s.env s.nodes)

theorem make_flags (e : Env) (nodes : List NodeId) : (make e nodes).flags = [("_GPUCODE", "1"),
    ("SIXTRL_BUFFER_ARGPTR_DEC", "__private"), ("SIXTRL_BUFFER_DATAPTR_DEC", "__global")] := by
  unfold make Ctx.initPrograms
  simp only
  rw [addFile_members, base_members]

theorem make_members (e : Env) (nodes : List NodeId) : (make e nodes).options = e.options ∧
    (make e nodes).kernelDir = e.kernelDir ∧ (make e nodes).debug = false ∧ (make e nodes).kernels = [] := by
  unfold make Ctx.initPrograms
  simp only
  rw [addFile_members, base_members]
  exact ⟨rfl, rfl, rfl, rfl⟩

theorem freshCtx_members (s : Setup) : (freshCtx s).options = s.env.options ∧ (freshCtx s).kernelDir = s.env.kernelDir ∧
    (freshCtx s).debug = false ∧ (freshCtx s).nodes = s.nodes ∧ (freshCtx s).kernels = [] := by
  unfold freshCtx
  have h := make_members s.env s.nodes
  have hn := make_nodes s.env s.nodes
  generalize make s.env s.nodes = c at *
  rw [setMacros_members]
  exact ⟨h.1, h.2.1, h.2.2.1, hn, h.2.2.2⟩

theorem lookup_three (a b c x y z m : String) : lookup m [(a, x), (b, y), (c, z)] =
    if m = a then some x else if m = b then some y else if m = c then some z else none := by
  simp only [lookup, @eq_comm _ a m, @eq_comm _ b m, @eq_comm _ c m]

theorem freshCtx_flag (s : Setup) (m : String) (hm : m ≠ "") : (freshCtx s).flag m =
    (if m = "_GPUCODE" then some "1" else if m = "SIXTRL_BUFFER_ARGPTR_DEC" then some "__private"
      else if m = "SIXTRL_BUFFER_DATAPTR_DEC" then some "__global" else none).or
    (if m ∈ FLAG_MACROS then s.value m else none) := by
  unfold freshCtx
  rw [flag_setMacros _ _ _ hm]
  congr 1
  unfold Ctx.flag
  rw [if_pos hm, make_flags, lookup_three]


theorem freshCtx_hasFlag (s : Setup) (m : String) : (freshCtx s).hasFlag m = ((freshCtx s).flag m).isSome := by
  unfold Ctx.hasFlag Ctx.flag
  by_cases h : m = "" <;> simp [h]

theorem feature_eq (s : Setup) (m : String) (hm : m ∈ FEATURES) :
    (if (freshCtx s).hasFlag m then (freshCtx s).flagRepr m ++ " " else "") =
      if m = "SIXTRL_TRACK_SPACECHARGE" then "" else macroOption s.value m := by
  have hne : m ≠ "" := by
    rintro rfl
    exact absurd hm (by decide)
  have hf : (freshCtx s).flag m = if m ∈ FLAG_MACROS then s.value m else none := by
    rw [freshCtx_flag s m hne]
    simp only [FEATURES, List.mem_cons, List.not_mem_nil, or_false] at hm
    rcases hm with rfl | rfl | rfl | rfl | rfl | rfl | rfl | rfl <;> rfl
  rw [freshCtx_hasFlag, Ctx.flagRepr, hf]
  unfold macroOption
  by_cases h : m = "SIXTRL_TRACK_SPACECHARGE"
  · subst h
    rfl
  · have : m ∈ FLAG_MACROS := by
      simp only [FEATURES, List.mem_cons, List.not_mem_nil, or_false] at hm
      rcases hm with rfl | rfl | rfl | rfl | rfl | rfl | rfl | rfl <;> first | exact absurd rfl h | decide
    rw [if_pos this, if_neg h]
    cases s.value m <;> rfl

theorem append_literals (x : String) : "-D" ++ ("_GPUCODE" ++ ("=" ++ ("1" ++ (" " ++ ("-D" ++ ("SIXTRL_BUFFER_ARGPTR_DEC" ++
    ("=" ++ ("__private" ++ (" " ++ ("-D" ++ ("SIXTRL_BUFFER_DATAPTR_DEC" ++ ("=" ++ ("__global" ++ (" " ++ ("-I" ++
      x))))))))))))))) =
    "-D_GPUCODE=1 -DSIXTRL_BUFFER_ARGPTR_DEC=__private -DSIXTRL_BUFFER_DATAPTR_DEC=__global -I" ++ x := by
  simp only [← String.append_assoc]
  congr 1

/-- The programs are compiled with: the options of the context, the three settings of the base class, the directory of the
headers, and the address space of the particles.  Those for tracking also have the features of the library, in this order. -/
theorem C96_options (s : Setup) (f : File) : fileOptions s.env (freshCtx s) f =
    sharedOptions s.env ++ match f with
      | .track => trackOptions s.value ++ " " ++ spaceOptions "__global"
      | .trackOpt => trackOptions s.value ++ " " ++ spaceOptions "__private"
      | _ => spaceOptions "__global" := by
  have hc : commonOptions s.env (freshCtx s) ++ " " = sharedOptions s.env := by
    have f1 : (freshCtx s).flag "_GPUCODE" = some "1" := by rw [freshCtx_flag s _ (by decide)]; rfl
    have f2 : (freshCtx s).flag "SIXTRL_BUFFER_ARGPTR_DEC" = some "__private" := by rw [freshCtx_flag s _ (by decide)]; rfl
    have f3 : (freshCtx s).flag "SIXTRL_BUFFER_DATAPTR_DEC" = some "__global" := by rw [freshCtx_flag s _ (by decide)]; rfl
    unfold commonOptions sharedOptions Ctx.flagRepr
    rw [f1, f2, f3, (freshCtx_members s).1]
    simp only [String.append_assoc]
    rw [append_literals]
  have ht : featureOptions (freshCtx s) FEATURES = trackOptions s.value := by
    have step : ∀ ns : List String, (∀ n ∈ ns, n ∈ FEATURES) → featureOptions (freshCtx s) ns =
        ns.foldr (fun n x => (if n = "SIXTRL_TRACK_SPACECHARGE" then "" else macroOption s.value n) ++ x) "" := by
      intro ns
      induction ns with
      | nil => intro _; rfl
      | cons n ns ih =>
        intro h
        unfold featureOptions
        rw [feature_eq s n (h n (by simp)), ih fun m hm => h m (by simp [hm])]
        rfl
    rw [step FEATURES fun _ h => h]
    unfold trackOptions
    simp only [FEATURES, List.foldr]
    rw [if_neg (by decide), if_neg (by decide), if_pos (by decide), if_neg (by decide), if_neg (by decide),
      if_neg (by decide), if_neg (by decide), if_neg (by decide)]
    simp only [String.append_assoc, String.append_empty, String.empty_append]
  cases f <;> simp only [fileOptions] <;> rw [hc]
  · rw [ht]
    simp only [String.append_assoc]
    rfl
  · rw [ht]
    simp only [String.append_assoc]
    rfl
  all_goals rfl

/-! ## A library with two nodes, the second of AMD -/

/-- the number of arguments of the kernel with this name -/
def clArity (name : String) : Nat :=
  match [Task.turn, .elem, .line, .monOut, .clear, .elemOut, .fetch, .addr].find? fun w =>
    name = kernelName false false w ∨ name = kernelName true false w with
  | some w => arity false w
  | none =>
    match [Task.turn, .elem, .line, .monOut, .clear, .elemOut].find? fun w =>
      name = kernelName false true w ∨ name = kernelName true true w with
    | some w => arity true w
    | none => if name = "st_ManagedBuffer_remap_debug_opencl" then 3 else 2

def clSetup : Setup where
  env :=
    { file := fun p => some ("source of " ++ p)
      writes := fun _ => true
      builds := fun _ _ _ => true
      kernel := fun _ _ n => ⟨clArity n, 256, 64, 0⟩
      incDir := "/inc"
      kernelDir := "/cl/"
      options := "-w" }
  nodes := [⟨0, 0⟩, ⟨0, 1⟩]
  amd := fun i => i == 1
  value := fun n =>
    if n = "SIXTRL_TRACK_BEAMBEAM4D" then some "2" else if n = "SIXTRL_TRACK_BEAMBEAM6D" then some "0" else none
  flagsId := 77
  flags := ⟨0, 5⟩

theorem source_ne (p : String) : "source of " ++ p ≠ "" := by simp [String.append_eq_empty_iff]

theorem clSetup_files (c : Ctx) : AllFiles clSetup.env c := by
  constructor
  · exact source_ne _
  · intro f
    exact source_ne _

theorem clSetup_usable (i : Nat) : NodeWorks clSetup.env i := ⟨rfl, fun _ _ => rfl⟩

theorem clSetup_arity (i : Nat) (src : String) (opt debug : Bool) (w : Task) :
    (clSetup.env.kernel i src (kernelName opt debug w)).numArgs = arity debug w := by
  show clArity (kernelName opt debug w) = _
  cases opt <;> cases debug <;> cases w <;> decide +kernel

example : fileOptions clSetup.env (freshCtx clSetup) .trackOpt =
    "-w -D_GPUCODE=1 -DSIXTRL_BUFFER_ARGPTR_DEC=__private -DSIXTRL_BUFFER_DATAPTR_DEC=__global -I/inc " ++
      "-DSIXTRL_TRACK_BEAMBEAM4D=2 -DSIXTRL_TRACK_BEAMBEAM6D=0  " ++
      "-DSIXTRL_PARTICLE_ARGPTR_DEC=__private -DSIXTRL_PARTICLE_DATAPTR_DEC=__private " := by
  rw [C96_options]
  decide +kernel

end SixTrack
