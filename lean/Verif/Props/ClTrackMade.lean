import Verif.Props.ClTrackNew

/-!
# C96: what the constructors of an OpenCL context for tracking leave
-/

namespace SixTrack
open ClContext ClRun ClTrack

/-! ## Programs -/

/-- the options of the program for remapping -/
def remapOpts (s : Setup) : String := (base s.env s.nodes).remapOptions s.env

theorem freshCtx_dir (s : Setup) : (freshCtx s).kernelDir = s.env.kernelDir ∧ (freshCtx s).debug = false :=
  ⟨(freshCtx_members s).2.1, (freshCtx_members s).2.2.1⟩

theorem build_eq {s : Setup} (hf : Setup.Files s) (a : Option Nat) (opt : Bool) :
    (s.build ⟨newTracker s a, opt⟩).t.ctx = { freshCtx s with
      programs := ⟨s.env.kernelDir ++ "managed_buffer_remap.cl", remapSrc s.env (make s.env s.nodes), remapOpts s, [], false⟩ ::
        List.map (fileProgram s.env (freshCtx s)) FILES } := by
  obtain ⟨-, -, h3⟩ := stocked_build hf a opt
  have hm := (make_programs hf).1
  rw [h3]
  show { freshCtx s with programs := (make s.env s.nodes).programs ++ List.map (fileProgram s.env (freshCtx s)) FILES } = _
  have hp : (make s.env s.nodes).remapPath = s.env.kernelDir ++ "managed_buffer_remap.cl" := by
    unfold Ctx.remapPath
    rw [(make_members s.env s.nodes).2.1, (make_members s.env s.nodes).2.2.1]
    rfl
  rw [hm, hp]
  rfl

/-- Without a node a context has the seven programs of its source files, in this order, none of them compiled, and no kernels;
the first one is for remapping.  Those for tracking that are not optimised are chosen. -/
theorem C96_programs {s : Setup} (hf : Setup.Files s) :
    s.new.t.ctx.hasNode = false ∧ s.new.opt = false ∧ s.new.t.ctx.kernels = [] ∧
    s.new.t.ctx.programs.map (·.path) = ["managed_buffer_remap.cl", "track_particles.cl",
      "track_particles_optimized_priv_particles.cl", "be_monitors_assign_out_buffer.cl", "elem_by_elem_assign_out_buffer.cl",
      "fetch_particles_addr.cl", "assign_address_item.cl"].map (s.env.kernelDir ++ ·) ∧
    s.new.t.ctx.programs.tail.map (·.options) = FILES.map (fileOptions s.env (freshCtx s)) ∧
    (∀ p ∈ s.new.t.ctx.programs, s.env.file p.path = some p.source ∧ p.source ≠ "" ∧ p.compiled = false ∧ p.kernels = []) ∧
    s.new.t.ctx.remapProgram = 0 ∧
    ∀ w, s.new.t.prog w = some (match w with
      | .turn => 1 | .elem => 1 | .line => 1 | .monOut => 3 | .clear => 3 | .elemOut => 4 | .fetch => 5 | .addr => 6) := by
  obtain ⟨h1, h2, -⟩ := stocked_build hf none false
  have hcx := build_eq hf none false
  have hnew : s.new = s.build ⟨newTracker s none, false⟩ := rfl
  obtain ⟨d1, d2⟩ := freshCtx_dir s
  rw [← hnew] at h1 h2 hcx
  refine ⟨h1.node, h2, by rw [hcx]; exact (freshCtx_members s).2.2.2.2, ?_, ?_, ?_, h1.remap, fun w => ?_⟩
  · rw [hcx]
    simp only [List.map_cons, FILES, List.map_nil, fileProgram, d1, d2, fileName, Bool.false_eq_true, if_false]
  · rw [hcx]
    rfl
  · obtain ⟨f1, f2⟩ := hf
    have get : ∀ x : Option String, x.getD "" ≠ "" → x = some (x.getD "") := fun x hx => by
      cases x with
      | none => exact absurd rfl hx
      | some y => rfl
    have hr : remapSrc s.env (make s.env s.nodes) = (s.env.file (s.env.kernelDir ++ "managed_buffer_remap.cl")).getD "" := by
      unfold remapSrc Ctx.remapPath
      rw [(make_members s.env s.nodes).2.1, (make_members s.env s.nodes).2.2.1]
      rfl
    intro p hp
    rw [hcx] at hp
    have hp : p ∈ _ :: List.map (fileProgram s.env (freshCtx s)) FILES := hp
    rw [List.mem_cons] at hp
    rcases hp with rfl | hp
    · refine ⟨?_, f1, rfl, rfl⟩
      simp only
      rw [hr] at f1 ⊢
      exact get _ f1
    · obtain ⟨f, -, rfl⟩ := List.mem_map.1 hp
      have := f2 f
      rw [(make_members s.env s.nodes).2.1, (make_members s.env s.nodes).2.2.1] at this
      unfold fileProgram
      simp only
      rw [d1, d2]
      exact ⟨get _ this, this, trivial, trivial⟩
  · rw [h1.prog]
    cases w <;> rfl

example : Setup.Files clSetup := clSetup_files _

/-! ## Constructors with a node -/

/-- The object is on the node `i`, with kernels for normal or (if `opt`) optimised tracking from programs for normal or (if
`po`) optimised tracking; every kernel has its number of arguments, of which the slot sizes and the index of the configuration
are set. -/
structure Placed (s : Setup) (o : Obj) (i : Nat) (po opt : Bool) : Prop where
  staffed : Staffed o.t taskId
  selected : o.t.ctx.selected = i
  mode : o.opt = opt
  debug : o.t.ctx.debug = false
  length : o.t.ctx.kernels.length = 9
  kernel : ∀ w, ∃ k p, o.t.ctx.kernels[taskId w]? = some k ∧ k.name = kernelName opt false w ∧
    o.t.ctx.programs[k.prog]? = some p ∧ p.path = s.env.kernelDir ++ fileName false (fileOf po w) ∧
    p.options = fileOptions s.env (freshCtx s) (fileOf po w) ∧ p.source = srcOf s.env s.env.kernelDir false (fileOf po w)
  slots : ∀ w j, (w, j) ∈ [(Task.turn, 4), (.line, 6), (.elem, 6), (.monOut, 4), (.clear, 1), (.elemOut, 4), (.fetch, 2)] →
    kArg o.t.ctx (taskId w) j = some (.value 8)
  config : ∀ w j, (w, j) ∈ [(Task.elem, 4), (.elemOut, 1)] → kArg o.t.ctx (taskId w) j = some (.value 0)
  unset : ∀ w j, (w, j) ∉ [(Task.turn, 4), (.line, 6), (.elem, 6), (.monOut, 4), (.clear, 1), (.elemOut, 4), (.fetch, 2)] →
    (w, j) ∉ [(Task.elem, 4), (.elemOut, 1)] → kArg o.t.ctx (taskId w) j = none
  remap : o.t.ctx.remapKernelId = 0 ∧ (∃ k, o.t.ctx.kernels[0]? = some k ∧ k.name = "st_ManagedBuffer_remap_opencl") ∧
    ∀ j, kArg o.t.ctx 0 j = none
  members : o.t.config = 0 ∧ o.t.pset = 0 ∧ o.t.particles = 0 ∧ o.t.calls = [] ∧ o.t.flags.device = 0 ∧
    o.t.execs = List.replicate 9 Exec.new

/-- The kernels for normal or (if `opt`) optimised tracking, made from the programs for normal or (if `po`) optimised tracking,
have the number of arguments of their task. -/
def Arities (s : Setup) (i : Nat) (po opt : Bool) : Prop := ∀ w, (s.env.kernel i (srcOf s.env s.env.kernelDir false (fileOf po w))
  (kernelName opt false w)).numArgs = arity false w

theorem placed_build {s : Setup} (hf : Setup.Files s) {i : Nat} (hu : NodeWorks s.env i) (hi : i < s.nodes.length)
    (a : Option Nat) (po opt : Bool)
    (ha : Arities s i po opt) :
    ∃ o, s.place ⟨(s.build ⟨newTracker s a, po⟩).t, opt⟩ i = .ok o ∧ Placed s o i po opt := by
  obtain ⟨h1, -, h3⟩ := stocked_build hf a po
  have hcx := build_eq hf a po
  obtain ⟨d1, d2⟩ := freshCtx_dir s
  have hn := (freshCtx_members s).2.2.2.1
  generalize s.build ⟨newTracker s a, po⟩ = b at *
  have hd : b.t.ctx.debug = false := by rw [hcx]; exact d2
  have hk : b.t.ctx.kernelDir = s.env.kernelDir := by rw [hcx]; exact d1
  have hst : Stocked s.env ⟨b.t, opt⟩ po 0 :=
    ⟨h1.sound, h1.node, h1.remap, h1.prog, h1.file, h1.first, h1.options, h1.length, h1.legal⟩
  obtain ⟨o, k1, k2, k3, k4, k5⟩ := place_spec (s := s) (hst.selectable hu (by show i < b.t.ctx.nodes.length; rw [hcx]; show i < (freshCtx s).nodes.length; rw [hn]; exact hi)) (by
    intro w
    simp only
    rw [hd, hk]
    exact ha w)
  simp only at k4
  rw [hd] at k4
  have hpr : ∀ f, b.t.ctx.programs[0 + 1 + fileIndex f]? = some (fileProgram s.env (freshCtx s) f) := by
    intro f
    rw [hcx]
    cases f <;> rfl
  refine ⟨o, k1, k2.staffed, k2.selected, k2.opt, k2.debug.trans hd, k2.length, fun w => ?_, fun w j hw => ?_, fun w j hw => ?_,
    fun w j hw hw' => ?_, ⟨k2.remap.1, ?_, k5⟩, k3, ?_⟩
  · obtain ⟨k, m1, m2, m3⟩ := k2.kernel w
    have hc := congrArg (·[k.prog]?) k2.programs
    simp only [List.getElem?_map] at hc
    have hq : b.t.ctx.programs[k.prog]? = some (fileProgram s.env (freshCtx s) (fileOf po w)) := by
      rw [m3]
      exact hpr (fileOf po w)
    rw [hq, Option.map_some] at hc
    cases hp : o.t.ctx.programs[k.prog]? with
    | none => rw [hp] at hc; cases hc
    | some p =>
      rw [hp] at hc
      simp only [Option.map_some, Option.some.injEq, content, fileProgram, Prod.mk.injEq] at hc
      refine ⟨k, p, m1, by rw [m2, hd], hp, ?_, hc.2.2, ?_⟩
      · rw [hc.1, d1, d2]
      · rw [hc.2.1, d1, d2]
  · rw [k4, startArg, if_pos (show (w, j) ∈ slotArgs from hw)]
  · rw [k4, startArg, if_neg, if_pos (show (w, j) ∈ configArgs from hw)]
    revert hw
    cases w <;> simp [slotArgs] <;> omega
  · rw [k4, startArg, if_neg (show (w, j) ∉ slotArgs from hw), if_neg (show (w, j) ∉ configArgs from hw'), if_neg (by simp)]
  · obtain ⟨k, m1, m2⟩ := k2.remap.2
    refine ⟨k, m1, ?_⟩
    rw [m2]
    show Ctx.remapName b.t.ctx = _
    unfold Ctx.remapName
    rw [hd]
    rfl
  · obtain ⟨m1, m2, m3, m4, m5⟩ := k2.members
    rw [m1, m3, m4, m5, k2.execs]
    show b.t.pset = 0 ∧ b.t.particles = 0 ∧ b.t.calls = [] ∧ _
    rw [h3]
    exact ⟨rfl, rfl, rfl, rfl, rfl⟩

theorem isAmd_make (s : Setup) (i : Nat) (hi : i < s.nodes.length) : s.isAmd (make s.env s.nodes) i = s.amd i := by
  unfold Setup.isAmd
  rw [make_nodes]
  simp [hi]

/-- The constructor with the index of a node gives a context on this node whose kernels are there; they are the optimised ones
unless the node belongs to AMD, and are taken from the right programs. -/
theorem C96_at {s : Setup} (hf : Setup.Files s) {i : Nat} (hu : NodeWorks s.env i) (hi : i < s.nodes.length) (ha : Arities s i (!s.amd i) (!s.amd i)) :
    ∃ o, s.newAt i = .ok o ∧ Placed s o i (!s.amd i) (!s.amd i) := by
  have hb := (stocked_build hf none (!s.amd i)).2.1
  obtain ⟨o, h1, h2⟩ := placed_build hf hu hi none (!s.amd i) (!s.amd i) ha
  refine ⟨o, ?_, h2⟩
  unfold Setup.newAt
  rw [isAmd_make s i hi, ← h1]
  generalize s.build ⟨newTracker s none, !s.amd i⟩ = b at *
  obtain ⟨t, opt⟩ := b
  subst hb
  rfl

theorem clSetup_arities (i : Nat) (po opt : Bool) : Arities clSetup i po opt := fun _ => clSetup_arity _ _ _ _ _

example : ∃ o, clSetup.newAt 0 = .ok o ∧ Placed clSetup o 0 true true :=
  C96_at (clSetup_files _) (clSetup_usable 0) (by decide) (clSetup_arities _ _ _)

example : ∃ o, clSetup.newAt 1 = .ok o ∧ Placed clSetup o 1 false false :=
  C96_at (clSetup_files _) (clSetup_usable 1) (by decide) (clSetup_arities _ _ _)

/-- So does the constructor with a platform and a device, for the first node that has them. -/
theorem C96_on {s : Setup} (hf : Setup.Files s) {id : NodeId} {i : Nat} (hfi : (make s.env s.nodes).findNode id = i)
    (hu : NodeWorks s.env i) (hi : i < s.nodes.length) (ha : Arities s i (!s.amd i) (!s.amd i)) :
    ∃ o, s.newOn id = .ok o ∧ Placed s o i (!s.amd i) (!s.amd i) := by
  have hb := (stocked_build hf (some ILLEGAL) (!s.amd i)).2.1
  obtain ⟨o, h1, h2⟩ := placed_build hf hu hi (some ILLEGAL) (!s.amd i) (!s.amd i) ha
  refine ⟨o, ?_, h2⟩
  unfold Setup.newOn
  simp only
  rw [hfi, isAmd_make s i hi, ← h1]
  generalize s.build ⟨newTracker s (some ILLEGAL), !s.amd i⟩ = b at *
  obtain ⟨t, opt⟩ := b
  subst hb
  rfl

theorem clSetup_find (d : Int) (i : Nat) (h : (d, i) ∈ [((0 : Int), 0), (1, 1)]) :
    (make clSetup.env clSetup.nodes).findNode ⟨0, d⟩ = i := by
  unfold Ctx.findNode
  rw [make_nodes]
  simp only [List.mem_cons, Prod.mk.injEq, List.not_mem_nil, or_false] at h
  rcases h with ⟨rfl, rfl⟩ | ⟨rfl, rfl⟩ <;> decide

example : ∃ o, clSetup.newOn ⟨0, 1⟩ = .ok o ∧ Placed clSetup o 1 false false :=
  C96_on (clSetup_files _) (clSetup_find 1 1 (by decide)) (clSetup_usable 1) (by decide) (clSetup_arities _ _ _)

/-- The constructor with a text that names a node does the same. -/
theorem C96_str {s : Setup} (hf : Setup.Files s) {id : NodeId} {i : Nat} (hfi : (make s.env s.nodes).findNode id = i)
    (hu : NodeWorks s.env i) (hi : i < s.nodes.length) (ha : Arities s i (!s.amd i) (!s.amd i)) :
    ∃ o, s.newStr (some id) = .ok o ∧ Placed s o i (!s.amd i) (!s.amd i) := by
  have hb := (stocked_build hf (some ILLEGAL) (!s.amd i)).2.1
  have hcx := build_eq hf (some ILLEGAL) (!s.amd i)
  have hn := (freshCtx_members s).2.2.2.1
  obtain ⟨o, h1, h2⟩ := placed_build hf hu hi (some ILLEGAL) (!s.amd i) (!s.amd i) ha
  refine ⟨o, ?_, h2⟩
  unfold Setup.newStr Ctx.findNodeStr
  simp only
  rw [hfi, isAmd_make s i hi, ← h1]
  generalize s.build ⟨newTracker s (some ILLEGAL), !s.amd i⟩ = b at *
  have hl : b.t.ctx.nodes.length = s.nodes.length := by
    rw [hcx, ← hn]
  rw [if_neg (by omega)]
  obtain ⟨t, opt⟩ := b
  subst hb
  rfl

example : ∃ o, clSetup.newStr (some ⟨0, 0⟩) = .ok o ∧ Placed clSetup o 0 true true :=
  C96_str (clSetup_files _) (clSetup_find 0 0 (by decide)) (clSetup_usable 0) (by decide) (clSetup_arities _ _ _)

theorem findNode_nodes {c c' : Ctx} (h : c.nodes = c'.nodes) (id : NodeId) : c.findNode id = c'.findNode id := by
  unfold Ctx.findNode
  rw [h]

/-- The constructor with an id leaves kernels for optimised tracking, unless the node belongs to AMD; but their programs are
those for normal tracking. -/
theorem newId_placed {s : Setup} (hf : Setup.Files s) {id : NodeId} {i : Nat} (hfi : (make s.env s.nodes).findNode id = i)
    (hu : NodeWorks s.env i) (hi : i < s.nodes.length) (ha : Arities s i false (!s.amd i)) :
    ∃ o, s.newId id = .ok o ∧ Placed s o i false (!s.amd i) := by
  have hcx := build_eq hf (some ILLEGAL) false
  have hn := (freshCtx_members s).2.2.2.1
  obtain ⟨o, h1, h2⟩ := placed_build hf hu hi (some ILLEGAL) false (!s.amd i) ha
  refine ⟨o, ?_, h2⟩
  unfold Setup.newId
  simp only
  generalize s.build ⟨newTracker s (some ILLEGAL), false⟩ = b at *
  have hl : b.t.ctx.nodes = (make s.env s.nodes).nodes := by
    rw [hcx, make_nodes, ← hn]
  have ham : s.isAmd b.t.ctx i = s.amd i := by
    unfold Setup.isAmd
    rw [hl, make_nodes]
    simp [hi]
  rw [findNode_nodes hl, hfi, ham, ← h1]

/-- The constructor with an id gives the same as the one with the index for nodes of AMD; missing: other nodes, for which this
is false (`C96_id_violated`). -/
theorem C96_id_partial {s : Setup} (hf : Setup.Files s) {id : NodeId} {i : Nat} (hfi : (make s.env s.nodes).findNode id = i)
    (hu : NodeWorks s.env i) (hi : i < s.nodes.length) (ha : Arities s i false false) (hamd : s.amd i = true) :
    ∃ o, s.newId id = .ok o ∧ Placed s o i false false := by
  have := newId_placed hf hfi hu hi (by rw [hamd]; exact ha)
  rw [hamd] at this
  exact this

example : ∃ o, clSetup.newId ⟨0, 1⟩ = .ok o ∧ Placed clSetup o 1 false false :=
  C96_id_partial (clSetup_files _) (clSetup_find 1 1 (by decide)) (clSetup_usable 1) (by decide) (clSetup_arities _ _ _) rfl

/-- On other nodes, the kernels for tracking that the constructor with an id asks for are not in the source of the program they
are to be taken from: even if OpenCL made such kernels, the context would have `optimized` set and normal programs. -/
theorem C96_id_violated {s : Setup} (hf : Setup.Files s) {id : NodeId} {i : Nat} (hfi : (make s.env s.nodes).findNode id = i)
    (hu : NodeWorks s.env i) (hi : i < s.nodes.length) (ha : Arities s i false true) (hamd : s.amd i = false) :
    ∃ o, s.newId id = .ok o ∧ o.opt = true ∧ ∀ w ∈ [Task.turn, .elem, .line], ∃ k p, o.t.ctx.kernels[taskId w]? = some k ∧
      o.t.ctx.programs[k.prog]? = some p ∧ p.path = s.env.kernelDir ++ "track_particles.cl" ∧
      p.source = srcOf s.env s.env.kernelDir false .track ∧ ¬ Offers "track_particles.cl" k.name := by
  obtain ⟨o, h1, h2⟩ := newId_placed hf hfi hu hi (by rw [hamd]; exact ha)
  rw [hamd] at h2
  refine ⟨o, h1, h2.mode, fun w hw => ?_⟩
  obtain ⟨k, p, k1, k2, k3, k4, -, k6⟩ := h2.kernel w
  have hno := (C96_names true false w).2.1 hw
  have hfo : fileOf false w = .track := by
    simp only [List.mem_cons, List.not_mem_nil, or_false] at hw
    rcases hw with rfl | rfl | rfl <;> rfl
  refine ⟨k, p, k1, k3, ?_, ?_, ?_⟩
  · rw [k4, hfo]; rfl
  · rw [k6, hfo]
  · rw [k2]
    simpa [hfo, fileName] using hno

example : ∃ o, clSetup.newId ⟨0, 0⟩ = .ok o ∧ o.opt = true ∧ ∃ k p, o.t.ctx.kernels[1]? = some k ∧
    o.t.ctx.programs[k.prog]? = some p ∧ p.path = "/cl/track_particles.cl" ∧ ¬ Offers "track_particles.cl" k.name := by
  obtain ⟨o, h1, h2, h3⟩ := C96_id_violated (clSetup_files _) (clSetup_find 0 0 (by decide)) (clSetup_usable 0) (by decide)
    (clSetup_arities _ _ _) rfl
  obtain ⟨k, p, k1, k2, k3, -, k5⟩ := h3 .turn (by decide)
  exact ⟨o, h1, h2, k, p, k1, k2, by rw [k3]; decide +kernel, k5⟩

end SixTrack
