import Verif.Props.ClContext

/-!
# C90, continued: a node that has been selected, clearing, flags, directories and the C interface
-/

namespace SixTrack
open ClContext

/-! ## A node is selected once -/

/-- the nodes and the selected one are the same -/
def NodeKept (c c' : Ctx) : Prop := c'.nodes = c.nodes ∧ c'.selected = c.selected

theorem NodeKept.refl (c : Ctx) : NodeKept c c := ⟨rfl, rfl⟩

theorem NodeKept.trans {a b c : Ctx} (h : NodeKept a b) (h' : NodeKept b c) : NodeKept a c :=
  ⟨h'.1.trans h.1, h'.2.trans h.2⟩

theorem NodeKept.hasNode {c c' : Ctx} (h : NodeKept c c') : c'.hasNode = c.hasNode := by
  unfold Ctx.hasNode
  rw [h.1, h.2]

theorem NodeKept.addCode (c : Ctx) (e : Env) (s o : String) : NodeKept c (c.addCode e s o).2 := by
  rw [addCode_members]
  exact ⟨rfl, rfl⟩

theorem NodeKept.addFile (c : Ctx) (e : Env) (p o : String) (t : Nat) : NodeKept c (c.addFile e p o t).2 := by
  rw [addFile_members]
  exact ⟨rfl, rfl⟩

theorem NodeKept.compileProgram (c : Ctx) (e : Env) (i : Nat) : NodeKept c (c.compileProgram e i).2 := by
  rw [compileProgram_members]
  exact ⟨rfl, rfl⟩

theorem NodeKept.enableKernel (c : Ctx) (e : Env) (name : String) (i : Nat) :
    NodeKept c (c.enableKernel e name i).2 := by
  unfold Ctx.enableKernel
  split_ifs
  · split
    · split_ifs
      · exact .refl c
      · exact ⟨rfl, rfl⟩
      · simp only
        split
        · split_ifs
          · exact (NodeKept.compileProgram c e i).trans ⟨rfl, rfl⟩
          · exact .compileProgram c e i
        · exact .compileProgram c e i
    · exact .refl c
  · exact .refl c

theorem NodeKept.setRemapKernel (c : Ctx) (k : Nat) : NodeKept c (c.setRemapKernel k).2 := by
  unfold Ctx.setRemapKernel
  split
  · split_ifs <;> exact ⟨rfl, rfl⟩
  · exact .refl c

theorem NodeKept.initKernels (c : Ctx) (e : Env) : NodeKept c (c.initKernels e).2 := by
  unfold Ctx.initKernels
  split_ifs
  · exact (NodeKept.enableKernel c e _ _).trans (.setRemapKernel _ _)
  · exact .refl c

theorem NodeKept.assignSlotSize (c : Ctx) (n : Nat) : NodeKept c (c.assignSlotSize n).2 := by
  unfold Ctx.assignSlotSize
  split_ifs <;> exact ⟨rfl, rfl⟩

theorem NodeKept.assignStatusFlags (c : Ctx) (b : Nat) : NodeKept c (c.assignStatusFlags b).2 := by
  unfold Ctx.assignStatusFlags
  split_ifs <;> exact ⟨rfl, rfl⟩

theorem selectBase_refused {c : Ctx} (e : Env) (i : Nat) (h : c.hasNode = true) : c.selectBase e i = (false, c) := by
  unfold Ctx.selectBase
  rw [if_neg (fun g => by rw [h] at g; cases g.1)]

theorem selectNode_refused {c : Ctx} (e : Env) (i b : Nat) (h : c.hasNode = true) :
    c.selectNode e i b = (false, c) := by
  unfold Ctx.selectNode
  rw [selectBase_refused e i h]
  rfl

theorem selectAt_refused {c : Ctx} (e : Env) (i : Nat) (h : c.hasNode = true) : c.selectAt e i = (false, c) := by
  unfold Ctx.selectAt
  rw [selectBase_refused e i h]
  rfl

/-- **C90 (a node is selected once)**: once a node has been selected, it stays selected whatever is called, until the
context is cleared; to select another one, or the same, fails and changes nothing. -/
theorem C90_once {e : Env} {c : Ctx} (h : c.hasNode = true) :
    (∀ i b, c.selectNode e i b = (false, c)) ∧ (∀ id, c.selectId e id = (false, c)) ∧
      (∀ id, c.selectStr e id = (false, c)) ∧
      ∀ ops : List ClOp, ops.all (fun op => match op with | .clear => false | _ => true) = true →
        NodeKept c (ops.foldl (fun c op => op.run e c) c) := by
  refine ⟨fun i b => selectNode_refused e i b h, fun id => selectAt_refused e _ h, fun id => selectAt_refused e _ h, ?_⟩
  intro ops
  induction ops generalizing c with
  | nil => exact fun _ => .refl c
  | cons op ops ih =>
    intro hops
    simp only [List.all_cons, Bool.and_eq_true] at hops
    have key : NodeKept c (op.run e c) := by
      cases op with
      | addCode s o => exact .addCode c e s o
      | addCodeDefault s => exact .addCode c e s _
      | addFile p o t => exact .addFile c e p o t
      | compileProgram i => exact .compileProgram c e i
      | enableKernel n i => exact .enableKernel c e n i
      | selectNode i b =>
        unfold ClOp.run
        simp only
        rw [selectNode_refused e i b h]
        exact .refl c
      | selectId id =>
        unfold ClOp.run Ctx.selectId
        simp only
        rw [selectAt_refused e _ h]
        exact .refl c
      | selectStr id =>
        unfold ClOp.run Ctx.selectStr
        simp only
        rw [selectAt_refused e _ h]
        exact .refl c
      | setRemapKernel k => exact .setRemapKernel c k
      | assign k i a v => exact ⟨rfl, rfl⟩
      | assignSlotSize n => exact .assignSlotSize c n
      | assignStatusFlags b => exact .assignStatusFlags c b
      | setFlag n v =>
        unfold ClOp.run Ctx.setFlag
        simp only
        split_ifs <;> exact ⟨rfl, rfl⟩
      | setKernelDir p =>
        unfold ClOp.run Ctx.setKernelDir
        simp only
        split_ifs <;> exact ⟨rfl, rfl⟩
      | setIncDir p =>
        unfold ClOp.run Ctx.setIncDir
        simp only
        split_ifs <;> exact ⟨rfl, rfl⟩
      | setOptions o => exact ⟨rfl, rfl⟩
      | clear => exact absurd hops.1 (by decide)
      | reinit =>
        unfold ClOp.run Ctx.reinit
        simp only
        rw [if_pos h]
        exact .refl c
      | setDebug on =>
        unfold ClOp.run Ctx.setDebug
        simp only
        rw [if_neg (fun g => by rw [h] at g; cases g.2)]
        exact .refl c
    exact key.trans (ih (key.hasNode.trans h) hops.2)

/-- **C90 (selecting by id or text)**: a node can be selected by its id or by a text under the same conditions, whatever
the number of arguments of the kernel for remapping; but the arguments of this kernel are not set. -/
theorem C90_select_at {e : Env} {c : Ctx} {i : Nat} :
    ((c.selectAt e i).1 = true ↔ CanSelect e c i ∧ c.remapProgram < c.programs.length) ∧
    ((c.selectAt e i).1 = true → Selected e c i (c.selectAt e i).2 ∧
      ∀ k ∈ (c.selectAt e i).2.kernels, (∀ v ∈ k.cl, v = none) ∧ ∀ a ∈ k.args, a = ⟨.none, none⟩) := by
  by_cases hc : CanSelect e c i
  · cases hp : c.programs[c.remapProgram]? with
    | none =>
      have h1 := (initKernels_selected hc).2 hp
      have h2 : (c.selectAt e i).1 = false := by
        unfold Ctx.selectAt
        simp only
        rw [if_pos (selectBase_ok.2 hc), h1]
      have := List.getElem?_eq_none_iff.1 hp
      rw [h2]
      refine ⟨⟨fun h => Bool.noConfusion h, fun h => absurd h.2 (by omega)⟩, fun h => Bool.noConfusion h⟩
    | some p =>
      obtain ⟨c', h1, h2⟩ := (initKernels_selected hc).1 p hp
      have hl := (List.getElem?_eq_some_iff.1 hp).1
      have hsn : c.selectAt e i = (true, c') := by
        unfold Ctx.selectAt
        simp only
        rw [if_pos (selectBase_ok.2 hc), h1]
      have hn : c'.hasNode = true := by
        rw [h2, selectBase_eq hc, hasNode_iff]
        exact ⟨Int.natCast_nonneg i, by simpa using hc.2.1⟩
      have hk : c'.kernels = [newKernel (e.kernel i p.source c.remapName) c.remapName c.remapProgram] := by rw [h2]
      have hr : c'.remapKernel = 0 := by rw [h2]
      have hnd : c'.nodes = c.nodes ∧ c'.selected = (i : Int) := by
        rw [h2, selectBase_eq hc]
        exact ⟨rfl, rfl⟩
      rw [hsn]
      refine ⟨⟨fun _ => ⟨hc, hl⟩, fun _ => rfl⟩, fun _ => ⟨⟨⟨hn, ?_, ?_⟩, ?_, ?_, p, _, hp, hk, ?_, rfl, rfl, rfl⟩, ?_⟩⟩
      · unfold Ctx.nodeIndex
        rw [if_pos hn]
        simp only
        rw [hnd.2]
        simp
      · unfold Ctx.selectedId Ctx.nodeAt
        simp only
        rw [hnd.1, hnd.2]
        have := hc.2.1
        simp [this]
      · intro q hq
        simp only at hq
        rw [h2, selectBase_eq hc] at hq
        rcases List.mem_or_eq_of_mem_set hq with hq | hq
        · obtain ⟨q', -, rfl⟩ := List.mem_map.1 hq
          rfl
        · rw [hq]
      · simp only
        rw [h2, selectBase_eq hc]
        simp only [List.map_set, List.map_map]
        apply List.ext_getElem?
        intro j
        rw [List.getElem?_set]
        split_ifs with a1 a2
        · subst a1
          rw [List.getElem?_map, hp]
          rfl
        · subst a1
          simp at a2
          omega
        · rfl
      · unfold Ctx.remapKernelId Ctx.hasRemapKernel
        rw [hn]
        simp [hr, hk]
      · intro k hkm
        simp only at hkm
        rw [hk, List.mem_singleton] at hkm
        subst hkm
        exact ⟨fun v hv => List.eq_of_mem_replicate hv, fun a ha => List.eq_of_mem_replicate ha⟩
  · have h0 : (c.selectBase e i).1 = false := by
      cases h : (c.selectBase e i).1 with
      | false => rfl
      | true => exact absurd (selectBase_ok.1 h) hc
    have hsn : (c.selectAt e i).1 = false := by
      unfold Ctx.selectAt
      simp only
      rw [h0]
      rfl
    rw [hsn]
    simp [hc]

/-! ## Clearing -/

/-- what the default programs are after they have been added to a context without programs -/
theorem initPrograms_empty (e : Env) (c : Ctx) (hn : c.hasNode = false) (hp : c.programs = []) :
    (∀ s, c.remapPath ≠ "" → e.file c.remapPath = some s → s ≠ "" →
      (c.initPrograms e).2 = { c with
        programs := [⟨c.remapPath, s, c.remapOptions e, [], false⟩]
        remapProgram := 0 }) ∧
    (c.remapPath = "" ∨ e.file c.remapPath = none ∨ e.file c.remapPath = some "" →
      (c.initPrograms e).2 = { c with remapProgram := ILLEGAL }) := by
  have hf : c.fullPath c.remapPath 1 = c.remapPath := by
    unfold Ctx.fullPath
    by_cases h : c.remapPath = ""
    · rw [if_neg (not_not.2 h), h]
    · rw [if_pos h, if_pos rfl]
  have ho : c.remapOptions e ≠ "" := by
    intro h
    have := congrArg String.length h
    unfold Ctx.remapOptions at this
    simp only [String.length_append] at this
    have h1 : (" ").length = 1 := rfl
    have h2 : ("").length = 0 := rfl
    omega
  constructor
  · intro s h1 h2 h3
    unfold Ctx.initPrograms Ctx.addFile
    simp only [hf]
    rw [if_pos h1, h2]
    simp only
    rw [if_pos h3, if_pos ho]
    unfold Ctx.addCode Ctx.setPath
    rw [if_pos h3]
    simp only [hn, Bool.false_eq_true, if_false, hp, List.nil_append, List.length_nil]
    rfl
  · intro h
    unfold Ctx.initPrograms Ctx.addFile
    simp only [hf]
    by_cases h1 : c.remapPath = ""
    · rw [if_neg (not_not.2 h1)]
    · rw [if_pos h1]
      rcases h with h | h | h
      · exact absurd h h1
      · rw [h]
      · rw [h]
        rfl

/-- **C90 (clearing)**: after clearing, no node is selected, there are no kernels, and the only program is that for
remapping, if its file can be read; the nodes, the directories, the flags and the options stay. -/
theorem C90_clear (e : Env) (c : Ctx) :
    (c.clear e).hasNode = false ∧ (c.clear e).kernels = [] ∧ (c.clear e).clPrograms = [] ∧
      (c.clear e).remapKernelId = ILLEGAL ∧ (c.clear e).nodes = c.nodes ∧ (c.clear e).flags = c.flags ∧
      (c.clear e).options = c.options ∧ (c.clear e).kernelDir = c.kernelDir ∧ (c.clear e).debug = c.debug ∧
      (∀ s, e.file c.remapPath = some s → c.remapPath ≠ "" → s ≠ "" →
        (c.clear e).programs = [⟨c.remapPath, s, c.remapOptions e, [], false⟩] ∧ (c.clear e).remapProgram = 0) ∧
      (e.file c.remapPath = none → (c.clear e).programs = [] ∧ (c.clear e).remapProgram = ILLEGAL) := by
  have hn := clear_hasNode c e
  obtain ⟨k1, k2⟩ := initPrograms_empty e c.doClear (doClear_hasNode c) rfl
  have hm : (c.clear e).kernels = [] ∧ (c.clear e).clPrograms = [] ∧ (c.clear e).nodes = c.nodes ∧
      (c.clear e).flags = c.flags ∧ (c.clear e).options = c.options ∧ (c.clear e).kernelDir = c.kernelDir ∧
      (c.clear e).debug = c.debug := by
    unfold Ctx.clear
    by_cases hp : c.doClear.remapPath = ""
    · rw [k2 (.inl hp)]
      exact ⟨rfl, rfl, rfl, rfl, rfl, rfl, rfl⟩
    · cases hf : e.file c.doClear.remapPath with
      | none =>
        rw [k2 (.inr (.inl hf))]
        exact ⟨rfl, rfl, rfl, rfl, rfl, rfl, rfl⟩
      | some s =>
        by_cases hs : s = ""
        · rw [k2 (.inr (.inr (by rw [hf, hs])))]
          exact ⟨rfl, rfl, rfl, rfl, rfl, rfl, rfl⟩
        · rw [k1 s hp hf hs]
          exact ⟨rfl, rfl, rfl, rfl, rfl, rfl, rfl⟩
  refine ⟨hn, hm.1, hm.2.1, ?_, hm.2.2.1, hm.2.2.2.1, hm.2.2.2.2.1, hm.2.2.2.2.2.1, hm.2.2.2.2.2.2, ?_, ?_⟩
  · unfold Ctx.remapKernelId Ctx.hasRemapKernel
    rw [hn]
    rfl
  · intro s h1 h2 h3
    unfold Ctx.clear
    rw [k1 s h2 h1 h3]
    exact ⟨rfl, rfl⟩
  · intro h1
    unfold Ctx.clear
    rw [k2 (.inr (.inl h1))]
    exact ⟨rfl, rfl⟩

/-- **C90 (a new context)**: a new context has the nodes that are available, none of them selected, and the program for
remapping, if its file can be read. -/
theorem C90_make (e : Env) (nodes : List NodeId) :
    (make e nodes).nodes = nodes ∧ (make e nodes).hasNode = false ∧ (make e nodes).kernels = [] ∧
      (make e nodes).debug = false ∧ (make e nodes).incDir = e.incDir ∧ (make e nodes).kernelDir = e.kernelDir ∧
      (make e nodes).options = e.options ∧ (make e nodes).flag "_GPUCODE" = some "1" ∧
      (make e nodes).flag "SIXTRL_BUFFER_ARGPTR_DEC" = some "__private" ∧
      (make e nodes).flag "SIXTRL_BUFFER_DATAPTR_DEC" = some "__global" ∧
      ∀ s, e.file (e.kernelDir ++ "managed_buffer_remap.cl") = some s → s ≠ "" →
        (make e nodes).remapProgram = 0 ∧ ∃ o, (make e nodes).programs =
          [⟨e.kernelDir ++ "managed_buffer_remap.cl", s, o, [], false⟩] ∧
          o = (if e.options ≠ "" then e.options ++ " " else "") ++ "-D_GPUCODE=1" ++ " " ++
            "-DSIXTRL_BUFFER_ARGPTR_DEC=__private" ++ " " ++ "-DSIXTRL_BUFFER_DATAPTR_DEC=__global" ++ " " ++ "-I " ++
            e.incDir := by
  have hm : (make e nodes).kernels = [] ∧ (make e nodes).debug = false ∧ (make e nodes).incDir = e.incDir ∧
      (make e nodes).kernelDir = e.kernelDir ∧ (make e nodes).options = e.options ∧
      (make e nodes).flags = (base e nodes).flags := by
    unfold make Ctx.initPrograms
    simp only
    rw [addFile_members]
    exact ⟨rfl, rfl, rfl, rfl, rfl, rfl⟩
  obtain ⟨h1, h2, h3, h4, h5, h6⟩ := hm
  have hfl : ∀ n, (make e nodes).flag n = (base e nodes).flag n := by
    intro n
    unfold Ctx.flag
    rw [h6]
  refine ⟨make_nodes e nodes, make_hasNode e nodes, h1, h2, h3, h4, h5, ?_, ?_, ?_, ?_⟩
  · rw [hfl, base_members]
    rfl
  · rw [hfl, base_members]
    rfl
  · rw [hfl, base_members]
    rfl
  · intro s hs hne
    have hp : (base e nodes).remapPath ≠ "" := by
      intro h
      have := congrArg String.length h
      unfold Ctx.remapPath at this
      rw [String.length_append, base_members] at this
      have h1 : ("managed_buffer_remap.cl").length = 23 := rfl
      have h2 : ("").length = 0 := rfl
      simp only [Bool.false_eq_true, if_false] at this
      omega
    have := (initPrograms_empty e (base e nodes) (base_hasNode e nodes) (by rw [base_members])).1 s hp hs hne
    unfold make
    rw [this]
    refine ⟨rfl, _, rfl, ?_⟩
    unfold Ctx.remapOptions
    rw [base_members]
    rfl

/-! ## Feature flags -/

theorem lookup_append (n : String) (l l' : List (String × String)) :
    lookup n (l ++ l') = (lookup n l).or (lookup n l') := by
  induction l with
  | nil => rfl
  | cons a l ih =>
    rw [List.cons_append, lookup, lookup]
    split_ifs
    · rfl
    · exact ih

/-- **C90 (feature flags)**: setting a flag that is not there yet adds it and leaves the others; a flag has a text iff it
is there, and its representation is made of prefix, name, separator and text. -/
theorem C90_flags (c : Ctx) (name v : String) (hn : name ≠ "") :
    (c.flag name = none → (c.setFlag name v).flag name = some v) ∧
      (∀ n, n ≠ name → (c.setFlag name v).flag n = c.flag n) ∧
      (∀ n, c.hasFlag n = (c.flag n).isSome) ∧
      (∀ w, c.flag name = some w → ∀ p s, c.flagRepr name p s = p ++ name ++ s ++ w) ∧
      (c.flag name = none → ∀ p s, c.flagRepr name p s = "") := by
  refine ⟨fun h => ?_, fun n hne => ?_, fun n => ?_, fun w h p s => ?_, fun h p s => ?_⟩
  · unfold Ctx.flag at h ⊢
    rw [if_pos hn] at h ⊢
    unfold Ctx.setFlag
    rw [if_pos ⟨hn, by rw [h]; rfl⟩]
    simp only
    rw [lookup_append, h]
    simp [lookup]
  · unfold Ctx.flag Ctx.setFlag
    by_cases hc : name ≠ "" ∧ (lookup name c.flags).isNone = true
    · rw [if_pos hc]
      simp only
      rw [lookup_append]
      have : lookup n [(name, v)] = none := by simp [lookup, Ne.symm hne]
      rw [this, Option.or_none]
    · rw [if_neg hc]
  · unfold Ctx.hasFlag Ctx.flag
    by_cases h : n = "" <;> simp [h]
  · unfold Ctx.flagRepr
    rw [h]
  · unfold Ctx.flagRepr
    rw [h]

/-- **C90 (a flag is not changed), violated**: setting a flag that is there already leaves its old text. -/
theorem C90_flag_violated (c : Ctx) (name v w : String) (h : c.flag name = some w) :
    c.setFlag name v = c ∧ (v ≠ w → (c.setFlag name v).flag name ≠ some v) := by
  have hs : c.setFlag name v = c := by
    unfold Ctx.setFlag
    rw [if_neg]
    rintro ⟨hn, hl⟩
    unfold Ctx.flag at h
    rw [if_pos hn] at h
    rw [h] at hl
    cases hl
  refine ⟨hs, fun hne => ?_⟩
  rw [hs, h]
  intro g
  exact hne (Option.some.inj g).symm

/-! ## A context on which everything works, and others -/

/-- a device on which everything can be built, with three arguments for every kernel -/
def clDemo : Env where
  file := fun _ => some "src"
  writes := fun _ => true
  builds := fun _ _ _ => true
  kernel := fun _ _ _ => ⟨3, 256, 32, 0⟩
  incDir := "inc"
  kernelDir := "dir/"
  options := "-O"

/-- a device on which nothing can be built -/
def clBroken : Env := { clDemo with builds := fun _ _ _ => false }

/-- no file can be read -/
def clNoFile : Env := { clDemo with file := fun _ => none }

/-- two devices -/
def clNodes : List NodeId := [⟨0, 0⟩, ⟨0, 1⟩]

example : CanSelect clDemo (make clDemo clNodes) 1 := by
  refine ⟨make_hasNode _ _, by rw [make_nodes]; decide, rfl, fun p hp => ?_⟩
  obtain ⟨-, o, ho, ho'⟩ := (C90_make clDemo clNodes).2.2.2.2.2.2.2.2.2.2 "src" rfl (by decide)
  rw [ho, List.mem_singleton] at hp
  rw [hp]
  refine ⟨?_, rfl⟩
  rw [ho']
  decide

example : ((make clDemo clNodes).selectNode clDemo 1 7).1 = true := by decide +kernel

example : ((make clDemo clNodes).selectId clDemo ⟨0, 1⟩).1 = true := by decide +kernel

example : (((make clDemo clNodes).selectNode clDemo 1 7).2.enableKernel clDemo "run" 0).1 = 1 := by decide +kernel

/-- **C90 (enabling a kernel twice), violated**: the id of a kernel that has been enabled already is not found by enabling
it again; the answer is the illegal id, and the kernel is still there. -/
theorem C90_enable_violated {c : Ctx} (hs : Sound c) (e : Env) (name : String) (k : Nat) (x : Kernel)
    (hx : c.kernels[k]? = some x) (hn : x.name = name) :
    c.enableKernel e name x.prog = (ILLEGAL, c) ∧ c.kernelName k = some name := by
  have hnode : c.hasNode = true := by
    by_contra hc
    rw [(hs.unselected (by simpa using hc)).1] at hx
    cases hx
  refine ⟨?_, ?_⟩
  · obtain ⟨p, hp, hpc⟩ := hs.owner x (List.mem_of_getElem? hx)
    have hl := (List.getElem?_eq_some_iff.1 hp).1
    have hsrc : c.clPrograms.length = c.programs.length := by rw [hs.sources hnode, List.length_map]
    unfold Ctx.enableKernel
    rw [if_pos ⟨hnode, by rw [← hn]; exact hs.named x (List.mem_of_getElem? hx), by omega⟩, hp]
    simp only
    rw [if_pos hpc, if_pos]
    exact (nameTaken_iff hs hp (by rw [← hn]; exact hs.named x (List.mem_of_getElem? hx))).2
      ⟨x, List.mem_of_getElem? hx, hn, rfl⟩
  · unfold Ctx.kernelName
    rw [if_pos hnode, hx, Option.map_some, hn]

/-- **C90 (a selection that fails), violated**: if a program cannot be built, selecting the node fails, but the node is
selected nevertheless and cannot be selected again. -/
theorem C90_select_fails_violated :
    let x := (make clBroken clNodes).selectNode clBroken 1 7
    x.1 = false ∧ x.2.hasNode = true ∧ x.2.nodeIndex = 1 ∧ ∀ e i b, (x.2.selectNode e i b).1 = false := by
  have h : ((make clBroken clNodes).selectNode clBroken 1 7).2.hasNode = true := by decide +kernel
  refine ⟨by decide +kernel, h, by decide +kernel, fun e i b => ?_⟩
  rw [selectNode_refused e i b h]

/-- **C90 (all selections set the arguments), violated**: selecting a node by its id succeeds without the size of a slot
among the arguments of the kernel for remapping; selecting it by its index sets the size. -/
theorem C90_select_args_violated :
    let x := (make clDemo clNodes).selectId clDemo ⟨0, 1⟩
    let y := (make clDemo clNodes).selectNode clDemo 1 7
    x.1 = true ∧ x.2.kernels.map (·.cl) = [[none, none, none]] ∧
      y.1 = true ∧ y.2.kernels.map (·.cl) = [[none, some (.value 8), none]] := by
  decide +kernel

/-- **C90 (debug mode has one program), violated**: after switching to debug mode, the program for remapping is there
twice. -/
theorem C90_debug_violated :
    ((make clDemo clNodes).programs.map (·.path)) = ["dir/managed_buffer_remap.cl"] ∧
      (((make clDemo clNodes).setDebug clDemo true).programs.map (·.path)) =
        ["dir/managed_buffer_remap_debug.cl", "dir/managed_buffer_remap_debug.cl"] ∧
      (((make clDemo clNodes).reinit clDemo).2.programs.map (·.path)) =
        ["dir/managed_buffer_remap.cl", "dir/managed_buffer_remap.cl"] := by
  decide +kernel

/-- **C90 (a missing file is noticed), violated**: adding the default programs succeeds without the file, since no id is
negative; then no node can be selected. -/
theorem C90_init_violated (e : Env) (c : Ctx) :
    (c.initPrograms e).1 = true ∧
      let c' := make clNoFile clNodes
      (c'.initPrograms clNoFile).1 = true ∧ c'.programs = [] ∧ ∀ i b, (c'.selectNode clNoFile i b).1 = false := by
  refine ⟨rfl, rfl, by decide +kernel, fun i b => ?_⟩
  cases h : ((make clNoFile clNodes).selectNode clNoFile i b).1 with
  | false => rfl
  | true =>
    obtain ⟨-, p, hp, -⟩ := C90_select.1.1 h
    have : (make clNoFile clNodes).programs = [] := by decide +kernel
    rw [this] at hp
    cases hp

/-- **C90 (include directory), violated**: with a pointer, setting the include directory sets the directory of the kernels
instead; with a `std::string`, it sets the right one. -/
theorem C90_inc_dir_violated (c : Ctx) (path : String) (h : path ≠ "") :
    (c.setIncDir path).kernelDir = path ∧ (c.setIncDir path).incDir = c.incDir ∧
      (c.setIncDirStr path).incDir = path ∧ (c.setIncDirStr path).kernelDir = c.kernelDir := by
  unfold Ctx.setIncDir
  rw [if_pos h]
  exact ⟨rfl, rfl, rfl, rfl⟩

/-- **C90 (the include directory is used), violated**: the options of the program for remapping do not depend on the
include directory of the context. -/
theorem C90_inc_dir_unused_violated (e : Env) (c : Ctx) (path : String) :
    (c.setIncDirStr path).remapOptions e = c.remapOptions e := rfl

/-! ## The C interface -/

/-- **C90 (a context on a node given by a text)**: there is a context iff the text names a node that can be selected; then
this node is selected. -/
theorem C90_new_on_str (e : Env) (nodes : List NodeId) (id : Option NodeId) :
    (∀ c, newOnStr e nodes id = some c → ∃ i, id = some i ∧ i ∈ nodes ∧ c.hasNode = true ∧ c.selectedId = some i) ∧
      (newOnStr e nodes id ≠ none ↔ ∃ i, id = some i ∧ (make e nodes).available i = true ∧
        ((make e nodes).selectId e i).1 = true) := by
  have key : ∀ i, (make e nodes).nodeAt ((make e nodes).findNode i) =
      if (make e nodes).available i = true then some i else none := by
    intro i
    split_ifs with h
    · have h' := h
      unfold Ctx.available at h'
      rw [decide_eq_true_eq] at h'
      obtain ⟨hm, ha, hb⟩ := (C90_available _ i).1 h
      obtain ⟨h1, -⟩ := C90_find_node (make e nodes) i
      have hlt := List.idxOf_lt_length_iff.2 hm
      have hget : (make e nodes).nodes[(make e nodes).nodes.idxOf i]? = some i := by
        rw [List.getElem?_eq_getElem hlt, List.getElem_idxOf]
      have h6 := h1 ha hb _ hget (by
        intro hc
        obtain ⟨j, hj, hje⟩ := List.mem_take_iff_getElem.1 hc
        have h5 : j < (make e nodes).nodes.idxOf i := by omega
        have h6 := List.not_of_lt_findIdx (p := (· == i)) h5
        simp [hje] at h6)
      unfold Ctx.nodeAt
      rw [if_pos h', h6, hget]
    · unfold Ctx.available at h
      rw [decide_eq_true_eq] at h
      unfold Ctx.nodeAt
      rw [if_neg h]
  cases id with
  | none =>
    have : newOnStr e nodes none = none := by
      unfold newOnStr Ctx.findNodeStr Ctx.nodeAt
      simp
    rw [this]
    simp
  | some i =>
    unfold newOnStr Ctx.findNodeStr
    simp only
    rw [key]
    by_cases h : (make e nodes).available i = true
    · rw [if_pos h]
      simp only
      cases hs : ((make e nodes).selectId e i).1 with
      | false => simp [hs]
      | true =>
        simp only [if_true]
        refine ⟨fun c hc => ?_, by simp [h, hs]⟩
        rw [Option.some.injEq] at hc
        subst hc
        obtain ⟨hsel, -⟩ := C90_select_at.2 hs
        refine ⟨i, rfl, ?_, hsel.node.1, ?_⟩
        · have := ((C90_available _ i).1 h).1
          rw [make_nodes] at this
          exact this
        · refine hsel.node.2.2.trans ?_
          have := key i
          rw [if_pos h] at this
          unfold Ctx.nodeAt at this
          split_ifs at this
          exact this
    · rw [if_neg h]
      simp [h]

/-- **C90 (a new context of the C interface), violated**: without an id, the default node is selected, and if this has
succeeded the context is deleted and the result is a null pointer; a context is returned iff the selection has failed. -/
theorem C90_new_violated (e : Env) (nodes : List NodeId) (b : Nat) :
    (newCtx e nodes b = none ↔ ((make e nodes).selectId e (make e nodes).defaultNode).1 = true) ∧
      newCtx clDemo clNodes 0 = none ∧ newCtx clBroken clNodes 0 ≠ none := by
  refine ⟨?_, by decide +kernel, by decide +kernel⟩
  unfold newCtx newOnId
  simp only
  split_ifs with h
  · simp [h]
  · simp [h]

/-- **C90 (a constructor with a node)**: the node is selected iff it is there and can be written, whether or not the
programs can be built. -/
theorem C90_make_on (e : Env) (nodes : List NodeId) (i b : Nat) :
    ((makeOn e nodes i b).hasNode = true ↔ i < nodes.length ∧ e.writes i = true) ∧
      ((makeOn e nodes i b).hasNode = true → (makeOn e nodes i b).selectedId = nodes[i]?) := by
  have hb : i < nodes.length → e.writes i = true →
      ((make e nodes).selectBase e i).2.nodes = nodes ∧ ((make e nodes).selectBase e i).2.selected = (i : Int) := by
    intro h1 h2
    unfold Ctx.selectBase
    rw [if_pos ⟨make_hasNode e nodes, by rw [make_nodes]; exact h1, h2⟩]
    exact ⟨make_nodes e nodes, rfl⟩
  have hno : ¬(i < nodes.length ∧ e.writes i = true) → makeOn e nodes i b = make e nodes := by
    intro h
    have : (make e nodes).selectBase e i = (false, make e nodes) := by
      unfold Ctx.selectBase
      rw [if_neg]
      rw [make_nodes]
      exact fun g => h g.2
    unfold makeOn
    simp only
    rw [this]
    simp
  by_cases h : i < nodes.length ∧ e.writes i = true
  · obtain ⟨n1, n2⟩ := hb h.1 h.2
    have hk : NodeKept ((make e nodes).selectBase e i).2 (makeOn e nodes i b) := by
      unfold makeOn
      simp only
      rw [if_pos (by rw [make_nodes]; exact h.1)]
      split_ifs
      · exact ((NodeKept.initKernels _ e).trans (.assignSlotSize _ _)).trans (.assignStatusFlags _ b)
      · exact .refl _
    have g1 := hk.1.trans n1
    have g2 := hk.2.trans n2
    have hh : (makeOn e nodes i b).hasNode = true := by
      rw [hasNode_iff, g1, g2]
      exact ⟨Int.natCast_nonneg i, by simpa using h.1⟩
    refine ⟨by simp [hh, h], fun _ => ?_⟩
    unfold Ctx.selectedId Ctx.nodeAt
    rw [g1, g2]
    have := h.1
    simp [this]
  · rw [hno h, make_hasNode]
    refine ⟨by simp only [Bool.false_eq_true, false_iff]; exact h, fun g => by cases g⟩

/-- **C90 (a context on a node given by its id)**: with a valid id, there is a context iff the node is there and can be
written; then this node is selected. -/
theorem C90_new_on_id (e : Env) (nodes : List NodeId) (id : NodeId) (b : Nat) (hv : id.valid = true) :
    (newOnId e nodes (some id) b ≠ none ↔
      (make e nodes).findNode id < nodes.length ∧ e.writes ((make e nodes).findNode id) = true) ∧
      ∀ c, newOnId e nodes (some id) b = some c →
        c.hasNode = true ∧ c.selectedId = nodes[(make e nodes).findNode id]? := by
  obtain ⟨h1, h2⟩ := C90_make_on e nodes ((make e nodes).findNode id) b
  unfold newOnId
  simp only
  rw [if_pos hv]
  split_ifs with h
  · refine ⟨by simp [h1.1 h], fun c hc => ?_⟩
    rw [Option.some.injEq] at hc
    subst hc
    exact ⟨h, h2 h⟩
  · refine ⟨?_, fun c hc => by cases hc⟩
    rw [← h1]
    simp [h]

example : newOnStr clDemo clNodes (some ⟨0, 1⟩) ≠ none := by decide +kernel
example : (makeOn clDemo clNodes 1 7).kernels.length = 1 ∧ (makeOn clDemo clNodes 1 7).hasNode = true ∧
    (makeOn clDemo clNodes 1 7).kernelProgram 0 = 0 := by decide +kernel
example : newOnId clDemo clNodes (some ⟨0, 1⟩) 7 ≠ none := by decide +kernel
example : (makeOn clBroken clNodes 1 7).hasNode = true := by decide +kernel

end SixTrack
