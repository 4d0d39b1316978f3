import Verif.ClContextLemmas
import Mathlib.Tactic.Tauto

/-!
# C90: nodes, programs and kernels of an OpenCL context

The ids a context hands out are the positions of the programs and kernels, and they keep their meaning until the context
is cleared; each program lists its kernels, and no program has two of the same name.  A node is selected at most once, and
then all programs are compiled for it.
-/

namespace SixTrack
open ClContext

/-! ## What always holds -/

/-- the functions of the interface that change a context -/
inductive ClOp where
  | addCode (source options : String)
  | addCodeDefault (source : String)
  | addFile (path options : String) (type : Nat)
  | compileProgram (i : Nat)
  | enableKernel (name : String) (i : Nat)
  | selectNode (i b : Nat)
  | selectId (id : NodeId)
  | selectStr (id : Option NodeId)
  | setRemapKernel (k : Nat)
  | assign (k i : Nat) (a : Arg) (v : ClVal)
  | assignSlotSize (n : Nat)
  | assignStatusFlags (b : Nat)
  | setFlag (name value : String)
  | setKernelDir (path : String)
  | setIncDir (path : String)
  | setOptions (options : String)
  | clear
  | reinit
  | setDebug (on : Bool)

/-- one call -/
def ClOp.run (e : Env) (c : Ctx) : ClOp → Ctx
  | addCode s o => (c.addCode e s o).2
  | addCodeDefault s => (c.addCodeDefault e s).2
  | addFile p o t => (c.addFile e p o t).2
  | compileProgram i => (c.compileProgram e i).2
  | enableKernel n i => (c.enableKernel e n i).2
  | selectNode i b => (c.selectNode e i b).2
  | selectId id => (c.selectId e id).2
  | selectStr id => (c.selectStr e id).2
  | setRemapKernel k => (c.setRemapKernel k).2
  | assign k i a v => c.assign k i a v
  | assignSlotSize n => (c.assignSlotSize n).2
  | assignStatusFlags b => (c.assignStatusFlags b).2
  | setFlag n v => c.setFlag n v
  | setKernelDir p => c.setKernelDir p
  | setIncDir p => c.setIncDir p
  | setOptions o => c.setOptions o
  | clear => c.clear e
  | reinit => (c.reinit e).2
  | setDebug on => c.setDebug e on

theorem ClOp.sound {e : Env} {c : Ctx} (h : Sound c) (op : ClOp) : Sound (op.run e c) := by
  cases op with
  | addCode s o => exact h.addCode e s o
  | addCodeDefault s => exact h.addCode e s _
  | addFile p o t => exact h.addFile e p o t
  | compileProgram i => exact h.compileProgram e i
  | enableKernel n i => exact h.enableKernel e n i
  | selectNode i b => exact h.selectNode e i b
  | selectId id => exact h.selectAt e _
  | selectStr id => exact h.selectAt e _
  | setRemapKernel k => exact h.setRemapKernel k
  | assign k i a v => exact h.assign k i a v
  | assignSlotSize n => exact h.assignSlotSize n
  | assignStatusFlags b => exact h.assignStatusFlags b
  | setFlag n v => exact h.setFlag n v
  | setKernelDir p =>
    unfold ClOp.run Ctx.setKernelDir
    simp only
    split_ifs
    · exact h.other _ _ _ _
    · exact h
  | setIncDir p =>
    unfold ClOp.run Ctx.setIncDir
    simp only
    split_ifs
    · exact h.other _ _ _ _
    · exact h
  | setOptions o => exact h.other _ _ _ _
  | clear => exact Sound.clear c e
  | reinit => exact h.reinit e
  | setDebug on => exact h.setDebug e on

/-- **C90 (registry)**: whatever is called on a new context, its programs and kernels agree: each kernel belongs to a
compiled program, a program lists exactly its kernels, no program has two kernels of the same name, a kernel has a record
for each of its arguments, there are no kernels without a node, and with a node there is an OpenCL program for each
program. -/
theorem C90_sound (e : Env) (nodes : List NodeId) (ops : List ClOp) :
    Sound (ops.foldl (fun c op => op.run e c) (make e nodes)) ∧
      ∀ i b, Sound (ops.foldl (fun c op => op.run e c) (makeOn e nodes i b)) := by
  have key : ∀ (ops : List ClOp) (c : Ctx), Sound c → Sound (ops.foldl (fun c op => op.run e c) c) := by
    intro ops
    induction ops with
    | nil => exact fun c h => h
    | cons op ops ih => exact fun c h => ih _ (ClOp.sound h op)
  exact ⟨key ops _ (Sound.make e nodes), fun i b => key ops _ (Sound.makeOn e nodes i b)⟩

/-! ## Programs -/

/-- **C90 (adding a program)**: the id of a new program is the number of programs before, under which its source and its
options are found, without kernels; the other programs and the kernels stay.  With a node, it is compiled at once if it
has options and can be built. -/
theorem C90_add_code (e : Env) (c : Ctx) (s o : String) (hs : s ≠ "") :
    (c.addCode e s o).1 = c.programs.length ∧
      (c.addCode e s o).2.kernels = c.kernels ∧
      ∃ p, (c.addCode e s o).2.programs = c.programs ++ [p] ∧ p.source = s ∧ p.options = o ∧ p.kernels = [] ∧
        p.path = "" ∧
        (p.compiled = true ↔ c.hasNode = true ∧ o ≠ "" ∧ e.builds c.selected.toNat s o = true) := by
  unfold Ctx.addCode
  rw [if_pos hs]
  simp only
  by_cases hn : c.hasNode = true
  · rw [if_pos hn]
    refine ⟨rfl, rfl, _, rfl, ?_⟩
    obtain ⟨k1, k2, k3, k4, -⟩ := compile_keeps e c.selected.toNat ⟨"", s, o, [], false⟩
    refine ⟨k1, k3, k4, k2, ?_⟩
    unfold compile
    by_cases ho : o ≠ "" <;> simp [hn, ho]
  · rw [if_neg hn]
    exact ⟨rfl, rfl, _, rfl, rfl, rfl, rfl, rfl, by simp [hn]⟩

/-- **C90 (no source)**: an empty source is refused. -/
theorem C90_add_nothing (e : Env) (c : Ctx) (o : String) : c.addCode e "" o = (ILLEGAL, c) := by
  unfold Ctx.addCode; simp

/-- **C90 (adding a file)**: a file is added as a program with its content, the asked options or, if there are none, those
of the context, and its path; one that cannot be opened or is empty is refused. -/
theorem C90_add_file (e : Env) (c : Ctx) (path o : String) (t : Nat) :
    (∀ s, c.fullPath path t ≠ "" → e.file (c.fullPath path t) = some s → s ≠ "" →
      (c.addFile e path o t).1 = c.programs.length ∧
      ∃ p, (c.addFile e path o t).2.programs = c.programs ++ [p] ∧ p.source = s ∧ p.kernels = [] ∧
        p.options = (if o = "" then c.options else o) ∧ p.path = c.fullPath path t) ∧
    ((c.fullPath path t = "" ∨ e.file (c.fullPath path t) = none ∨ e.file (c.fullPath path t) = some "") →
      c.addFile e path o t = (ILLEGAL, c)) := by
  constructor
  · intro s h1 h2 h3
    unfold Ctx.addFile
    simp only
    rw [if_pos h1, h2]
    simp only
    rw [if_pos h3]
    obtain ⟨k1, -, p, k2, k3, k4, k5, -⟩ := C90_add_code e c s (if o ≠ "" then o else c.options) h3
    refine ⟨k1, { p with path := c.fullPath path t }, ?_, k3, k5, ?_, rfl⟩
    · unfold Ctx.setPath
      simp only
      rw [k1, k2]
      apply List.ext_getElem?
      intro j
      rw [List.getElem?_modify]
      rcases Nat.lt_trichotomy j c.programs.length with hj | hj | hj
      · rw [List.getElem?_append_left hj, List.getElem?_append_left hj]
        have : c.programs.length ≠ j := by omega
        simp [this]
      · subst hj
        simp
      · rw [List.getElem?_eq_none (by simp; omega), List.getElem?_eq_none (by simp; omega)]
        rfl
    · rw [k4]
      by_cases ho : o = "" <;> simp [ho]
  · intro h
    unfold Ctx.addFile
    simp only
    by_cases h1 : c.fullPath path t = ""
    · rw [if_neg (by simp [h1])]
    · rw [if_pos h1]
      rcases h with h | h | h
      · exact absurd h h1
      · rw [h]
      · rw [h]
        simp

/-- **C90 (defaults)**: a program added without options gets those of the context, which are the ones set last; the
directory of the kernels is the one set last, and setting it changes nothing else. -/
theorem C90_defaults (e : Env) (c : Ctx) (s o d : String) :
    (s ≠ "" → ∃ p, (c.addCodeDefault e s).2.programs = c.programs ++ [p] ∧ p.source = s ∧ p.options = c.options) ∧
      (s ≠ "" → ∃ p, ((c.setOptions o).addCodeDefault e s).2.programs = c.programs ++ [p] ∧ p.options = o) ∧
      { c.setOptions o with options := c.options } = c ∧
      (d ≠ "" → s ≠ "" → (c.setKernelDir d).fullPath s 0 = d ++ s) ∧
      { c.setKernelDir d with kernelDir := c.kernelDir } = c ∧ c.setKernelDir "" = c := by
  refine ⟨fun hs => ?_, fun hs => ?_, rfl, fun hd hs => ?_, ?_, ?_⟩
  · obtain ⟨-, -, p, h1, h2, h3, -⟩ := C90_add_code e c s c.options hs
    exact ⟨p, h1, h2, h3⟩
  · obtain ⟨-, -, p, h1, h2, h3, -⟩ := C90_add_code e (c.setOptions o) s o hs
    exact ⟨p, h1, h3⟩
  · simp [Ctx.fullPath, Ctx.setKernelDir, hd, hs]
  · unfold Ctx.setKernelDir; split <;> rfl
  · simp [Ctx.setKernelDir]

example (e : Env) : ∃ p, (((make e []).setOptions "-O3").addCodeDefault e "x").2.programs = (make e []).programs ++ [p] ∧
    p.options = "-O3" := (C90_defaults e (make e []) "x" "-O3" "").2.1 (by decide)

/-- **C90 (program of a kernel)**: with a node, the program of a kernel is the one it was enabled in; there is none for an
id which is not that of a kernel. -/
theorem C90_kernel_program {c : Ctx} (hs : Sound c) (k : Nat) :
    (∀ x, c.kernels[k]? = some x → c.hasNode = true → c.kernelProgram k = x.prog ∧
      ∃ p, c.programs[c.kernelProgram k]? = some p) ∧
    (c.kernels[k]? = none → c.kernelProgram k = ILLEGAL) := by
  unfold Ctx.kernelProgram
  refine ⟨fun x hx hn => ?_, fun h => ?_⟩
  · rw [if_pos hn, hx]
    obtain ⟨p, hp, -⟩ := hs.owner x (List.mem_of_getElem? hx)
    exact ⟨rfl, p, hp⟩
  · rw [h]; simp

/-- **C90 (paths)**: an absolute path is taken as it is, a relative one begins at the directory of the kernels. -/
theorem C90_path (c : Ctx) (path : String) (t : Nat) :
    (path ≠ "" → c.fullPath path 1 = path ∧ c.fullPath path 0 = c.kernelDir ++ path) ∧
      c.fullPath "" t = "" ∧ (t ≠ 0 → t ≠ 1 → c.fullPath path t = "") := by
  unfold Ctx.fullPath
  refine ⟨fun h => by simp [h], by simp, fun h h' => by simp [h, h']⟩

/-- **C90 (compiling)**: a program is compiled if a node is selected, it has not been compiled, it has options and it can
be built; a program which is compiled stays as it is, and the call fails. -/
theorem C90_compile {c : Ctx} (hs : Sound c) (e : Env) (i : Nat) (p : Program) (hp : c.programs[i]? = some p) :
    ((c.compileProgram e i).1 = true ↔
      c.hasNode = true ∧ p.compiled = false ∧ p.options ≠ "" ∧ e.builds c.selected.toNat p.source p.options = true) ∧
    ∃ p', (c.compileProgram e i).2 = { c with programs := c.programs.set i p' } ∧
      (p'.compiled = true ↔ p.compiled = true ∨ (c.compileProgram e i).1 = true) ∧
      p' = { p with compiled := p'.compiled } := by
  have hk : p.compiled = false → p.kernels = [] := by
    intro hc
    rw [hs.lists i p hp, List.eq_nil_iff_forall_not_mem]
    intro a ha
    obtain ⟨k, h1, h2⟩ := mem_kernelsOf.1 ha
    obtain ⟨q, hq, hqc⟩ := hs.owner k (List.mem_of_getElem? h1)
    rw [h2, hp, Option.some.injEq] at hq
    subst hq
    rw [hc] at hqc
    cases hqc
  have hset : c.programs.set i p = c.programs := by
    obtain ⟨h1, h2⟩ := List.getElem?_eq_some_iff.1 hp
    rw [← h2]
    exact List.set_getElem_self h1
  unfold Ctx.compileProgram
  rw [hp]
  simp only
  by_cases hn : c.hasNode = true
  · have hl : c.clPrograms.length = c.programs.length := by rw [hs.sources hn]; simp
    rw [if_pos ⟨hn, hl⟩]
    unfold compile
    by_cases hc : p.compiled = false
    · have := hk hc
      by_cases ho : p.options = ""
      · rw [if_neg (by simp [ho])]
        exact ⟨by simp [ho], p, rfl, by simp [hc], rfl⟩
      · rw [if_pos ⟨hc, hk hc, ho⟩]
        exact ⟨by simp [hn, hc, ho], _, rfl, by simp [hc], rfl⟩
    · rw [if_neg (fun h => hc h.1)]
      exact ⟨by simp [hc], p, rfl, by simp [hc], rfl⟩
  · rw [if_neg (fun h => hn h.1)]
    refine ⟨by simp [hn], p, ?_, by simp, rfl⟩
    rw [hset]

/-! ## Kernels -/

/-- A kernel can be enabled: a node is selected, the program is compiled or can be compiled now, and it has no kernel of
this name. -/
def CanEnable (e : Env) (c : Ctx) (name : String) (i : Nat) : Prop :=
  c.hasNode = true ∧ name ≠ "" ∧
    ∃ p, c.programs[i]? = some p ∧
      (p.compiled = true ∨ (p.options ≠ "" ∧ e.builds c.selected.toNat p.source p.options = true)) ∧
      ∀ k ∈ c.kernels, k.prog = i → k.name ≠ name

/-- **C90 (enabling a kernel)**: a kernel that can be enabled gets the number of kernels before as its id; under it are
found its name, its program and what OpenCL says about it, with no argument set; the kernels before stay as they are. -/
theorem C90_enable {c : Ctx} (hs : Sound c) (e : Env) (name : String) (i : Nat) (h : CanEnable e c name i) :
    (c.enableKernel e name i).1 = c.kernels.length ∧
      ∃ k p, c.programs[i]? = some p ∧ (c.enableKernel e name i).2.kernels = c.kernels ++ [k] ∧
        k.name = name ∧ k.prog = i ∧ k.group = 0 ∧
        (⟨k.numArgs, k.maxGroup, k.preferred, k.localMem⟩ : KernelInfo) = e.kernel c.selected.toNat p.source name ∧
        k.args = List.replicate k.numArgs ⟨.none, none⟩ ∧ k.cl = List.replicate k.numArgs none := by
  obtain ⟨hn, hne, p, hp, hc, hf⟩ := h
  have hi : i < c.programs.length := (List.getElem?_eq_some_iff.1 hp).1
  have hl : c.clPrograms.length = c.programs.length := by rw [hs.sources hn]; simp
  unfold Ctx.enableKernel
  rw [if_pos ⟨hn, hne, by omega⟩, hp]
  simp only
  by_cases hpc : p.compiled = true
  · rw [if_pos hpc, if_neg]
    · exact ⟨rfl, _, p, rfl, rfl, rfl, rfl, rfl, rfl, rfl, rfl⟩
    · rw [nameTaken_iff hs hp hne]
      rintro ⟨k, h1, h2, h3⟩
      exact hf k h1 h3 h2
  · rw [if_neg hpc]
    rcases hc with hc | hc
    · exact absurd hc hpc
    · have hok := (C90_compile hs e i p hp).1.2 ⟨hn, by simpa using hpc, hc⟩
      obtain ⟨q, hq, -, -, -, -, -, -, he⟩ := compileProgram_ok hok
      rw [hp, Option.some.injEq] at hq
      subst hq
      have hg : (c.compileProgram e i).2.programs[i]? = some { p with compiled := true } := by
        rw [he]
        simp [hi]
      simp only [hg]
      rw [if_pos hok, he]
      exact ⟨rfl, _, p, rfl, rfl, rfl, rfl, rfl, rfl, rfl, rfl⟩

/-- **C90 (refused kernels)**: a kernel that cannot be enabled gives the illegal id, and no kernel is added. -/
theorem C90_enable_refused {c : Ctx} (hs : Sound c) (e : Env) (name : String) (i : Nat)
    (h : ¬ CanEnable e c name i) :
    (c.enableKernel e name i).1 = ILLEGAL ∧ (c.enableKernel e name i).2.kernels = c.kernels := by
  rcases enableKernel_cases hs e name i with ⟨h1, h2 | h2⟩ | ⟨c', p, h1, h2, h3, h4, h5, h6, h7⟩
  · exact ⟨h1, by rw [h2]⟩
  · exact ⟨h1, by rw [h2, compileProgram_members]⟩
  · refine absurd ?_ h
    rcases h1 with rfl | ⟨rfl, hok⟩
    · exact ⟨h2, h3, p, h4, .inl h5, fun k hk h8 h9 => h6 k hk h9 h8⟩
    · obtain ⟨q, hq, hqc, -, ho, hb, -, -, he⟩ := compileProgram_ok hok
      rw [he] at h6
      exact ⟨h2, h3, q, hq, .inr ⟨ho, hb⟩, fun k hk h8 h9 => h6 k hk h9 h8⟩

/-- **C90 (finding a kernel)**: the id found for a name is the first kernel of this name, and the illegal id if there is
none. -/
theorem C90_find_kernel {c : Ctx} (hs : Sound c) (name : String) :
    (∀ k x, c.kernels[k]? = some x → x.name = name → (∀ (l : Nat) (y : Kernel), l < k → c.kernels[l]? = some y →
      y.name ≠ name) → c.findKernel name = k) ∧
    ((∀ k ∈ c.kernels, k.name ≠ name) → c.findKernel name = ILLEGAL) := by
  have loop : ∀ (ks : List Kernel) (n : Nat), (∀ k ∈ ks, k.prog < c.programs.length) →
      (∀ (k : Nat) (x : Kernel), ks[k]? = some x → x.name = name → (∀ (l : Nat) (y : Kernel), l < k →
        ks[l]? = some y → y.name ≠ name) → findKernelLoop name c.programs.length n ks = n + k) ∧
      ((∀ k ∈ ks, k.name ≠ name) → findKernelLoop name c.programs.length n ks = ILLEGAL) := by
    intro ks
    induction ks with
    | nil =>
      intro n _
      exact ⟨fun k x hx => by simp at hx, fun _ => rfl⟩
    | cons a ks ih =>
      intro n hb
      obtain ⟨i1, i2⟩ := ih (n + 1) fun k hk => hb k (List.mem_cons_of_mem _ hk)
      have ha := hb a List.mem_cons_self
      unfold findKernelLoop
      constructor
      · intro k x hx hxn hfirst
        cases k with
        | zero =>
          simp at hx
          rw [if_pos ⟨ha, by rw [hx]; exact hxn⟩]
          rfl
        | succ k =>
          rw [if_neg (fun h => hfirst 0 a (by omega) rfl h.2)]
          rw [i1 k x (by simpa using hx) hxn fun l y hl hy => hfirst (l + 1) y (by omega) (by simpa using hy)]
          omega
      · intro hnone
        rw [if_neg (fun h => hnone a List.mem_cons_self h.2)]
        exact i2 fun k hk => hnone k (List.mem_cons_of_mem _ hk)
  obtain ⟨l1, l2⟩ := loop c.kernels 0 fun k hk => hs.kernel_prog hk
  unfold Ctx.findKernel
  constructor
  · intro k x hx hxn hf
    rw [if_pos (by rw [← hxn]; exact hs.named x (List.mem_of_getElem? hx)), l1 k x hx hxn hf]
    omega
  · intro h
    split_ifs
    · exact l2 h
    · rfl

/-! ## Ids keep their meaning -/

/-- the programs and kernels of `c` are found in `c'` under the same ids -/
def IdsKept (c c' : Ctx) : Prop :=
  (∀ (i : Nat) (p : Program), c.programs[i]? = some p → ∃ p', c'.programs[i]? = some p' ∧ p'.source = p.source ∧
    p'.options = p.options ∧ p'.path = p.path) ∧
  ∀ (k : Nat) (x : Kernel), c.kernels[k]? = some x → ∃ y, c'.kernels[k]? = some y ∧ y.name = x.name ∧
    y.prog = x.prog ∧ y.numArgs = x.numArgs

theorem IdsKept.refl (c : Ctx) : IdsKept c c :=
  ⟨fun _ p h => ⟨p, h, rfl, rfl, rfl⟩, fun _ x h => ⟨x, h, rfl, rfl, rfl⟩⟩

theorem IdsKept.trans {a b c : Ctx} (h : IdsKept a b) (h' : IdsKept b c) : IdsKept a c := by
  refine ⟨fun i p hp => ?_, fun k x hx => ?_⟩
  · obtain ⟨q, hq, a1, a2, a3⟩ := h.1 i p hp
    obtain ⟨r, hr, b1, b2, b3⟩ := h'.1 i q hq
    exact ⟨r, hr, b1.trans a1, b2.trans a2, b3.trans a3⟩
  · obtain ⟨q, hq, a1, a2, a3⟩ := h.2 k x hx
    obtain ⟨r, hr, b1, b2, b3⟩ := h'.2 k q hq
    exact ⟨r, hr, b1.trans a1, b2.trans a2, b3.trans a3⟩

theorem IdsKept.addCode (c : Ctx) (e : Env) (s o : String) : IdsKept c (c.addCode e s o).2 := by
  by_cases hs : s = ""
  · rw [hs, C90_add_nothing]
    exact .refl c
  · obtain ⟨-, h2, p, h3, -⟩ := C90_add_code e c s o hs
    refine ⟨fun i q hq => ⟨q, ?_, rfl, rfl, rfl⟩, fun k x hx => ⟨x, ?_, rfl, rfl, rfl⟩⟩
    · rw [h3, List.getElem?_append_left (List.getElem?_eq_some_iff.1 hq).1]
      exact hq
    · rw [h2]
      exact hx

theorem IdsKept.addFile (c : Ctx) (e : Env) (path o : String) (t : Nat) : IdsKept c (c.addFile e path o t).2 := by
  obtain ⟨h1, h2⟩ := C90_add_file e c path o t
  by_cases ha : c.fullPath path t = ""
  · rw [h2 (.inl ha)]
    exact .refl c
  · cases hb : e.file (c.fullPath path t) with
    | none =>
      rw [h2 (.inr (.inl hb))]
      exact .refl c
    | some s =>
      by_cases hc : s = ""
      · rw [h2 (.inr (.inr (by rw [hb, hc])))]
        exact .refl c
      · obtain ⟨-, p, h4, -⟩ := h1 s ha hb hc
        refine ⟨fun i q hq => ⟨q, ?_, rfl, rfl, rfl⟩, fun k x hx => ⟨x, ?_, rfl, rfl, rfl⟩⟩
        · rw [h4, List.getElem?_append_left (List.getElem?_eq_some_iff.1 hq).1]
          exact hq
        · rw [addFile_members]
          exact hx

theorem IdsKept.compileProgram (c : Ctx) (e : Env) (i : Nat) : IdsKept c (c.compileProgram e i).2 := by
  refine ⟨fun j p hp => ?_, fun k x hx => ⟨x, ?_, rfl, rfl, rfl⟩⟩
  · unfold Ctx.compileProgram
    split
    · rename_i q hq
      split_ifs
      · simp only
        rw [List.getElem?_set]
        split_ifs with h1 h2
        · subst h1
          rw [hp, Option.some.injEq] at hq
          subst hq
          obtain ⟨k1, k2, k3, -, -⟩ := compile_keeps e c.selected.toNat p
          exact ⟨_, rfl, k1, k3, k2⟩
        · subst h1
          exact absurd (List.getElem?_eq_some_iff.1 hp).1 h2
        · exact ⟨p, hp, rfl, rfl, rfl⟩
      · exact ⟨p, hp, rfl, rfl, rfl⟩
    · exact ⟨p, hp, rfl, rfl, rfl⟩
  · rw [compileProgram_members]
    exact hx

theorem IdsKept.addKernel (c : Ctx) (e : Env) (name : String) (i : Nat) (p : Program)
    (hp : c.programs[i]? = some p) : IdsKept c (c.addKernel e name i p).2 := by
  unfold Ctx.addKernel
  refine ⟨fun j q hq => ?_, fun k x hx => ⟨x, ?_, rfl, rfl, rfl⟩⟩
  · simp only
    rw [List.getElem?_set]
    split_ifs with h1 h2
    · subst h1
      rw [hp, Option.some.injEq] at hq
      subst hq
      exact ⟨_, rfl, rfl, rfl, rfl⟩
    · subst h1
      exact absurd (List.getElem?_eq_some_iff.1 hp).1 h2
    · exact ⟨q, hq, rfl, rfl, rfl⟩
  · simp only
    rw [List.getElem?_append_left (List.getElem?_eq_some_iff.1 hx).1]
    exact hx

theorem IdsKept.enableKernel {c : Ctx} (hs : Sound c) (e : Env) (name : String) (i : Nat) :
    IdsKept c (c.enableKernel e name i).2 := by
  rcases enableKernel_cases hs e name i with ⟨-, h2 | h2⟩ | ⟨c', p, h1, -, -, h4, -, -, h7⟩
  · rw [h2]
    exact .refl c
  · rw [h2]
    exact .compileProgram c e i
  · rw [h7]
    rcases h1 with rfl | ⟨rfl, -⟩
    · exact .addKernel _ e name i p h4
    · exact (IdsKept.compileProgram c e i).trans (.addKernel _ e name i p h4)

theorem IdsKept.setRemapKernel (c : Ctx) (k : Nat) : IdsKept c (c.setRemapKernel k).2 := by
  unfold Ctx.setRemapKernel
  split
  · split_ifs
    · exact ⟨fun i p h => ⟨p, h, rfl, rfl, rfl⟩, fun k x h => ⟨x, h, rfl, rfl, rfl⟩⟩
    · exact .refl c
  · exact .refl c

theorem IdsKept.assign (c : Ctx) (k i : Nat) (a : Arg) (v : ClVal) : IdsKept c (c.assign k i a v) := by
  refine ⟨fun i p h => ⟨p, h, rfl, rfl, rfl⟩, fun l x h => ?_⟩
  unfold Ctx.assign
  simp only
  rw [List.getElem?_modify, h]
  refine ⟨_, rfl, ?_⟩
  split_ifs
  · obtain ⟨h1, h2, h3, -⟩ := Kernel.setArg_keeps x i a v
    exact ⟨h1, h2, h3⟩
  · exact ⟨rfl, rfl, rfl⟩

theorem IdsKept.assignSlotSize (c : Ctx) (n : Nat) : IdsKept c (c.assignSlotSize n).2 := by
  unfold Ctx.assignSlotSize
  split_ifs <;> first | exact .refl c | exact .assign c _ _ _ _

theorem IdsKept.assignStatusFlags (c : Ctx) (b : Nat) : IdsKept c (c.assignStatusFlags b).2 := by
  unfold Ctx.assignStatusFlags
  split_ifs <;> first | exact .refl c | exact .assign c _ _ _ _

theorem IdsKept.initKernels {c : Ctx} (hs : Sound c) (e : Env) : IdsKept c (c.initKernels e).2 := by
  unfold Ctx.initKernels
  split_ifs
  · exact (IdsKept.enableKernel hs e _ _).trans (.setRemapKernel _ _)
  · exact .refl c

theorem IdsKept.selectBase {c : Ctx} (hs : Sound c) (e : Env) (i : Nat) : IdsKept c (c.selectBase e i).2 := by
  unfold Ctx.selectBase
  split_ifs with hc
  · refine ⟨fun j p hp => ?_, fun k x hx => ?_⟩
    · simp only
      rw [List.getElem?_map, hp]
      obtain ⟨k1, k2, k3, -, -⟩ := compile_keeps e i p.fresh
      exact ⟨_, rfl, k1, k3, k2⟩
    · rw [(hs.unselected hc.1).1] at hx
      cases hx
  · exact .refl c

/-- whether a call may clear the context -/
def ClOp.clears : ClOp → Bool
  | clear => true
  | reinit => true
  | setDebug _ => true
  | _ => false

/-- **C90 (ids are stable)**: the id of a program or a kernel keeps its meaning as long as the context is not cleared,
whatever is called, also when a node is selected. -/
theorem C90_stable {e : Env} {c : Ctx} (hs : Sound c) (ops : List ClOp) (h : ∀ op ∈ ops, op.clears = false) :
    IdsKept c (ops.foldl (fun c op => op.run e c) c) := by
  induction ops generalizing c with
  | nil => exact .refl c
  | cons op ops ih =>
    refine IdsKept.trans ?_ (ih (ClOp.sound (e := e) hs op) fun o ho => h o (List.mem_cons_of_mem _ ho))
    have hop := h op List.mem_cons_self
    cases op with
    | addCode s o => exact .addCode c e s o
    | addCodeDefault s => exact .addCode c e s _
    | addFile p o t => exact .addFile c e p o t
    | compileProgram i => exact .compileProgram c e i
    | enableKernel n i => exact .enableKernel hs e n i
    | selectNode i b =>
      unfold ClOp.run Ctx.selectNode Ctx.ready
      simp only
      have h1 := IdsKept.selectBase hs e i
      have h2 := h1.trans (IdsKept.initKernels (hs.selectBase e i) e)
      split_ifs
      · exact (h2.trans (.assignSlotSize _ _)).trans (.assignStatusFlags _ _)
      · exact h2.trans (.assignSlotSize _ _)
      · exact h2
      · exact h1
    | selectId id =>
      unfold ClOp.run Ctx.selectId Ctx.selectAt
      simp only
      have h1 := IdsKept.selectBase hs e (c.findNode id)
      split_ifs
      · exact h1.trans (IdsKept.initKernels (hs.selectBase e _) e)
      · exact h1
    | selectStr id =>
      unfold ClOp.run Ctx.selectStr Ctx.selectAt
      simp only
      have h1 := IdsKept.selectBase hs e (c.findNodeStr id)
      split_ifs
      · exact h1.trans (IdsKept.initKernels (hs.selectBase e _) e)
      · exact h1
    | setRemapKernel k => exact .setRemapKernel c k
    | assign k i a v => exact .assign c k i a v
    | assignSlotSize n => exact .assignSlotSize c n
    | assignStatusFlags b => exact .assignStatusFlags c b
    | setFlag n v =>
      unfold ClOp.run Ctx.setFlag
      simp only
      split_ifs <;> exact .refl c
    | setKernelDir p =>
      unfold ClOp.run Ctx.setKernelDir
      simp only
      split_ifs <;> exact .refl c
    | setIncDir p =>
      unfold ClOp.run Ctx.setIncDir
      simp only
      split_ifs <;> exact .refl c
    | setOptions o => exact .refl c
    | clear => cases hop
    | reinit => cases hop
    | setDebug on => cases hop

/-! ## Nodes -/

theorem findLoop_spec (id : NodeId) (l : List NodeId) (n : Nat) :
    (∀ k, l[k]? = some id → id ∉ l.take k → findLoop id n l = n + k) ∧
      (id ∉ l → findLoop id n l = n + l.length) := by
  induction l generalizing n with
  | nil => exact ⟨fun k h => by simp at h, fun _ => rfl⟩
  | cons a l ih =>
    obtain ⟨i1, i2⟩ := ih (n + 1)
    have key : (id.platform = a.platform ∧ id.device = a.device) ↔ id = a := by
      cases id
      cases a
      simp
    unfold findLoop
    constructor
    · intro k hk hf
      cases k with
      | zero =>
        simp at hk
        rw [if_pos (key.2 hk.symm)]
        rfl
      | succ k =>
        simp at hf
        rw [if_neg (fun h => hf.1 (key.1 h)), i1 k (by simpa using hk) hf.2]
        omega
    · intro hn
      simp at hn
      rw [if_neg (fun h => hn.1 (key.1 h)), i2 hn.2, List.length_cons]
      omega

/-- **C90 (finding a node)**: the index found for a platform and a device is the first node with this id; it is the number
of nodes if there is none, and if a number is negative. -/
theorem C90_find_node (c : Ctx) (id : NodeId) :
    (0 ≤ id.platform → 0 ≤ id.device → ∀ k, c.nodes[k]? = some id → id ∉ c.nodes.take k → c.findNode id = k) ∧
      (id ∉ c.nodes → c.findNode id = c.nodes.length) ∧
      (id.platform < 0 ∨ id.device < 0 → c.findNode id = c.nodes.length) ∧
      c.findNodeStr (some id) = c.findNode id ∧ c.findNodeStr none = c.nodes.length := by
  obtain ⟨h1, h2⟩ := findLoop_spec id c.nodes 0
  unfold Ctx.findNode
  refine ⟨fun a b k hk hf => ?_, fun hn => ?_, fun h => ?_, rfl, rfl⟩
  · rw [if_pos ⟨a, b⟩, h1 k hk hf]
    omega
  · split_ifs
    · rw [h2 hn]
      omega
    · rfl
  · rw [if_neg (by omega)]

/-- **C90 (available nodes)**: a node is available if it is one of the nodes and its numbers are not negative. -/
theorem C90_available (c : Ctx) (id : NodeId) :
    c.available id = true ↔ id ∈ c.nodes ∧ 0 ≤ id.platform ∧ 0 ≤ id.device := by
  obtain ⟨h1, h2, h3, -⟩ := C90_find_node c id
  unfold Ctx.available
  rw [decide_eq_true_eq]
  constructor
  · intro h
    refine ⟨?_, ?_, ?_⟩
    · by_contra hn
      rw [h2 hn] at h
      omega
    · by_contra hn
      rw [h3 (.inl (by omega))] at h
      omega
    · by_contra hn
      rw [h3 (.inr (by omega))] at h
      omega
  · rintro ⟨hm, ha, hb⟩
    have hlt := List.idxOf_lt_length_iff.2 hm
    rw [h1 ha hb (c.nodes.idxOf id) (by rw [List.getElem?_eq_getElem hlt, List.getElem_idxOf]) ?_]
    · exact hlt
    · intro hc
      obtain ⟨j, hj, hje⟩ := List.mem_take_iff_getElem.1 hc
      have h5 : j < c.nodes.idxOf id := by omega
      have h6 := List.not_of_lt_findIdx (p := (· == id)) h5
      simp [hje] at h6

/-- **C90 (id of the selected node)**: it is that of the node selected; there is none if no node is selected. -/
theorem C90_selected_id (c : Ctx) :
    (c.hasNode = true → c.selectedId = c.nodes[c.selected.toNat]?) ∧
      (c.hasNode = false → c.nodes.length < 2^64 → c.selectedId = none) := by
  unfold Ctx.selectedId Ctx.nodeAt
  refine ⟨fun h => ?_, fun h hl => ?_⟩
  · obtain ⟨h1, h2⟩ := hasNode_iff.mp h
    rw [if_pos h1, if_pos h2]
  · have h' : ¬(0 ≤ c.selected ∧ c.selected.toNat < c.nodes.length) := fun g => by
      rw [hasNode_iff.mpr g] at h; cases h
    by_cases h1 : 0 ≤ c.selected
    · rw [if_pos h1, if_neg (fun g => h' ⟨h1, g⟩)]
    · rw [if_neg h1, if_neg (by omega)]

example : (⟨0, 1⟩ : NodeId).valid = true := by decide

/-- **C90 (valid ids)**: an id is valid iff neither of its numbers is -1. -/
theorem C90_valid_id (id : NodeId) : id.valid = true ↔ id.platform ≠ -1 ∧ id.device ≠ -1 := by
  unfold NodeId.valid; simp

/-- **C90 (default node)**: the default node is the first; without nodes no id is that of the default node. -/
theorem C90_default (c : Ctx) (id : NodeId) (hv : ∀ n ∈ c.nodes, n.valid = true) :
    (c.isDefault id = true ↔ c.nodes.head? = some id) ∧
      ∀ i, c.isDefaultIndex i = true ↔ ∃ n, c.nodes[i]? = some n ∧ c.nodes.head? = some n := by
  have key : ∀ id, id.same c.defaultNode = true ↔ c.nodes.head? = some id := by
    intro id
    unfold NodeId.same Ctx.defaultNode
    cases hn : c.nodes with
    | nil =>
      have : NodeId.unset.valid = false := rfl
      simp [this]
    | cons a l =>
      have ha := hv a (by rw [hn]; exact List.mem_cons_self)
      simp only [List.headD_cons, Bool.and_eq_true, List.head?_cons, Option.some.injEq]
      constructor
      · exact fun h => (of_decide_eq_true h.2).symm
      · rintro rfl
        exact ⟨⟨ha, ha⟩, decide_eq_true rfl⟩
  refine ⟨key id, fun i => ?_⟩
  unfold Ctx.isDefaultIndex Ctx.nodeAt
  by_cases hi : i < c.nodes.length
  · rw [if_pos hi, List.getElem?_eq_getElem hi]
    simp only
    rw [key]
    simp
  · rw [if_neg hi, List.getElem?_eq_none (by omega)]
    simp

/-! ## Selecting a node -/

/-- what it takes to select a node and compile the programs for it -/
def CanSelect (e : Env) (c : Ctx) (i : Nat) : Prop :=
  c.hasNode = false ∧ i < c.nodes.length ∧ e.writes i = true ∧
    ∀ p ∈ c.programs, p.options ≠ "" ∧ e.builds i p.source p.options = true

/-- the arguments of the kernel that remaps buffers, for a node -/
def remapArgs (e : Env) (c : Ctx) (i : Nat) (p : Program) : Nat := (e.kernel i p.source c.remapName).numArgs

theorem compile_fresh (e : Env) (i : Nat) (p : Program) :
    ((compile e i p.fresh).1 = true ↔ p.options ≠ "" ∧ e.builds i p.source p.options = true) ∧
      ((compile e i p.fresh).2.compiled = true ↔ p.options ≠ "" ∧ e.builds i p.source p.options = true) := by
  unfold compile Program.fresh
  by_cases h : p.options = "" <;> simp [h]

theorem selectBase_ok {e : Env} {c : Ctx} {i : Nat} : (c.selectBase e i).1 = true ↔ CanSelect e c i := by
  unfold Ctx.selectBase CanSelect
  by_cases h : c.hasNode = false ∧ i < c.nodes.length ∧ e.writes i = true
  · rw [if_pos h]
    simp only [List.all_eq_true, compile_fresh]
    exact ⟨fun g => ⟨h.1, h.2.1, h.2.2, g⟩, fun g => g.2.2.2⟩
  · rw [if_neg h]
    simp only [Bool.false_eq_true, false_iff]
    tauto

/-- a context after a selection that has succeeded -/
structure Selected (e : Env) (c : Ctx) (i : Nat) (c' : Ctx) : Prop where
  node : c'.hasNode = true ∧ c'.nodeIndex = i ∧ c'.selectedId = c.nodes[i]?
  compiled : ∀ p ∈ c'.programs, p.compiled = true
  same : c'.programs.map (fun p => (p.source, p.options, p.path)) =
    c.programs.map (fun p => (p.source, p.options, p.path))
  /-- there is one kernel, which remaps buffers -/
  remap : ∃ p k, c.programs[c.remapProgram]? = some p ∧ c'.kernels = [k] ∧ c'.remapKernelId = 0 ∧
    k.name = c.remapName ∧ k.prog = c.remapProgram ∧ k.numArgs = remapArgs e c i p

theorem selectBase_eq {e : Env} {c : Ctx} {i : Nat} (h : CanSelect e c i) :
    (c.selectBase e i).2 = { c with
      kernels := []
      selected := i
      clPrograms := c.programs.map (·.source)
      programs := c.programs.map fun p => { p with kernels := [], compiled := true } } := by
  unfold Ctx.selectBase
  rw [if_pos ⟨h.1, h.2.1, h.2.2.1⟩]
  simp only
  congr 1
  refine List.map_congr_left fun p hp => ?_
  have h1 := (compile_fresh e i p).2.2 (h.2.2.2 p hp)
  obtain ⟨k1, k2, k3, k4, -⟩ := compile_keeps e i p.fresh
  cases hq : (compile e i p.fresh).2
  rw [hq] at h1 k1 k2 k3 k4
  simp only at h1 k1 k2 k3 k4
  rw [h1, k1, k2, k3, k4]
  rfl

/-- the kernel for remapping after `initKernels`, just after a selection -/
theorem initKernels_selected {e : Env} {c : Ctx} {i : Nat} (h : CanSelect e c i) :
    (∀ p, c.programs[c.remapProgram]? = some p →
      ∃ c', ((c.selectBase e i).2.initKernels e) = (true, c') ∧
        c' = { (c.selectBase e i).2 with
          kernels := [newKernel (e.kernel i p.source c.remapName) c.remapName c.remapProgram]
          programs := (c.selectBase e i).2.programs.set c.remapProgram { p with kernels := [0], compiled := true }
          remapKernel := 0 }) ∧
    (c.programs[c.remapProgram]? = none → ((c.selectBase e i).2.initKernels e).1 = false) := by
  rw [selectBase_eq h]
  have hn : ∀ ks ps, (Ctx.mk c.nodes i c.debug c.kernelDir c.incDir c.options c.flags ps
      (c.programs.map (·.source)) ks c.remapProgram c.remapKernel).hasNode = true := by
    intro ks ps
    rw [hasNode_iff]
    exact ⟨Int.natCast_nonneg i, by simpa using h.2.1⟩
  constructor
  · intro p hp
    have hl := (List.getElem?_eq_some_iff.1 hp).1
    unfold Ctx.initKernels
    rw [if_pos ⟨hn _ _, by simpa using hl⟩]
    simp only
    unfold Ctx.enableKernel
    rw [if_pos ⟨hn _ _, by unfold Ctx.remapName; split_ifs <;> simp, by simpa using hl⟩]
    simp only [List.getElem?_map, hp, Option.map_some, if_true, nameTaken, List.any_nil, Bool.false_eq_true, if_false]
    unfold Ctx.addKernel Ctx.setRemapKernel
    simp only [List.length_nil, List.nil_append, List.getElem?_cons_zero]
    rw [if_pos ⟨hn _ _, by simpa [newKernel] using hl⟩]
    refine ⟨_, rfl, ?_⟩
    simp [newKernel, Ctx.remapName]
  · intro hp
    have hl := List.getElem?_eq_none_iff.1 hp
    unfold Ctx.initKernels
    rw [if_neg]
    simp
    omega

/-- **C90 (selecting a node by its index)**: a node can be selected by its index if none is selected yet, the programs
have options and can be built for it, the program for remapping is there and its kernel has arguments enough.  Then the
node is selected, all programs are compiled, and the arguments of the kernel for remapping are the size of a slot and,
in debug mode, the buffer for the status flags. -/
theorem C90_select {e : Env} {c : Ctx} {i b : Nat} :
    ((c.selectNode e i b).1 = true ↔ CanSelect e c i ∧ ∃ p, c.programs[c.remapProgram]? = some p ∧
      2 ≤ remapArgs e c i p ∧ (c.debug = true → 2 < remapArgs e c i p)) ∧
    ((c.selectNode e i b).1 = true → Selected e c i (c.selectNode e i b).2 ∧
      ∃ k, (c.selectNode e i b).2.kernels = [k] ∧ k.cl[1]? = some (some (.value 8)) ∧
        k.args[1]? = some ⟨.value, none⟩ ∧
        (c.debug = true → k.cl[k.numArgs - 1]? = some (some (.buffer b)) ∧
          k.args[k.numArgs - 1]? = some ⟨.clBuffer, some b⟩)) := by
  by_cases hc : CanSelect e c i
  · cases hp : c.programs[c.remapProgram]? with
    | none =>
      have h1 := (initKernels_selected hc).2 hp
      have h2 : (c.selectNode e i b).1 = false := by
        unfold Ctx.selectNode Ctx.ready
        simp only
        rw [if_pos (selectBase_ok.2 hc), h1]
        rfl
      rw [h2]
      simp
    | some p =>
      obtain ⟨c', h1, h2⟩ := (initKernels_selected hc).1 p hp
      have hl := (List.getElem?_eq_some_iff.1 hp).1
      have hn : ∀ ks, ({ c' with kernels := ks } : Ctx).hasNode = true := by
        intro ks
        rw [h2, selectBase_eq hc, hasNode_iff]
        exact ⟨Int.natCast_nonneg i, by simpa using hc.2.1⟩
      have hn0 : c'.hasNode = true := hn c'.kernels
      have hk : c'.kernels = [newKernel (e.kernel i p.source c.remapName) c.remapName c.remapProgram] := by rw [h2]
      have hr : c'.remapKernel = 0 := by rw [h2]
      have hd : c'.debug = c.debug := by rw [h2, selectBase_eq hc]
      have hna : c'.kernelNumArgs c'.remapKernel = remapArgs e c i p := by
        unfold Ctx.kernelNumArgs
        rw [if_pos hn0, hr, hk]
        rfl
      have hrk : c'.hasRemapKernel = true := by
        unfold Ctx.hasRemapKernel
        rw [hn0, hr, hk]
        rfl
      -- the selection itself
      have hsel : ∀ k : Kernel, k.name = c.remapName → k.prog = c.remapProgram → k.numArgs = remapArgs e c i p →
          Selected e c i { c' with kernels := [k] } := by
        intro k k1 k2 k3
        have hnd : c'.nodes = c.nodes ∧ c'.selected = (i : Int) := by
          rw [h2, selectBase_eq hc]
          exact ⟨rfl, rfl⟩
        refine ⟨⟨hn _, ?_, ?_⟩, ?_, ?_, p, k, hp, rfl, ?_, k1, k2, k3⟩
        · unfold Ctx.nodeIndex
          rw [if_pos (hn _)]
          simp only
          rw [hnd.2]
          simp
        · unfold Ctx.selectedId Ctx.nodeAt
          simp only
          rw [hnd.1, hnd.2]
          have := hc.2.1
          simp [this]
        · intro q hq
          simp only at hq
          rw [h2, selectBase_eq hc] at hq
          rcases List.mem_or_eq_of_mem_set hq with hq | hq
          · obtain ⟨q', -, rfl⟩ := List.mem_map.1 hq
            rfl
          · rw [hq]
        · simp only
          rw [h2, selectBase_eq hc]
          simp only [List.map_set, List.map_map]
          apply List.ext_getElem?
          intro j
          rw [List.getElem?_set]
          split_ifs with a1 a2
          · subst a1
            rw [List.getElem?_map, hp]
            rfl
          · subst a1
            simp at a2
            omega
          · rfl
        · unfold Ctx.remapKernelId Ctx.hasRemapKernel
          rw [hn]
          simp [hr]
      by_cases ha : 2 ≤ remapArgs e c i p
      · -- the slot size
        have hslot : c'.assignSlotSize SLOT_SIZE = (true, c'.assign 0 1 ⟨.value, none⟩ (.value 8)) := by
          unfold Ctx.assignSlotSize
          rw [if_pos (by decide), if_pos hrk, if_pos (by rw [hna]; exact ha), hr]
          rfl
        obtain ⟨k, hke, k1, k2, k3, k4, k5, k6, k7⟩ : ∃ k : Kernel,
            c'.assign 0 1 ⟨.value, none⟩ (.value 8) = { c' with kernels := [k] } ∧ k.name = c.remapName ∧
            k.prog = c.remapProgram ∧ k.numArgs = remapArgs e c i p ∧ k.cl[1]? = some (some (.value 8)) ∧
            k.args[1]? = some ⟨.value, none⟩ ∧ k.args.length = remapArgs e c i p ∧
            k.cl.length = remapArgs e c i p := by
          unfold Ctx.assign
          rw [hk]
          have hlen : 1 < (newKernel (e.kernel i p.source c.remapName) c.remapName c.remapProgram).args.length := by
            simp [newKernel]
            exact ha
          have ha' : 1 < (e.kernel i p.source c.remapName).numArgs := ha
          refine ⟨_, rfl, ?_⟩
          simp only [Kernel.setArg, Kernel.setCl]
          rw [if_pos hlen]
          refine ⟨rfl, rfl, rfl, ?_, ?_, ?_, ?_⟩ <;> simp [newKernel, remapArgs, ha']
        have hrk' : ({ c' with kernels := [k] } : Ctx).hasRemapKernel = true := by
          unfold Ctx.hasRemapKernel
          rw [hn]
          simp [hr]
        have hna' : ({ c' with kernels := [k] } : Ctx).kernelNumArgs c'.remapKernel = remapArgs e c i p := by
          unfold Ctx.kernelNumArgs
          rw [if_pos (hn _)]
          simp [k3, hr]
        have hsn : c.selectNode e i b = ({ c' with kernels := [k] } : Ctx).assignStatusFlags b := by
          unfold Ctx.selectNode Ctx.ready
          simp only
          rw [if_pos (selectBase_ok.2 hc), h1]
          simp only [if_true]
          rw [hslot]
          simp only [if_true]
          rw [hke]
        rw [hsn]
        unfold Ctx.assignStatusFlags
        rw [if_pos hrk']
        simp only
        have hmin : MIN_REMAP_ARGS = 2 := rfl
        rw [hna', hmin, if_pos ha]
        by_cases hdb : c.debug = true
        · rw [if_pos (hd.trans hdb)]
          by_cases hm : 2 < remapArgs e c i p
          · rw [if_pos hm]
            refine ⟨by simp [hc, ha, hdb, hm], fun _ => ?_⟩
            have heq : ({ c' with kernels := [k] } : Ctx).assign c'.remapKernel (remapArgs e c i p - 1) ⟨.clBuffer, some b⟩
                (.buffer b) = { c' with kernels := [(k.setArg (remapArgs e c i p - 1) ⟨.clBuffer, some b⟩).setCl
                  (remapArgs e c i p - 1) (.buffer b)] } := by
              simp only [hr]
              rfl
            rw [heq]
            obtain ⟨g1, g2, g3, -, -⟩ := Kernel.setArg_keeps k (remapArgs e c i p - 1) ⟨.clBuffer, some b⟩ (.buffer b)
            refine ⟨hsel _ (g1.trans k1) (g2.trans k2) (g3.trans k3), _, rfl, ?_⟩
            unfold Kernel.setArg Kernel.setCl
            rw [if_pos (by omega)]
            simp only
            have hne : remapArgs e c i p - 1 ≠ 1 := by omega
            refine ⟨by rw [List.getElem?_set_ne hne]; exact k4, by rw [List.getElem?_set_ne hne]; exact k5, fun _ => ?_⟩
            rw [k3]
            constructor
            · rw [List.getElem?_set_self (by omega)]
            · rw [List.getElem?_set_self (by omega)]
          · rw [if_neg hm]
            refine ⟨by simp [hdb]; omega, fun h => by cases h⟩
        · rw [if_neg (fun h => hdb (hd.symm.trans h))]
          refine ⟨by simp [hc, ha, hdb], fun _ => ⟨hsel k k1 k2 k3, k, rfl, k4, k5, fun h => absurd h hdb⟩⟩
      · have hslot : c'.assignSlotSize SLOT_SIZE = (false, c') := by
          unfold Ctx.assignSlotSize
          rw [if_pos (by decide), if_pos hrk, if_neg (by rw [hna]; exact ha)]
        have hsn : (c.selectNode e i b).1 = false := by
          unfold Ctx.selectNode Ctx.ready
          simp only
          rw [if_pos (selectBase_ok.2 hc), h1]
          simp only [if_true]
          rw [hslot]
          rfl
        rw [hsn]
        refine ⟨by simp; omega, fun h => by cases h⟩
  · have h0 : (c.selectBase e i).1 = false := by
      cases h : (c.selectBase e i).1 with
      | false => rfl
      | true => exact absurd (selectBase_ok.1 h) hc
    have hsn : (c.selectNode e i b).1 = false := by
      unfold Ctx.selectNode
      simp only
      rw [h0]
      rfl
    rw [hsn]
    simp [hc]

end SixTrack
