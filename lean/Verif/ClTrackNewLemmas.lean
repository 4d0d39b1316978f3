import Verif.ClTrackNew
import Verif.ClTrackLemmas
import Verif.Props.ClContextSelect
import Verif.Props.ClTrackAssign

/-! # Lemmas about the programs and kernels of the OpenCL context for tracking -/

namespace SixTrack
open ClContext ClRun ClTrack

/-! ## Programs -/

/-- What a file of a directory holds; empty if it cannot be read. -/
def srcOf (e : Env) (dir : String) (debug : Bool) (f : File) : String := (e.file (dir ++ fileName debug f)).getD ""

theorem fileName_ne (debug : Bool) (f : File) : fileName debug f ≠ "" := by
  cases debug <;> cases f <;> decide

theorem fileOptions_ne (e : Env) (c : Ctx) (f : File) : fileOptions e c f ≠ "" := by
  cases f <;> simp [fileOptions]

theorem addFile_plain {e : Env} {c : Ctx} {path src o : String} (hn : c.hasNode = false) (hp : path ≠ "")
    (hf : e.file path = some src) (hs : src ≠ "") (ho : o ≠ "") :
    c.addFile e path o = (c.programs.length, { c with programs := c.programs ++ [⟨path, src, o, [], false⟩] }) := by
  unfold Ctx.addFile Ctx.fullPath
  simp only [hp, ne_eq, not_false_eq_true, if_true, hf, hs, ho]
  unfold Ctx.addCode Ctx.setPath
  simp only [hs, ne_eq, not_false_eq_true, if_true, hn, Bool.false_eq_true, if_false]
  rw [Prod.mk.injEq]
  refine ⟨rfl, ?_⟩
  congr 1
  apply List.ext_getElem?
  intro j
  rw [List.getElem?_modify]
  rcases Nat.lt_trichotomy j c.programs.length with hj | hj | hj
  · rw [List.getElem?_append_left hj, List.getElem?_append_left hj]
    simp [Nat.ne_of_gt hj]
  · subst hj
    simp
  · rw [List.getElem?_eq_none (by simp; omega), List.getElem?_eq_none (by simp; omega)]
    rfl

/-- The programs that are made: those for tracking, for assigning output and for addresses. -/
def FILES : List File := [.track, .trackOpt, .mon, .elem, .fetch, .addr]

/-- the program of a file -/
def fileProgram (e : Env) (c : Ctx) (f : File) : Program :=
  ⟨c.kernelDir ++ fileName c.debug f, srcOf e c.kernelDir c.debug f, fileOptions e c f, [], false⟩

theorem addProgram_plain {e : Env} {c₀ c : Ctx} {f : File} (hn : c.hasNode = false)
    (hs : srcOf e c.kernelDir c.debug f ≠ "") :
    addProgram e c₀ c f = (c.programs.length, { c with programs := c.programs ++
      [⟨c.kernelDir ++ fileName c.debug f, srcOf e c.kernelDir c.debug f, fileOptions e c₀ f, [], false⟩] }) := by
  unfold addProgram
  refine addFile_plain hn ?_ ?_ hs (fileOptions_ne e c₀ f)
  · simp [String.append_eq_empty_iff, fileName_ne]
  · unfold srcOf at hs ⊢
    cases h : e.file (c.kernelDir ++ fileName c.debug f) with
    | none => rw [h] at hs; exact absurd rfl hs
    | some x => rfl

theorem initProgs_eq {e : Env} {o : Obj} (hn : o.t.ctx.hasNode = false)
    (hs : ∀ f, srcOf e o.t.ctx.kernelDir o.t.ctx.debug f ≠ "") (hl : o.t.ctx.programs.length + 6 ≤ ILLEGAL) :
    o.initProgs e = (true, { o with t := { o.t with
      ctx := { o.t.ctx with programs := o.t.ctx.programs ++ FILES.map (fileProgram e o.t.ctx) }
      prog := programsOf (if o.opt = false then o.t.ctx.programs.length else o.t.ctx.programs.length + 1)
        (o.t.ctx.programs.length + 2) (o.t.ctx.programs.length + 3) (o.t.ctx.programs.length + 4)
        (o.t.ctx.programs.length + 5) } }) := by
  obtain ⟨t, opt⟩ := o
  obtain ⟨c, xs, fl, fi, n, ps, cf, pr, ke, ca⟩ := t
  simp only at hn hs hl ⊢
  have key : ∀ (ps : List Program) (f : File), addProgram e c { c with programs := ps } f = (ps.length,
      { c with programs := ps ++ [fileProgram e c f] }) := fun ps f =>
    addProgram_plain (c := { c with programs := ps }) hn (hs f)
  have k0 : addProgram e c c .track = _ := key c.programs .track
  unfold Obj.initProgs
  simp only
  rw [k0]
  simp only [key]
  simp only [List.length_append, List.length_cons, List.length_nil]
  rw [if_pos ⟨by omega, by omega, by omega, by omega, by omega⟩]
  simp [FILES]

/-! ## Kernels -/

theorem kernelName_ne (opt debug : Bool) (w : Task) : kernelName opt debug w ≠ "" := by
  cases opt <;> cases debug <;> cases w <;> decide

theorem kernelName_inj {opt debug : Bool} {w w' : Task} (h : kernelName opt debug w = kernelName opt debug w') : w = w' := by
  revert h
  cases opt <;> cases debug <;> cases w <;> cases w' <;> decide

theorem kernelName_remap (opt : Bool) (c : Ctx) (w : Task) : c.remapName ≠ kernelName opt c.debug w := by
  unfold Ctx.remapName
  cases opt <;> cases c.debug <;> cases w <;> decide

/-- what does not change in a program when kernels are made -/
def core (p : Program) : String × String × String × Bool := (p.path, p.source, p.options, p.compiled)

/-- The contexts differ at most in the kernels. -/
def OnlyKernels (c c' : Ctx) : Prop :=
  c' = { c with kernels := c'.kernels, programs := c'.programs } ∧ c'.programs.map core = c.programs.map core

theorem OnlyKernels.refl (c : Ctx) : OnlyKernels c c := ⟨rfl, rfl⟩

theorem OnlyKernels.trans {a b c : Ctx} (h : OnlyKernels a b) (h' : OnlyKernels b c) : OnlyKernels a c := by
  refine ⟨?_, h'.2.trans h.2⟩
  rw [h'.1, h.1]

theorem OnlyKernels.hasNode {c c' : Ctx} (h : OnlyKernels c c') : c'.hasNode = c.hasNode := by rw [h.1]; rfl
theorem OnlyKernels.debug {c c' : Ctx} (h : OnlyKernels c c') : c'.debug = c.debug := by rw [h.1]
theorem OnlyKernels.selected {c c' : Ctx} (h : OnlyKernels c c') : c'.selected = c.selected := by rw [h.1]

theorem OnlyKernels.length {c c' : Ctx} (h : OnlyKernels c c') : c'.programs.length = c.programs.length := by
  have := congrArg List.length h.2
  simpa using this

theorem OnlyKernels.program {c c' : Ctx} (h : OnlyKernels c c') {i : Nat} {p : Program} (hp : c.programs[i]? = some p) :
    ∃ q, c'.programs[i]? = some q ∧ core q = core p := by
  have := congrArg (·[i]?) h.2
  simp only [List.getElem?_map, hp, Option.map_some] at this
  cases hq : c'.programs[i]? with
  | none => rw [hq] at this; cases this
  | some q => rw [hq] at this; exact ⟨q, rfl, Option.some.inj this⟩

theorem enableKernel_fresh {e : Env} {c : Ctx} (hs : Sound c) (hn : c.hasNode = true) {p : Nat} {q : Program}
    (hp : c.programs[p]? = some q) (hc : q.compiled = true) {name : String} (hne : name ≠ "")
    (hf : ∀ k ∈ c.kernels, k.name ≠ name) :
    ∃ c', c.enableKernel e name p = (c.kernels.length, c') ∧ OnlyKernels c c' ∧
      c'.kernels = c.kernels ++ [newKernel (e.kernel c.selected.toNat q.source name) name p] := by
  have hi : p < c.programs.length := (List.getElem?_eq_some_iff.1 hp).1
  have hl : c.clPrograms.length = c.programs.length := by rw [hs.sources hn]; simp
  refine ⟨(c.addKernel e name p q).2, ?_, ⟨rfl, ?_⟩, rfl⟩
  · unfold Ctx.enableKernel
    rw [if_pos ⟨hn, hne, by omega⟩, hp]
    simp only
    rw [if_pos hc, if_neg]
    · rfl
    · rw [nameTaken_iff hs hp hne]
      rintro ⟨k, h1, h2, -⟩
      exact hf k h1 h2
  · unfold Ctx.addKernel
    simp only
    apply List.ext_getElem?
    intro j
    rw [List.getElem?_map, List.getElem?_map, List.getElem?_set]
    by_cases hj : p = j
    · subst hj
      rw [if_pos rfl, if_pos hi, hp]
      rfl
    · rw [if_neg hj]

/-- The kernel made for a task with the program `P w` whose source is `S w`. -/
def kern (e : Env) (i : Nat) (opt debug : Bool) (P : Task → Nat) (S : Task → String) (w : Task) : Kernel :=
  newKernel (e.kernel i (S w) (kernelName opt debug w)) (kernelName opt debug w) (P w)

/-- A context on the node `i`, whose programs `P w` for the tasks are compiled and have the sources `S w`. -/
structure Equipped (o : Obj) (i : Nat) (P : Task → Nat) (S : Task → String) : Prop where
  sound : Sound o.t.ctx
  node : o.t.ctx.hasNode = true
  selected : o.t.ctx.selected = i
  execs : o.t.ctx.kernels.length ≤ o.t.execs.length
  prog : o.t.prog = fun w => some (P w)
  source : ∀ w, ∃ p, o.t.ctx.programs[P w]? = some p ∧ p.compiled = true ∧ p.source = S w

/-- The kernels `ks` have been added to an object, which has not changed otherwise but for the ids of kernels. -/
def Gains (o o' : Obj) (ks : List Kernel) : Prop :=
  OnlyKernels o.t.ctx o'.t.ctx ∧ o'.t.ctx.kernels = o.t.ctx.kernels ++ ks ∧
    o' = { o with t := { o.t with ctx := o'.t.ctx, execs := newExecs o.t.execs o'.t.ctx.kernels.length, kernel := o'.t.kernel } }

theorem newExecs_trans (xs : List Exec) {m n : Nat} (h : m ≤ n) : newExecs (newExecs xs m) n = newExecs xs n := by
  unfold newExecs
  rw [List.append_assoc, List.length_append, List.length_replicate, ← List.replicate_add]
  congr 2
  omega

theorem Gains.trans {a b c : Obj} {ks ls : List Kernel} (h : Gains a b ks) (h' : Gains b c ls) : Gains a c (ks ++ ls) := by
  obtain ⟨h1, h2, h3⟩ := h
  obtain ⟨k1, k2, k3⟩ := h'
  refine ⟨h1.trans k1, by rw [k2, h2, List.append_assoc], ?_⟩
  have hl : b.t.ctx.kernels.length ≤ c.t.ctx.kernels.length := by rw [k2]; simp
  have hb : b.t.execs = newExecs a.t.execs b.t.ctx.kernels.length := by rw [h3]
  have e : newExecs b.t.execs c.t.ctx.kernels.length = newExecs a.t.execs c.t.ctx.kernels.length := by
    rw [hb]
    exact newExecs_trans _ hl
  rw [e] at k3
  have : b.opt = a.opt ∧ b.t.flags = a.t.flags ∧ b.t.flagsId = a.t.flagsId ∧ b.t.particles = a.t.particles ∧
      b.t.pset = a.t.pset ∧ b.t.config = a.t.config ∧ b.t.prog = a.t.prog ∧ b.t.calls = a.t.calls := by
    rw [h3]
    exact ⟨rfl, rfl, rfl, rfl, rfl, rfl, rfl, rfl⟩
  obtain ⟨e1, e2, e3, e4, e5, e6, e7, e8⟩ := this
  simp only [e1, e2, e3, e4, e5, e6, e7, e8] at k3
  exact k3

theorem Equipped.gains {o o' : Obj} {i : Nat} {P : Task → Nat} {S : Task → String} {ks : List Kernel}
    (h : Equipped o i P S) (g : Gains o o' ks) (hs : Sound o'.t.ctx) : Equipped o' i P S where
  sound := hs
  node := by rw [g.1.hasNode]; exact h.node
  selected := by rw [g.1.selected]; exact h.selected
  execs := by
    have : o'.t.execs = newExecs o.t.execs o'.t.ctx.kernels.length := by rw [g.2.2]
    rw [this]
    simp only [newExecs, List.length_append, List.length_replicate]
    omega
  prog := by rw [g.2.2]; exact h.prog
  source w := by
    obtain ⟨p, h1, h2, h3⟩ := h.source w
    obtain ⟨q, hq, hc⟩ := g.1.program h1
    simp only [core, Prod.mk.injEq] at hc
    exact ⟨q, hq, by rw [hc.2.2.2, h2], by rw [hc.2.1, h3]⟩

theorem enableSet_spec {o : Obj} {i : Nat} {P : Task → Nat} {S : Task → String} (h : Equipped o i P S) (e : Env) (w : Task)
    (hf : ∀ k ∈ o.t.ctx.kernels, k.name ≠ kernelName o.opt o.t.ctx.debug w) :
    ∃ o', o.enableSet e w (P w) = (true, o') ∧ Gains o o' [kern e i o.opt o.t.ctx.debug P S w] ∧ Equipped o' i P S ∧
      o'.t.kernel = setTask o.t.kernel w o.t.ctx.kernels.length ∧
      (o.t.enable e (kernelName o.opt o.t.ctx.debug w) (P w)).1 = o.t.ctx.kernels.length := by
  obtain ⟨p, hp, hc, hsrc⟩ := h.source w
  obtain ⟨c', h1, h2, h3⟩ := enableKernel_fresh (e := e) h.sound h.node hp hc (kernelName_ne o.opt o.t.ctx.debug w) hf
  have hi : P w < o.t.ctx.programs.length := (List.getElem?_eq_some_iff.1 hp).1
  have hk : c'.kernels[o.t.ctx.kernels.length]? = some (kern e i o.opt o.t.ctx.debug P S w) := by
    rw [h3, h.selected, hsrc]
    simp [kern]
  have hkp : c'.kernelProgram o.t.ctx.kernels.length = P w := by
    unfold Ctx.kernelProgram
    rw [h2.hasNode, if_pos h.node, hk]
    rfl
  have hs' : Sound c' := by
    have := h.sound.enableKernel e (kernelName o.opt o.t.ctx.debug w) (P w)
    rw [h1] at this
    exact this
  have hset : setTask o.t.prog w (P w) = o.t.prog := by
    funext w'
    unfold setTask
    rw [h.prog]
    by_cases hw : w' = w
    · rw [if_pos hw, hw]
    · rw [if_neg hw]
  let o' : Obj := { o with t := { o.t with ctx := c', execs := newExecs o.t.execs c'.kernels.length
                                           kernel := setTask o.t.kernel w o.t.ctx.kernels.length } }
  have hg : Gains o o' [kern e i o.opt o.t.ctx.debug P S w] := by
    refine ⟨h2, ?_, rfl⟩
    show c'.kernels = _
    rw [h3, h.selected, hsrc]
    rfl
  refine ⟨o', ?_, hg, h.gains hg hs', rfl, by unfold Tracker.enable; simp only [h1]⟩
  unfold Obj.enableSet Tracker.enable
  simp only
  rw [h1]
  simp only
  unfold Tracker.setKernel
  simp only
  rw [hkp, if_pos ⟨by rw [h2.hasNode]; exact h.node, by rw [h3]; simp, by rw [h2.length]; exact hi⟩, hset]

theorem enableAll_spec (e : Env) (i : Nat) (P : Task → Nat) (S : Task → String) (ws : List Task) :
    ∀ o : Obj, Equipped o i P S → ws.Nodup →
      (∀ w ∈ ws, ∀ k ∈ o.t.ctx.kernels, k.name ≠ kernelName o.opt o.t.ctx.debug w) →
      ∃ o', enableAll e o ws = .ok (true, o') ∧ Gains o o' (ws.map (kern e i o.opt o.t.ctx.debug P S)) ∧ Equipped o' i P S ∧
        ∀ w, o'.t.kernel w = if w ∈ ws then some (o.t.ctx.kernels.length + ws.idxOf w) else o.t.kernel w := by
  induction ws with
  | nil =>
    intro o h _ _
    refine ⟨o, rfl, ⟨OnlyKernels.refl _, by simp, ?_⟩, h, fun w => by simp⟩
    have : newExecs o.t.execs o.t.ctx.kernels.length = o.t.execs := by
      unfold newExecs
      rw [Nat.sub_eq_zero_of_le h.execs]
      simp
    rw [this]
  | cons w ws ih =>
    intro o h hnd hf
    obtain ⟨o1, h1, h2, h3, h4, -⟩ := enableSet_spec h e w (hf w (by simp))
    have hopt : o1.opt = o.opt := by rw [h2.2.2]
    obtain ⟨hw, hnd'⟩ := List.nodup_cons.1 hnd
    have hf1 : ∀ w' ∈ ws, ∀ k ∈ o1.t.ctx.kernels, k.name ≠ kernelName o1.opt o1.t.ctx.debug w' := by
      intro w' hw' k hk
      rw [hopt, h2.1.debug]
      rw [h2.2.1, List.mem_append, List.mem_singleton] at hk
      rcases hk with hk | rfl
      · exact hf w' (by simp [hw']) k hk
      · intro he
        exact hw (kernelName_inj he ▸ hw')
    obtain ⟨o2, k1, k2, k3, k4⟩ := ih o1 h3 hnd' hf1
    rw [hopt, h2.1.debug] at k2
    refine ⟨o2, ?_, h2.trans k2, k3, fun w' => ?_⟩
    · unfold enableAll Obj.enableNext
      obtain ⟨p, hp, -⟩ := h.source w
      have : ClTrack.read (o.t.prog w) = .ok (P w) := by rw [h.prog]; rfl
      rw [this, Res.ok_bind, if_pos (List.getElem?_eq_some_iff.1 hp).1, h1]
      exact k1
    · rw [k4, h4, h2.2.1]
      unfold setTask
      by_cases e1 : w' = w
      · subst e1
        simp [hw]
      · by_cases e2 : w' ∈ ws
        · simp [e1, e2, Ne.symm e1]
          omega
        · simp [e1, e2]

/-- The order in which kernels are made. -/
def ORDER : List Task := [.turn, .elem, .line, .monOut, .clear, .elemOut, .fetch, .addr]

theorem initKerns_spec {o : Obj} {i : Nat} {P : Task → Nat} {S : Task → String} (h : Equipped o i P S) (e : Env)
    (hl : o.t.ctx.kernels.length + 8 ≤ ILLEGAL) (hp : P .addr ≠ ILLEGAL)
    (hf : ∀ w, ∀ k ∈ o.t.ctx.kernels, k.name ≠ kernelName o.opt o.t.ctx.debug w) :
    ∃ o', o.initKerns e = .ok (true, o') ∧ Gains o o' (ORDER.map (kern e i o.opt o.t.ctx.debug P S)) ∧
      Equipped o' i P S ∧ ∀ w, o'.t.kernel w = some (o.t.ctx.kernels.length + ORDER.idxOf w) := by
  have rd : ∀ {o : Obj} (_ : Equipped o i P S) (w : Task), ClTrack.read (o.t.prog w) = .ok (P w) := fun h w => by
    rw [h.prog]
    rfl
  have lt : ∀ {o : Obj} (_ : Equipped o i P S) (w : Task), P w < o.t.ctx.programs.length := fun h w => by
    obtain ⟨p, hp, -⟩ := h.source w
    exact (List.getElem?_eq_some_iff.1 hp).1
  have step : ∀ {o o' : Obj} {ks : List Kernel} (_ : Gains o o' ks), o'.opt = o.opt ∧ o'.t.ctx.debug = o.t.ctx.debug :=
    fun g => ⟨by rw [g.2.2], g.1.debug⟩
  obtain ⟨o1, h1, h2, h3, h4, -⟩ := enableSet_spec h e .turn (hf .turn)
  obtain ⟨s1, s2⟩ := step h2
  obtain ⟨o2, k1, k2, k3, k4⟩ := enableAll_spec e i P S MIDDLE o1 h3 (by decide) (by
    intro w hw k hk
    rw [s1, s2]
    rw [h2.2.1, List.mem_append, List.mem_singleton] at hk
    rcases hk with hk | rfl
    · exact hf w k hk
    · intro he
      have := kernelName_inj (opt := o.opt) (debug := o.t.ctx.debug) (w := .turn) he
      subst this
      revert hw
      decide)
  rw [s1, s2] at k2
  have g2 := h2.trans k2
  obtain ⟨s3, s4⟩ := step g2
  obtain ⟨o3, m1, m2, m3, m4, m5⟩ := enableSet_spec k3 e .addr (by
    intro k hk
    rw [s3, s4]
    rw [g2.2.1, List.mem_append] at hk
    rcases hk with hk | hk
    · exact hf .addr k hk
    · intro he
      rw [← List.map_singleton, ← List.map_append] at hk
      obtain ⟨w, hw, rfl⟩ := List.mem_map.1 hk
      have := kernelName_inj (opt := o.opt) (debug := o.t.ctx.debug) (w := w) he
      subst this
      revert hw
      decide)
  rw [s3, s4] at m2
  have l1 : o1.t.ctx.kernels.length = o.t.ctx.kernels.length + 1 := by rw [h2.2.1]; simp
  have l2 : o2.t.ctx.kernels.length = o.t.ctx.kernels.length + 7 := by rw [k2.2.1, List.length_append, l1]; rfl
  refine ⟨o3, ?_, by simpa [ORDER, MIDDLE] using g2.trans m2, m3, fun w => ?_⟩
  · unfold Obj.initKerns Obj.enableFirst Obj.enableLast
    rw [if_pos h.node, rd h, Res.ok_bind, if_pos (lt h _), h1, Res.pure_eq, Res.ok_bind]
    simp only [if_true]
    rw [k1, Res.ok_bind]
    simp only [if_true]
    rw [rd k3, Res.ok_bind, if_pos ⟨hp, lt k3 _⟩]
    rw [if_pos (by rw [m5, l2]; omega)]
    rw [← m1]
    rfl
  · rw [m4, l2]
    unfold setTask
    by_cases hw : w = .addr
    · subst hw
      rfl
    · rw [if_neg hw, k4, h4, l1]
      unfold setTask
      cases w <;> first | exact absurd rfl hw | rfl

/-! ## Selecting a node -/

/-- path, source and options of a program -/
def content (p : Program) : String × String × String := (p.path, p.source, p.options)

/-- What is needed of an object so that a node can be selected: its programs can be built, that for remapping is there, and
the programs `P w` for the tasks have the sources `S w`. -/
structure Selectable (e : Env) (o : Obj) (i : Nat) (P : Task → Nat) (S : Task → String) : Prop where
  sound : Sound o.t.ctx
  can : CanSelect e o.t.ctx i
  remap : o.t.ctx.remapProgram < o.t.ctx.programs.length
  prog : o.t.prog = fun w => some (P w)
  legal : P .addr ≠ ILLEGAL
  source : ∀ w, ∃ p, o.t.ctx.programs[P w]? = some p ∧ p.source = S w

theorem onRemap_spec {e : Env} {o : Obj} {i : Nat} {P : Task → Nat} {S : Task → String} (h : Selectable e o i P S) :
    ∃ o1 o2 k, o.selectPlain e i = (true, o1) ∧ o1.initRemap e = (true, o2) ∧ Equipped o2 i P S ∧
      o2.t.ctx.kernels = [k] ∧ k.name = o.t.ctx.remapName ∧ (∀ j, kArg o2.t.ctx 0 j = none) ∧
      o2.t.ctx.remapKernel = 0 ∧ o2.t.ctx.debug = o.t.ctx.debug ∧
      o2.t.ctx.programs.map content = o.t.ctx.programs.map content ∧ o2.t.execs = [Exec.new] ∧
      o2 = { o with t := { o.t with ctx := o2.t.ctx, execs := o2.t.execs, flags := { o.t.flags with device := 0 } } } ∧
      ∃ p, o.t.ctx.programs[o.t.ctx.remapProgram]? = some p ∧ k.numArgs = (e.kernel i p.source o.t.ctx.remapName).numArgs := by
  obtain ⟨rp, hrp⟩ : ∃ rp, o.t.ctx.programs[o.t.ctx.remapProgram]? = some rp := ⟨_, List.getElem?_eq_getElem h.remap⟩
  obtain ⟨c2, hc, hc2⟩ := (initKernels_selected h.can).1 rp hrp
  have hb := selectBase_eq h.can
  have hok := selectBase_ok.2 h.can
  have hs2 : Sound c2 := by
    have := (h.sound.selectBase e i).initKernels e
    rw [hc] at this
    exact this
  rw [hb] at hc2
  have hprogs : ∀ (j : Nat) (p : Program), o.t.ctx.programs[j]? = some p → ∃ q, c2.programs[j]? = some q ∧ q.compiled = true ∧
      content q = content p := by
    intro j p hp
    rw [hc2]
    simp only [List.getElem?_set, List.length_map]
    by_cases hj : o.t.ctx.remapProgram = j
    · subst hj
      rw [if_pos rfl, if_pos h.remap]
      rw [hrp, Option.some.injEq] at hp
      subst hp
      exact ⟨_, rfl, rfl, rfl⟩
    · rw [if_neg hj, List.getElem?_map, hp]
      exact ⟨_, rfl, rfl, rfl⟩
  have hlen : c2.programs.length = o.t.ctx.programs.length := by rw [hc2]; simp
  have hk : c2.kernels = [newKernel (e.kernel i rp.source o.t.ctx.remapName) o.t.ctx.remapName o.t.ctx.remapProgram] := by
    rw [hc2]
  let o2 : Obj := { o with t := { o.t with ctx := c2, execs := [Exec.new], flags := { o.t.flags with device := 0 } } }
  refine ⟨{ o with t := { o.t.onto (o.t.ctx.selectBase e i).2 with flags := { o.t.flags with device := 0 } } }, o2, _, ?_, ?_,
    ?_, hk, rfl, fun j => ?_, ?_, ?_, ?_, rfl, rfl, rp, hrp, rfl⟩
  · unfold Obj.selectPlain
    rw [if_pos ⟨h.can.1, h.can.2.1, h.can.2.2.1⟩]
    simp only
    rw [hok]
  · unfold Obj.initRemap Tracker.onto
    simp only
    rw [hc]
    simp only [hb]
    rw [hk]
    rfl
  · refine ⟨hs2, ?_, ?_, ?_, h.prog, fun w => ?_⟩
    · show c2.hasNode = true
      rw [hc2, hasNode_iff]
      exact ⟨Int.natCast_nonneg i, by simpa using h.can.2.1⟩
    · show c2.selected = _
      rw [hc2]
    · show c2.kernels.length ≤ 1
      rw [hk]
      simp
    · obtain ⟨p, hp, hpS⟩ := h.source w
      obtain ⟨q, hq, hqc, hqp⟩ := hprogs _ p hp
      simp only [content, Prod.mk.injEq] at hqp
      exact ⟨q, hq, hqc, by rw [hqp.2.1, hpS]⟩
  · show kArg c2 0 j = none
    unfold kArg
    rw [hk]
    simp only [List.getElem?_cons_zero, Option.bind_some, newKernel, List.getElem?_replicate]
    split_ifs <;> rfl
  · show c2.remapKernel = 0
    rw [hc2]
  · show c2.debug = _
    rw [hc2]
  · show c2.programs.map content = _
    apply List.ext_getElem?
    intro j
    rw [List.getElem?_map, List.getElem?_map]
    cases hp : o.t.ctx.programs[j]? with
    | none =>
      rw [List.getElem?_eq_none (by rw [hlen]; exact List.getElem?_eq_none_iff.1 hp)]
    | some p =>
      obtain ⟨q, hq, -, hqp⟩ := hprogs _ p hp
      rw [hq, Option.map_some, Option.map_some, hqp]

/-- The ids of the kernels: that for remapping is the first. -/
def taskId : Task → Nat
  | .turn => 1
  | .elem => 2
  | .line => 3
  | .monOut => 4
  | .clear => 5
  | .elemOut => 6
  | .fetch => 7
  | .addr => 8

theorem taskId_inj {w w' : Task} (h : taskId w = taskId w') : w = w' := by
  revert h
  cases w <;> cases w' <;> decide

theorem newKernel_unset (info : KernelInfo) (name : String) (p j : Nat) : ((newKernel info name p).cl[j]?).join = none := by
  simp only [newKernel, List.getElem?_replicate]
  split_ifs <;> rfl

/-- All kernels have been made on the node `i`: the ids, names and programs, and nothing is assigned yet. -/
structure Fitted (o o' : Obj) (i : Nat) (P : Task → Nat) : Prop where
  staffed : Staffed o'.t taskId
  selected : o'.t.ctx.selected = i
  opt : o'.opt = o.opt
  debug : o'.t.ctx.debug = o.t.ctx.debug
  length : o'.t.ctx.kernels.length = 9
  programs : o'.t.ctx.programs.map content = o.t.ctx.programs.map content
  kernel : ∀ w, ∃ k, o'.t.ctx.kernels[taskId w]? = some k ∧ k.name = kernelName o.opt o.t.ctx.debug w ∧ k.prog = P w
  remap : o'.t.ctx.remapKernelId = 0 ∧ ∃ k, o'.t.ctx.kernels[0]? = some k ∧ k.name = o.t.ctx.remapName
  execs : o'.t.execs = List.replicate 9 Exec.new
  members : o'.t.flags = { o.t.flags with device := 0 } ∧ o'.t.flagsId = o.t.flagsId ∧ o'.t.calls = o.t.calls ∧
    o'.t.pset = o.t.pset ∧ o'.t.particles = o.t.particles

theorem fitted_spec {e : Env} {o : Obj} {i : Nat} {P : Task → Nat} {S : Task → String} (h : Selectable e o i P S)
    (ha : ∀ w, (e.kernel i (S w) (kernelName o.opt o.t.ctx.debug w)).numArgs = arity o.t.ctx.debug w) :
    ∃ o1 o2 o3, o.selectPlain e i = (true, o1) ∧ o1.initRemap e = (true, o2) ∧ o2.initKerns e = .ok (true, o3) ∧
      Fitted o o3 i P ∧ (∀ k j, kArg o3.t.ctx k j = none) ∧ o3.t.config = o.t.config ∧ o3.t.ctx.remapKernel = 0 ∧
      ∃ k p, o3.t.ctx.kernels[0]? = some k ∧ o.t.ctx.programs[o.t.ctx.remapProgram]? = some p ∧
        k.numArgs = (e.kernel i p.source o.t.ctx.remapName).numArgs := by
  obtain ⟨o1, o2, r, h1, h2, h3, h4, h5, h6, h7, h8, h9, h10, h11, rp, h12, h13⟩ := onRemap_spec h
  have hopt : o2.opt = o.opt := by rw [h11]
  obtain ⟨o3, k1, k2, k3, k4⟩ := initKerns_spec h3 e (by rw [h4, List.length_singleton]; decide) h.legal (by
    intro w k hk
    rw [h4, List.mem_singleton] at hk
    subst hk
    rw [h5, hopt, h8]
    exact kernelName_remap o.opt o.t.ctx w)
  have hks := k2.2.1
  rw [h4, hopt, h8] at hks
  have hid : ∀ w, o3.t.kernel w = some (taskId w) := by
    intro w
    rw [k4, h4]
    cases w <;> rfl
  have hget : ∀ w, o3.t.ctx.kernels[taskId w]? = some (kern e i o.opt o.t.ctx.debug P S w) := by
    intro w
    rw [hks]
    cases w <;> rfl
  have hlen : o3.t.ctx.kernels.length = 9 := by rw [hks]; rfl
  have hexecs : o3.t.execs = List.replicate 9 Exec.new := by
    rw [k2.2.2]
    simp only
    rw [hlen, h10]
    rfl
  have hdbg : o3.t.ctx.debug = o.t.ctx.debug := by rw [k2.1.debug, h8]
  refine ⟨o1, o2, o3, h1, h2, k1, ⟨⟨k3.node, SixTrack.Sound.tidyArgs k3.sound, by rw [hlen]; decide, hid, fun w w' => taskId_inj, fun w =>
    ⟨_, hget w, ?_⟩⟩, k3.selected, ?_, hdbg, hlen, ?_, fun w => ⟨_, hget w, rfl, rfl⟩, ⟨?_, r, ?_, h5⟩, hexecs, ?_⟩, ?_, ?_,
    by rw [k2.1.1]; exact h7, r, rp, by rw [hks]; rfl, h12, h13⟩
  · rw [hdbg, ← ha w]
    rfl
  · rw [k2.2.2]
    exact hopt
  · rw [← h9]
    have := congrArg (List.map fun x : String × String × String × Bool => (x.1, x.2.1, x.2.2.1)) k2.1.2
    rw [List.map_map, List.map_map] at this
    exact this
  · have hr : o3.t.ctx.remapKernel = 0 := by rw [k2.1.1]; exact h7
    unfold Ctx.remapKernelId Ctx.hasRemapKernel
    rw [k3.node, hr, hlen]
    rfl
  · rw [hks]
    rfl
  · rw [k2.2.2, h11]
    exact ⟨rfl, rfl, rfl, rfl, rfl⟩
  · intro k j
    by_cases hk : k = 0
    · subst hk
      have := h6 j
      unfold kArg at this ⊢
      rw [h4] at this
      rw [hks]
      exact this
    · unfold kArg
      cases hx : o3.t.ctx.kernels[k]? with
      | none => rfl
      | some x =>
        obtain ⟨k, rfl⟩ := Nat.exists_eq_succ_of_ne_zero hk
        rw [hks, List.singleton_append, List.getElem?_cons_succ, List.getElem?_map] at hx
        cases hw : ORDER[k]? with
        | none => rw [hw] at hx; cases hx
        | some w =>
          rw [hw, Option.map_some, Option.some.injEq] at hx
          subst hx
          exact newKernel_unset _ _ _ _
  · rw [k2.2.2, h11]

/-- where the kernels have the size of the slots -/
def slotArgs : List (Task × Nat) :=
  [(.turn, 4), (.line, 6), (.elem, 6), (.monOut, 4), (.clear, 1), (.elemOut, 4), (.fetch, 2)]

/-- where the kernels have the index of the configuration -/
def configArgs : List (Task × Nat) := [(.elem, 4), (.elemOut, 1)]

/-- What the arguments of the kernels are after a constructor: the size of slots, the index of the configuration and, in
debug mode, the buffer of the status flags. -/
def startArg (debug : Bool) (flagsId : Nat) (w : Task) (j : Nat) : Option ClVal :=
  if (w, j) ∈ slotArgs then some (.value 8)
  else if (w, j) ∈ configArgs then some (.value 0)
  else if debug ∧ w ≠ .fetch ∧ w ≠ .addr ∧ j + 1 = arity true w then some (.buffer flagsId)
  else none

theorem slot_flags_apart (w : Task) (j : Nat) (h : (w, j) ∈ slotArgs ∨ (w, j) ∈ configArgs) (h1 : w ≠ .fetch) :
    j + 1 ≠ arity true w ∧ ¬((w, j) ∈ slotArgs ∧ (w, j) ∈ configArgs) := by
  cases w <;> simp [slotArgs, configArgs] at h h1 ⊢ <;> rcases h with rfl | rfl <;> simp [arity]

theorem Fitted.update {o o' o'' : Obj} {i : Nat} {P : Task → Nat} (h : Fitted o o' i P) (hc : OnlyArgs o'.t.ctx o''.t.ctx)
    (he : ∃ n, o'' = { o' with t := { o'.t with ctx := o''.t.ctx, config := n } }) : Fitted o o'' i P := by
  obtain ⟨n, he⟩ := he
  have hk : o''.t.kernel = o'.t.kernel := by rw [he]
  refine ⟨h.staffed.update hc hk, by rw [hc.1]; exact h.selected, by rw [he]; exact h.opt, by rw [hc.debug]; exact h.debug,
    by rw [hc.length]; exact h.length, by rw [hc.1]; exact h.programs, fun w => ?_, ⟨?_, ?_⟩, by rw [he]; exact h.execs,
    by rw [he]; exact h.members⟩
  · obtain ⟨k, h1, h2, h3⟩ := h.kernel w
    obtain ⟨y, k1, -, -, k2, k3, -⟩ := hc.kernel h1
    exact ⟨y, k1, by rw [k2, h2], by rw [k3, h3]⟩
  · rw [← h.remap.1]
    unfold Ctx.remapKernelId Ctx.hasRemapKernel
    rw [hc.hasNode, hc.length]
    have : o''.t.ctx.remapKernel = o'.t.ctx.remapKernel := by rw [hc.1]
    rw [this]
  · obtain ⟨k, h1, h2⟩ := h.remap.2
    obtain ⟨y, k1, -, -, k2, -⟩ := hc.kernel h1
    exact ⟨y, k1, by rw [k2, h2]⟩

theorem place_spec {s : Setup} {o : Obj} {i : Nat} {P : Task → Nat} {S : Task → String} (h : Selectable s.env o i P S)
    (ha : ∀ w, (s.env.kernel i (S w) (kernelName o.opt o.t.ctx.debug w)).numArgs = arity o.t.ctx.debug w) :
    ∃ o', s.place o i = .ok o' ∧ Fitted o o' i P ∧ o'.t.config = 0 ∧
      (∀ w j, kArg o'.t.ctx (taskId w) j = startArg o.t.ctx.debug s.flagsId w j) ∧ ∀ j, kArg o'.t.ctx 0 j = none := by
  obtain ⟨o1, o2, o3, h1, h2, h3, hF, hnone, hcfg, -⟩ := fitted_spec h ha
  obtain ⟨ca, a1, a2, a3, a4⟩ := C95_slot hF.staffed SLOT_SIZE
  let oa : Obj := { o3 with t := { o3.t with ctx := ca } }
  have hFa : Fitted o oa i P := hF.update a2 ⟨_, rfl⟩
  obtain ⟨cb, b1, b2, b3, b4⟩ := C95_config_index hFa.staffed 0
  let ob : Obj := { o3 with t := { o3.t with ctx := cb, config := 0 } }
  have hFb : Fitted o ob i P := hFa.update b2 ⟨_, rfl⟩
  have hz : ∀ w, taskId w ≠ 0 := fun w => by cases w <;> decide
  have hb0 : ∀ j, kArg cb 0 j = none := fun j => by
    rw [b4 0 j fun w _ => hz w, a4 0 j fun w _ => hz w]
    exact hnone 0 j
  have hbw : ∀ w j, kArg cb (taskId w) j = if (w, j) ∈ slotArgs then some (.value 8) else
      if (w, j) ∈ configArgs then some (.value 0) else none := by
    intro w j
    by_cases hs : (w, j) ∈ slotArgs
    · rw [if_pos hs, b4, a3 w j hs]
      · rfl
      · intro w' hw' he
        have := taskId_inj he
        subst this
        by_cases hf : w' = .fetch
        · subst hf
          simp at hw'
        · exact (slot_flags_apart w' j (.inl hs) hf).2 ⟨hs, hw'⟩
    · rw [if_neg hs]
      by_cases hc : (w, j) ∈ configArgs
      · rw [if_pos hc, b3 w j hc]
      · rw [if_neg hc, b4, a4, hnone]
        · intro w' hw' he
          have := taskId_inj he
          subst this
          exact hs hw'
        · intro w' hw' he
          have := taskId_inj he
          subst this
          exact hc hw'
  have hpl : ∀ o', (ob.t.assignFlags s.flagsId >>= fun c => pure { o3 with t := c.2 }) = .ok o' → s.place o i = .ok o' := by
    intro o' ho'
    unfold Setup.place
    rw [if_pos h.can.2.1, h1]
    simp only [if_true]
    rw [h2]
    simp only
    rw [h3, Res.ok_bind, a1, Res.ok_bind]
    simp only
    have : ({ o3.t with ctx := ca } : Tracker).assignConfigIndex 0 = _ := b1
    rw [this, Res.ok_bind]
    exact ho'
  obtain ⟨f1, f2⟩ := C95_flags hFb.staffed s.flagsId
  by_cases hd : o.t.ctx.debug = true
  · obtain ⟨cf, g1, g2, g3, g4⟩ := f2 (hFb.debug.trans hd)
    let of : Obj := { o3 with t := { o3.t with ctx := cf, config := 0 } }
    refine ⟨of, hpl of ?_, hFb.update g2 ⟨_, rfl⟩, rfl, fun w j => ?_, fun j => ?_⟩
    · rw [g1]
      rfl
    · show kArg cf (taskId w) j = _
      unfold startArg
      by_cases hP : w ≠ .fetch ∧ w ≠ .addr ∧ j + 1 = arity true w
      · rw [g3 w j hP, if_neg, if_neg, if_pos ⟨hd, hP⟩]
        · exact fun hc => (slot_flags_apart w j (.inr hc) hP.1).1 hP.2.2
        · exact fun hc => (slot_flags_apart w j (.inl hc) hP.1).1 hP.2.2
      · rw [g4]
        · show kArg cb (taskId w) j = _
          rw [hbw, if_neg (show ¬(o.t.ctx.debug = true ∧ w ≠ .fetch ∧ w ≠ .addr ∧ j + 1 = arity true w) from
            fun hc => hP hc.2)]
        · intro w' hw' he
          have := taskId_inj he
          subst this
          exact hP hw'
    · show kArg cf 0 j = none
      rw [g4 0 j fun w _ => hz w]
      exact hb0 j
  · have hd' : o.t.ctx.debug = false := by simpa using hd
    refine ⟨ob, hpl ob ?_, hFb, rfl, fun w j => ?_, hb0⟩
    · rw [f1 (hFb.debug.trans hd')]
      rfl
    · show kArg cb (taskId w) j = _
      rw [hbw]
      unfold startArg
      simp [hd']

end SixTrack
