import Verif.ClTrackNewLemmas

/-! # Lemmas about objects whose programs are there -/

namespace SixTrack
open ClContext ClRun ClTrack

/-! ## Programs for the tasks -/

/-- The file with the kernel for a task. -/
def fileOf (opt : Bool) : Task → File
  | .turn => if opt then .trackOpt else .track
  | .elem => if opt then .trackOpt else .track
  | .line => if opt then .trackOpt else .track
  | .monOut => .mon
  | .clear => .mon
  | .elemOut => .elem
  | .fetch => .fetch
  | .addr => .addr

/-- the position of a file among the programs -/
def fileIndex : File → Nat
  | .track => 0
  | .trackOpt => 1
  | .mon => 2
  | .elem => 3
  | .fetch => 4
  | .addr => 5

/-- The id of the program for a task, if that for remapping has the id `n`. -/
def progAt (opt : Bool) (n : Nat) (w : Task) : Nat := n + 1 + fileIndex (fileOf opt w)

/-- The source for remapping; empty if it cannot be read. -/
def remapSrc (e : Env) (c : Ctx) : String := (e.file c.remapPath).getD ""

/-- The programs are there that a context makes for itself, that for remapping with the id `n`, and those for normal or (if
`po`) optimised tracking are chosen. -/
structure Stocked (e : Env) (o : Obj) (po : Bool) (n : Nat) : Prop where
  sound : Sound o.t.ctx
  node : o.t.ctx.hasNode = false
  remap : o.t.ctx.remapProgram = n
  prog : o.t.prog = fun w => some (progAt po n w)
  file : ∀ f, o.t.ctx.programs[n + 1 + fileIndex f]? = some (fileProgram e o.t.ctx f)
  first : ∃ p, o.t.ctx.programs[n]? = some p ∧ p.path = o.t.ctx.remapPath ∧ p.source = remapSrc e o.t.ctx
  options : ∀ p ∈ o.t.ctx.programs, p.options ≠ ""
  length : o.t.ctx.programs.length = n + 7
  legal : n + 7 ≤ ILLEGAL

theorem Stocked.lt {e : Env} {o : Obj} {po : Bool} {n : Nat} (h : Stocked e o po n) (w : Task) :
    progAt po n w < o.t.ctx.programs.length :=
  (List.getElem?_eq_some_iff.1 (h.file (fileOf po w))).1

/-- What OpenCL has to do so that the node `i` can be selected. -/
structure NodeWorks (e : Env) (i : Nat) : Prop where
  writes : e.writes i = true
  builds : ∀ src o, e.builds i src o = true

theorem Stocked.selectable {e : Env} {o : Obj} {po : Bool} {n i : Nat} (h : Stocked e o po n) (hu : NodeWorks e i)
    (hi : i < o.t.ctx.nodes.length) :
    Selectable e o i (progAt po n) fun w => srcOf e o.t.ctx.kernelDir o.t.ctx.debug (fileOf po w) where
  sound := h.sound
  can := ⟨h.node, hi, hu.writes, fun p hp => ⟨h.options p hp, hu.builds _ _⟩⟩
  remap := by rw [h.remap, h.length]; omega
  prog := h.prog
  legal := by
    have := h.lt .addr
    have := h.legal
    rw [h.length] at *
    omega
  source w := ⟨_, h.file (fileOf po w), rfl⟩

/-! ## Feature flags -/

theorem setFlag_members (c : Ctx) (n v : String) : c.setFlag n v = { c with flags := (c.setFlag n v).flags } := by
  unfold Ctx.setFlag
  split_ifs <;> rfl

theorem setMacros_members (value : String → Option String) (ns : List String) : ∀ c : Ctx,
    setMacros value ns c = { c with flags := (setMacros value ns c).flags } := by
  induction ns with
  | nil => intro c; rfl
  | cons n ns ih =>
    intro c
    unfold setMacros
    cases value n with
    | none => exact ih c
    | some v =>
      simp only
      rw [ih (c.setFlag n v)]
      rw [setFlag_members]

theorem Sound.setMacros (value : String → Option String) (ns : List String) : ∀ {c : Ctx}, Sound c →
    Sound (setMacros value ns c) := by
  induction ns with
  | nil => intro c h; exact h
  | cons n ns ih =>
    intro c h
    unfold ClTrack.setMacros
    cases value n with
    | none => exact ih h
    | some v => exact ih (h.setFlag n v)

theorem flag_setFlag (c : Ctx) (n v m : String) (hm : m ≠ "") :
    (c.setFlag n v).flag m = (c.flag m).or (if m = n then some v else none) := by
  by_cases h : m = n
  · subst h
    rw [if_pos rfl]
    cases hf : c.flag m with
    | none => rw [(C90_flags c m v hm).1 hf]; rfl
    | some x => rw [(C90_flag_violated c m v x hf).1, hf]; rfl
  · rw [if_neg h, Option.or_none]
    by_cases hn : n = ""
    · subst hn
      unfold Ctx.setFlag
      simp
    · exact (C90_flags c n v hn).2.1 m h

theorem flag_setMacros (value : String → Option String) (ns : List String) (m : String) (hm : m ≠ "") : ∀ c : Ctx,
    (setMacros value ns c).flag m = (c.flag m).or (if m ∈ ns then value m else none) := by
  induction ns with
  | nil => intro c; simp [setMacros]
  | cons n ns ih =>
    intro c
    unfold setMacros
    cases hv : value n with
    | none =>
      simp only
      rw [ih]
      congr 1
      by_cases h : m = n
      · subst h
        simp [hv]
      · simp [h]
    | some v =>
      simp only
      rw [ih, flag_setFlag c n v m hm]
      by_cases h : m = n
      · subst h
        cases c.flag m <;> simp [hv]
      · simp [h]

/-! ## Making the programs -/

theorem initProgs_ctx_sound {e : Env} {o : Obj} (h : Sound o.t.ctx) : Sound (o.initProgs e).2.t.ctx := by
  have k : ∀ (c₀ c : Ctx) (f : File), Sound c → Sound (addProgram e c₀ c f).2 := fun c₀ c f h => h.addFile e _ _ _
  have hc : (o.initProgs e).2.t.ctx = (addProgram e o.t.ctx (addProgram e o.t.ctx (addProgram e o.t.ctx
      (addProgram e o.t.ctx (addProgram e o.t.ctx (addProgram e o.t.ctx o.t.ctx .track).2 .trackOpt).2 .mon).2 .elem).2
        .fetch).2 .addr).2 := by
    unfold Obj.initProgs
    simp only
    generalize addProgram e o.t.ctx o.t.ctx .track = a
    generalize addProgram e o.t.ctx a.2 .trackOpt = b
    generalize addProgram e o.t.ctx b.2 .mon = c
    generalize addProgram e o.t.ctx c.2 .elem = d
    generalize addProgram e o.t.ctx d.2 .fetch = f
    generalize addProgram e o.t.ctx f.2 .addr = g
    split_ifs <;> rfl
  rw [hc]
  exact k _ _ _ (k _ _ _ (k _ _ _ (k _ _ _ (k _ _ _ (k _ _ _ h)))))

theorem remapOptions_ne (e : Env) (c : Ctx) : c.remapOptions e ≠ "" := by simp [Ctx.remapOptions]

theorem remapPath_ne (c : Ctx) : c.remapPath ≠ "" := by
  unfold Ctx.remapPath
  split_ifs <;> simp [String.append_eq_empty_iff]

theorem initPrograms_eq {e : Env} {c : Ctx} (hn : c.hasNode = false) (hs : remapSrc e c ≠ "") :
    (c.initPrograms e).2 = { c with
      programs := c.programs ++ [⟨c.remapPath, remapSrc e c, c.remapOptions e, [], false⟩]
      remapProgram := c.programs.length } := by
  unfold Ctx.initPrograms
  rw [addFile_plain hn (remapPath_ne c) ?_ hs (remapOptions_ne e c)]
  unfold remapSrc at hs ⊢
  cases h : e.file c.remapPath with
  | none => rw [h] at hs; exact absurd rfl hs
  | some x => rfl

/-- All files can be read. -/
def AllFiles (e : Env) (c : Ctx) : Prop := remapSrc e c ≠ "" ∧ ∀ f, srcOf e c.kernelDir c.debug f ≠ ""

/-- All but the feature flags, the kernels and the programs for remapping. -/
theorem stocked_initProgs {e : Env} {o : Obj} {n : Nat} (hs : Sound o.t.ctx) (hn : o.t.ctx.hasNode = false)
    (hf : AllFiles e o.t.ctx) (hl : o.t.ctx.programs.length = n + 1) (hr : o.t.ctx.remapProgram = n) (hle : n + 7 ≤ ILLEGAL)
    (h1 : ∃ p, o.t.ctx.programs[n]? = some p ∧ p.path = o.t.ctx.remapPath ∧ p.source = remapSrc e o.t.ctx)
    (ho : ∀ p ∈ o.t.ctx.programs, p.options ≠ "") :
    ∃ o', o.initProgs e = (true, o') ∧ Stocked e o' o.opt n ∧
      o' = { o with t := { o.t with
        ctx := { o.t.ctx with programs := o.t.ctx.programs ++ FILES.map (fileProgram e o.t.ctx) }, prog := o'.t.prog } } := by
  have he := initProgs_eq hn hf.2 (by omega)
  have hsnd := initProgs_ctx_sound (e := e) hs
  rw [he] at hsnd
  refine ⟨_, he, ⟨hsnd, hn, hr, ?_, fun f => ?_, ?_, ?_, ?_, hle⟩, rfl⟩
  · funext w
    show programsOf _ _ _ _ _ w = _
    rw [hl]
    unfold progAt
    cases o.opt <;> cases w <;> simp [programsOf, fileOf, fileIndex]
  · show (o.t.ctx.programs ++ FILES.map (fileProgram e o.t.ctx))[_]? = _
    rw [List.getElem?_append_right (by omega), hl]
    cases f <;> simp [fileIndex, FILES] <;> rfl
  · obtain ⟨p, h2, h3, h4⟩ := h1
    refine ⟨p, ?_, h3, h4⟩
    show (o.t.ctx.programs ++ FILES.map (fileProgram e o.t.ctx))[_]? = _
    rw [List.getElem?_append_left (by omega)]
    exact h2
  · intro p hp
    have hp : p ∈ o.t.ctx.programs ++ FILES.map (fileProgram e o.t.ctx) := hp
    rw [List.mem_append] at hp
    rcases hp with hp | hp
    · exact ho p hp
    · obtain ⟨f, -, rfl⟩ := List.mem_map.1 hp
      exact fileOptions_ne e _ f
  · show (o.t.ctx.programs ++ FILES.map (fileProgram e o.t.ctx)).length = _
    rw [List.length_append, hl]
    rfl

theorem stocked_initAll {e : Env} {o : Obj} (hs : Sound o.t.ctx) (hn : o.t.ctx.hasNode = false) (hf : AllFiles e o.t.ctx)
    (hle : o.t.ctx.programs.length + 7 ≤ ILLEGAL) (ho : ∀ p ∈ o.t.ctx.programs, p.options ≠ "") :
    ∃ o', o.initAllProgs e = (true, o') ∧ Stocked e o' o.opt o.t.ctx.programs.length ∧
      o' = { o with t := { o.t with
        ctx := { o.t.ctx with programs := o'.t.ctx.programs, remapProgram := o.t.ctx.programs.length }
        prog := o'.t.prog } } := by
  have he := initPrograms_eq hn hf.1
  have hs1 := Sound.initPrograms hs e hn
  have hn1 := (initPrograms_hasNode o.t.ctx e).trans hn
  unfold Obj.initAllProgs
  rw [he] at hs1 hn1 ⊢
  obtain ⟨o', h1, h2, h3⟩ := stocked_initProgs (e := e) (n := o.t.ctx.programs.length)
    (o := { o with t := { o.t with ctx := { o.t.ctx with
      programs := o.t.ctx.programs ++ [⟨o.t.ctx.remapPath, remapSrc e o.t.ctx, o.t.ctx.remapOptions e, [], false⟩]
      remapProgram := o.t.ctx.programs.length } } }) hs1 hn1 hf (by simp) rfl hle
    ⟨⟨o.t.ctx.remapPath, remapSrc e o.t.ctx, o.t.ctx.remapOptions e, [], false⟩, by simp, rfl, rfl⟩ (by
        intro p hp
        have hp : p ∈ o.t.ctx.programs ++ _ := hp
        rw [List.mem_append, List.mem_singleton] at hp
        rcases hp with hp | rfl
        · exact ho p hp
        · exact remapOptions_ne e _)
  refine ⟨o', h1, h2, ?_⟩
  have hp := congrArg (fun o : Obj => o.t.ctx.programs) h3
  simp only at hp
  rw [hp]
  exact h3

/-- The files a context needs that is not in debug mode. -/
def Setup.Files (s : Setup) : Prop := AllFiles s.env (make s.env s.nodes)

theorem make_programs {s : Setup} (hf : Setup.Files s) :
    (make s.env s.nodes).programs = [⟨(make s.env s.nodes).remapPath, remapSrc s.env (make s.env s.nodes),
      (base s.env s.nodes).remapOptions s.env, [], false⟩] ∧ (make s.env s.nodes).remapProgram = 0 := by
  have hbs := base_hasNode s.env s.nodes
  have hbase : (base s.env s.nodes).programs = [] := by rw [base_members]
  have hrs : remapSrc s.env (base s.env s.nodes) ≠ "" := by
    have := hf.1
    unfold remapSrc at this ⊢
    unfold make Ctx.initPrograms at this
    simp only at this
    rw [addFile_members] at this
    exact this
  have hm : make s.env s.nodes = _ := initPrograms_eq hbs hrs
  rw [hbase] at hm
  rw [hm]
  exact ⟨rfl, rfl⟩

theorem stocked_build {s : Setup} (hf : Setup.Files s) (a : Option Nat) (opt : Bool) :
    Stocked s.env (s.build ⟨newTracker s a, opt⟩) opt 0 ∧ (s.build ⟨newTracker s a, opt⟩).opt = opt ∧
      (s.build ⟨newTracker s a, opt⟩).t = { newTracker s a with
        ctx := { setMacros s.value FLAG_MACROS (make s.env s.nodes) with
          programs := (make s.env s.nodes).programs ++
            FILES.map (fileProgram s.env (setMacros s.value FLAG_MACROS (make s.env s.nodes))) }
        prog := (s.build ⟨newTracker s a, opt⟩).t.prog } := by
  have hmp := make_programs hf
  have hmn := make_hasNode s.env s.nodes
  have hsm := Sound.make s.env s.nodes
  have hne := remapOptions_ne s.env (base s.env s.nodes)
  unfold Setup.Files at hf
  have hnt : newTracker s a = { newTracker s a with ctx := make s.env s.nodes } := rfl
  generalize (base s.env s.nodes).remapOptions s.env = ro at *
  generalize hmd : make s.env s.nodes = m at *
  have hc := setMacros_members s.value FLAG_MACROS m
  have hsc := Sound.setMacros s.value FLAG_MACROS hsm
  generalize hcd : setMacros s.value FLAG_MACROS m = c at *
  obtain ⟨o', h1, h2, h3⟩ := stocked_initProgs (e := s.env) (n := 0) (o := ⟨{ newTracker s a with ctx := c }, opt⟩)
    hsc (by rw [hc]; exact hmn) (by rw [hc]; exact hf) (by rw [hc]; simp [hmp.1]) (by rw [hc]; exact hmp.2) (by decide)
    ⟨⟨m.remapPath, remapSrc s.env m, ro, [], false⟩, by rw [hc]; simp [hmp.1], by rw [hc]; rfl, by rw [hc]; rfl⟩
    (by rw [hc]; simp [hmp.1, hne])
  have hb : s.build ⟨newTracker s a, opt⟩ = o' := by
    unfold Setup.build
    show (Obj.initProgs s.env ⟨{ newTracker s a with ctx := setMacros s.value FLAG_MACROS (make s.env s.nodes) }, opt⟩).2 = o'
    rw [hmd, hcd, h1]
  rw [hb]
  refine ⟨h2, by rw [h3], ?_⟩
  have hp : c.programs = m.programs := by rw [hc]
  rw [h3]
  simp only
  rw [hp]

end SixTrack
