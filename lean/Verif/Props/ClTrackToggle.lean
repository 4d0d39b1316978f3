import Verif.Props.ClTrackSelect

/-!
# C96: changing the programs of an OpenCL context for tracking
-/

namespace SixTrack
open ClContext ClRun ClTrack

/-! ## Programs that are made again -/

/-- The context has been cleared and its programs have been made twice: nothing else but the context and the ids of the
programs is another. -/
structure Remade (e : Env) (o o' : Obj) (on : Bool) : Prop where
  stocked : Stocked e o' on 7
  opt : o'.opt = on
  ctx : o'.t.ctx = { o.t.ctx with
    clPrograms := [], kernels := [], selected := -1, remapKernel := ILLEGAL, remapProgram := 7, programs := o'.t.ctx.programs }
  programs : o'.t.ctx.programs = (⟨o.t.ctx.remapPath, remapSrc e o.t.ctx, o.t.ctx.remapOptions e, [], false⟩ ::
      List.map (fileProgram e o.t.ctx) FILES) ++
    ⟨o.t.ctx.remapPath, remapSrc e o.t.ctx, o.t.ctx.remapOptions e, [], false⟩ :: List.map (fileProgram e o.t.ctx) FILES
  tracker : o'.t = { o.t with ctx := o'.t.ctx, execs := [], prog := o'.t.prog }

theorem initAll_eq {e : Env} {o : Obj} (hn : o.t.ctx.hasNode = false) (hf : AllFiles e o.t.ctx)
    (hle : o.t.ctx.programs.length + 7 ≤ ILLEGAL) :
    (o.initAllProgs e).2.t.ctx.programs = o.t.ctx.programs ++
      ⟨o.t.ctx.remapPath, remapSrc e o.t.ctx, o.t.ctx.remapOptions e, [], false⟩ :: List.map (fileProgram e o.t.ctx) FILES := by
  have he := initPrograms_eq hn hf.1
  have hn1 := (initPrograms_hasNode o.t.ctx e).trans hn
  unfold Obj.initAllProgs
  rw [he] at hn1 ⊢
  have := initProgs_eq (e := e) (o := ⟨{ o.t with ctx := { o.t.ctx with
    programs := o.t.ctx.programs ++ [⟨o.t.ctx.remapPath, remapSrc e o.t.ctx, o.t.ctx.remapOptions e, [], false⟩]
    remapProgram := o.t.ctx.programs.length } }, o.opt⟩) hn1 hf.2 (by simp; omega)
  refine (congrArg (fun x : Bool × Obj => x.2.t.ctx.programs) this).trans ?_
  simp only [List.append_assoc, List.singleton_append]
  rfl

theorem remade_spec {e : Env} {o : Obj} (hf : AllFiles e o.t.ctx) (on : Bool) :
    ∃ o', (Obj.initAllProgs e { o.clear e with opt := on }).2 = o' ∧ Remade e o o' on := by
  let d : Obj := { o with t := o.t.onto o.t.ctx.doClear }
  have hd : o.clear e = (d.initAllProgs e).2 := rfl
  have hdf : AllFiles e d.t.ctx := hf
  have hdn : d.t.ctx.hasNode = false := doClear_hasNode o.t.ctx
  have hd0 : d.t.ctx.programs = [] := rfl
  obtain ⟨a, a1, a2, a3⟩ := stocked_initAll (e := e) (o := d) (Sound.doClear o.t.ctx) hdn hdf
    (by rw [hd0]; decide) (by simp [hd0])
  have ap := initAll_eq (e := e) (o := d) hdn hdf (by rw [hd0]; decide)
  rw [hd, a1]
  rw [a1] at ap
  have hac : a.t.ctx = { d.t.ctx with programs := a.t.ctx.programs, remapProgram := 0 } := congrArg (fun o : Obj => o.t.ctx) a3
  have hal := a2.length
  simp only at ap hal ⊢
  let a' : Obj := { a with opt := on }
  have haf : AllFiles e a'.t.ctx := by
    show AllFiles e a.t.ctx
    rw [hac]
    exact hf
  have hl7 : a'.t.ctx.programs.length = 7 := hal
  obtain ⟨b, b1, b2, b3⟩ := stocked_initAll (e := e) (o := a') a2.sound a2.node haf (by rw [hl7]; decide) a2.options
  have bp := initAll_eq (e := e) (o := a') a2.node haf (by rw [hl7]; decide)
  rw [b1] at bp
  rw [hl7] at b2
  have hbc : b.t.ctx = { a'.t.ctx with programs := b.t.ctx.programs, remapProgram := 7 } := by
    have := congrArg (fun o : Obj => o.t.ctx) b3
    simp only at this
    rw [hl7] at this
    exact this
  refine ⟨b, by show (a'.initAllProgs e).2 = b; rw [b1], b2, by rw [b3], ?_, ?_, ?_⟩
  · rw [hbc]
    show { a.t.ctx with programs := b.t.ctx.programs, remapProgram := 7 } = _
    rw [hac]
    rfl
  · simp only at bp
    rw [bp]
    show a.t.ctx.programs ++ ⟨a.t.ctx.remapPath, remapSrc e a.t.ctx, a.t.ctx.remapOptions e, [], false⟩ ::
      List.map (fileProgram e a.t.ctx) FILES = _
    rw [ap, hac]
    rfl
  · have hb : b.t = { a.t with ctx := b.t.ctx, prog := b.t.prog } := by
      rw [b3]
    have ha : a.t = { o.t with ctx := a.t.ctx, execs := [], prog := a.t.prog } := by
      rw [a3]
      rfl
    rw [hb, ha]

theorem clear_opt (e : Env) (o : Obj) : (o.clear e).opt = o.opt := by
  have h : ∀ o : Obj, (o.initProgs e).2.opt = o.opt := fun o => by
    unfold Obj.initProgs
    simp only
    generalize addProgram e o.t.ctx o.t.ctx .track = a
    generalize addProgram e o.t.ctx a.2 .trackOpt = b
    generalize addProgram e o.t.ctx b.2 .mon = c
    generalize addProgram e o.t.ctx c.2 .elem = d
    generalize addProgram e o.t.ctx d.2 .fetch = f
    generalize addProgram e o.t.ctx f.2 .addr = g
    split_ifs <;> rfl
  exact h _

theorem same_opt {o : Obj} {b : Bool} (h : b = o.opt) : ({ o with opt := b } : Obj) = o := by
  subst h
  rfl

/-! ## Optimised tracking -/

/-- What `initAllKerns` does without a node. -/
theorem initAllKerns_none {e : Env} {o : Obj} (hn : o.t.ctx.hasNode = false) (hk : o.t.ctx.kernels = []) (hx : o.t.execs = []) :
    o.initAllKerns e = .ok (false, o) := by
  obtain ⟨t, opt⟩ := o
  unfold Obj.initAllKerns Obj.initRemap Ctx.initKernels
  simp only at *
  rw [hn]
  simp only [Bool.false_eq_true, false_and, if_false]
  rw [hk, hx]
  obtain ⟨ctx, execs⟩ := t
  simp only at *
  subst hx
  rfl

/-- Optimised tracking can be switched on and off while there is no node: the programs for it, or those for normal tracking, are
chosen; all programs are made twice.  With a node, and if nothing is to be changed, nothing happens. -/
theorem C96_opt {e : Env} {o : Obj} (on : Bool) :
    (o.t.ctx.hasNode = true ∨ o.opt = on → o.setOpt e on = .ok o) ∧
    (o.t.ctx.hasNode = false → o.opt ≠ on → AllFiles e o.t.ctx →
      ∃ o', o.setOpt e on = .ok o' ∧ Remade e o o' on ∧
        ∀ w, ∃ i p, o'.t.prog w = some i ∧ o'.t.ctx.programs[i]? = some p ∧
          p.path = o.t.ctx.kernelDir ++ fileName o.t.ctx.debug (fileOf on w)) := by
  constructor
  · intro h
    unfold Obj.setOpt
    rw [if_neg]
    rintro ⟨h1, h2⟩
    rcases h with h | h
    · rw [h] at h2; cases h2
    · exact h1 h
  · intro hn ho hf
    obtain ⟨o', h1, h2⟩ := remade_spec hf on
    refine ⟨o', ?_, h2, fun w => ⟨_, _, congrFun h2.stocked.prog w, h2.stocked.file (fileOf on w), ?_⟩⟩
    · unfold Obj.setOpt
      rw [if_pos ⟨ho, hn⟩, h1, initAllKerns_none h2.stocked.node (by rw [h2.ctx]) (by rw [h2.tracker])]
      rfl
    · show o'.t.ctx.kernelDir ++ fileName o'.t.ctx.debug (fileOf on w) = _
      rw [h2.ctx]

/-- a context with optimised tracking, without a node -/
theorem clOpt : ∃ o, clSetup.new.setOpt clSetup.env true = .ok o ∧ Remade clSetup.env clSetup.new o true := by
  obtain ⟨h1, h2, h3⟩ := clSetup_new
  obtain ⟨o, k1, k2, -⟩ := (C96_opt (e := clSetup.env) (o := clSetup.new) true).2 h1.node (by simp [h2]) (clSetup_files _)
  exact ⟨o, k1, k2⟩

/-- A node of AMD that is selected after optimised tracking has been switched on gets the kernels for normal tracking, from
their program. -/
theorem C96_select_amd {s : Setup} {o : Obj} {i : Nat} (hn : o.t.ctx.hasNode = false) (hf : AllFiles s.env o.t.ctx)
    (hu : NodeWorks s.env i) (hi : i < o.t.ctx.nodes.length) (ha : Suits s { o with opt := false } false i) (hopt : o.opt = true)
    (hamd : s.amd i = true) :
    ∃ o1 o', Remade s.env o o1 false ∧ s.selectNode o i = s.selectNode o1 i ∧ s.selectNode o1 i = .ok (true, o') ∧
      Fitted o1 o' i (progAt false 7) ∧ o'.opt = false := by
  obtain ⟨o1, h1, h2, -⟩ := (C96_opt (e := s.env) (o := o) false).2 hn (by rw [hopt]; simp) hf
  have hc := h2.ctx
  have hi' : i < o1.t.ctx.nodes.length := by rw [hc]; exact hi
  have ha' : Suits s o1 false i := by
    have := h2.opt
    obtain ⟨t, opt⟩ := o1
    simp only at this
    subst this
    unfold Suits at ha ⊢
    simp only at hc ⊢ ha
    rw [hc]
    exact ha
  have hoff : o1.opt = true → s.amd i = false := by rw [h2.opt]; simp
  obtain ⟨o', k1, k2, -⟩ := C96_select h2.stocked hu hi' ha' hoff
  refine ⟨o1, o', h2, ?_, k1, k2, k2.opt.trans h2.opt⟩
  have : s.select o i = s.select o1 i := by
    rw [select_plain hoff]
    unfold Setup.select
    have hia : s.isAmd o.t.ctx i = true := by
      unfold Setup.isAmd
      simp [hi, hamd]
    rw [if_pos ⟨hopt, hia⟩, h1]
    rfl
  unfold Setup.selectNode
  rw [this]

example : ∃ o o', clSetup.new.setOpt clSetup.env true = .ok o ∧ o.opt = true ∧ clSetup.selectNode o 1 = .ok (true, o') ∧
    o'.opt = false := by
  obtain ⟨o, h1, h2⟩ := clOpt
  obtain ⟨o1, o', k1, k2, k3, k4, k5⟩ := C96_select_amd (s := clSetup) (o := o) (i := 1) h2.stocked.node (clSetup_files _)
    (clSetup_usable 1) (by rw [h2.ctx]; show 1 < clSetup.new.t.ctx.nodes.length; rw [clSetup_new.2.2]; decide)
    (clSetup_suits _ _ _) h2.opt rfl
  exact ⟨o, o', h1, h2.opt, k2.trans k3, k5⟩

/-! ## Debug mode -/

/-- Debug mode can be changed while there is no node; then the programs are made from the other files. -/
theorem C96_debug {e : Env} {o : Obj} (on : Bool) :
    (o.t.ctx.hasNode = true ∨ o.t.ctx.debug = on → o.setDebug e on = o) ∧
    (o.t.ctx.hasNode = false → o.t.ctx.debug ≠ on → AllFiles e { o.t.ctx with debug := on } →
      Remade e { o with t := { o.t with ctx := { o.t.ctx with debug := on } } } (o.setDebug e on) o.opt ∧
      ∀ w, ∃ i p, (o.setDebug e on).t.prog w = some i ∧ (o.setDebug e on).t.ctx.programs[i]? = some p ∧
        p.path = o.t.ctx.kernelDir ++ fileName on (fileOf o.opt w)) := by
  constructor
  · intro h
    unfold Obj.setDebug
    rw [if_neg]
    rintro ⟨h1, h2⟩
    rcases h with h | h
    · rw [h] at h2; cases h2
    · exact h1 h
  · intro hn ho hf
    obtain ⟨o', h1, h2⟩ := remade_spec (o := { o with t := { o.t with ctx := { o.t.ctx with debug := on } } }) hf o.opt
    have he : o.setDebug e on = o' := by
      unfold Obj.setDebug
      rw [if_pos ⟨ho, hn⟩, ← h1, same_opt]
      rw [clear_opt]
    rw [he]
    refine ⟨h2, fun w => ⟨_, _, congrFun h2.stocked.prog w, h2.stocked.file (fileOf o.opt w), ?_⟩⟩
    show o'.t.ctx.kernelDir ++ fileName o'.t.ctx.debug (fileOf o.opt w) = _
    rw [h2.ctx]

example : Stocked clSetup.env (clSetup.new.setDebug clSetup.env true) false 7 := by
  obtain ⟨h1, h2, h3⟩ := clSetup_new
  have hd : clSetup.new.t.ctx.debug = false := by
    show (clSetup.build ⟨newTracker clSetup none, false⟩).t.ctx.debug = false
    rw [build_eq (s := clSetup) (clSetup_files _) none false]
    exact (freshCtx_members clSetup).2.2.1
  have := ((C96_debug (e := clSetup.env) (o := clSetup.new) true).2 h1.node (by simp [hd]) (clSetup_files _)).1.stocked
  rw [h2] at this
  exact this

/-! ## Beam-beam elements -/

theorem reinit_spec {e : Env} {o : Obj} (hn : o.t.ctx.hasNode = false) (hf : AllFiles e o.t.ctx) :
    ∃ o', o.reinit e = .ok (true, o') ∧ Remade e o o' o.opt := by
  obtain ⟨o', h1, h2⟩ := remade_spec hf o.opt
  rw [same_opt (clear_opt e o).symm] at h1
  refine ⟨o', ?_, h2⟩
  unfold Obj.reinit
  rw [hn, if_neg (by simp), h1, initAllKerns_none h2.stocked.node (by rw [h2.ctx]) (by rw [h2.tracker])]
  rfl

theorem setFlag_twice (c : Ctx) (n v n' v' : String) :
    (c.setFlag n v).setFlag n' v' = { c with flags := ((c.setFlag n v).setFlag n' v').flags } := by
  unfold Ctx.setFlag
  split_ifs <;> rfl

/-- If there is no feature flag for beam-beam elements yet, they can be enabled, skipped or disabled: the flags get the value,
and the programs are made with it.  Missing: a context whose flags are there (`C96_beam_beam_violated`). -/
theorem C96_beam_beam_partial {e : Env} {o : Obj} (hn : o.t.ctx.hasNode = false) (hf : AllFiles e o.t.ctx)
    (h4 : o.t.ctx.flag "SIXTRL_TRACK_BEAMBEAM4D" = none) (h6 : o.t.ctx.flag "SIXTRL_TRACK_BEAMBEAM6D" = none) (v : String) :
    ∃ o', o.setBeamBeam e v = .ok o' ∧ o'.t.ctx.flag "SIXTRL_TRACK_BEAMBEAM4D" = some v ∧
      o'.t.ctx.flag "SIXTRL_TRACK_BEAMBEAM6D" = some v ∧ beamBeam o'.t.ctx = (v == "2") ∧ o'.opt = o.opt ∧
      ∀ w, ∃ i p, o'.t.prog w = some i ∧ o'.t.ctx.programs[i]? = some p ∧
        p.options = fileOptions e o'.t.ctx (fileOf o.opt w) := by
  let c := (o.t.ctx.setFlag "SIXTRL_TRACK_BEAMBEAM4D" v).setFlag "SIXTRL_TRACK_BEAMBEAM6D" v
  have hc : c = { o.t.ctx with flags := c.flags } := setFlag_twice _ _ _ _ _
  have f4 : c.flag "SIXTRL_TRACK_BEAMBEAM4D" = some v := by
    show Ctx.flag (Ctx.setFlag (Ctx.setFlag _ _ _) _ _) _ = _
    rw [flag_setFlag _ _ _ _ (by decide), flag_setFlag _ _ _ _ (by decide), h4, if_pos rfl]
    rfl
  have f6 : c.flag "SIXTRL_TRACK_BEAMBEAM6D" = some v := by
    show Ctx.flag (Ctx.setFlag (Ctx.setFlag _ _ _) _ _) _ = _
    rw [flag_setFlag _ _ _ _ (by decide), flag_setFlag _ _ _ _ (by decide), h6, if_pos rfl]
    rfl
  obtain ⟨o', h1, h2⟩ := reinit_spec (e := e) (o := { o with t := { o.t with ctx := c } })
    (by show c.hasNode = _; rw [hc]; exact hn) (by show AllFiles e c; rw [hc]; exact hf)
  have k4 : o'.t.ctx.flag "SIXTRL_TRACK_BEAMBEAM4D" = some v := by rw [h2.ctx]; exact f4
  have k6 : o'.t.ctx.flag "SIXTRL_TRACK_BEAMBEAM6D" = some v := by rw [h2.ctx]; exact f6
  refine ⟨o', ?_, k4, k6, ?_, h2.opt, fun w => ⟨_, _, congrFun h2.stocked.prog w, h2.stocked.file (fileOf o.opt w), rfl⟩⟩
  · unfold Obj.setBeamBeam
    rw [if_pos hn, h1]
    rfl
  · unfold beamBeam
    have hf4 : o'.t.ctx.hasFlag "SIXTRL_TRACK_BEAMBEAM4D" = true := by
      have : o'.t.ctx.hasFlag "SIXTRL_TRACK_BEAMBEAM4D" = (o'.t.ctx.flag "SIXTRL_TRACK_BEAMBEAM4D").isSome := by
        unfold Ctx.hasFlag Ctx.flag
        rfl
      rw [this, k4]
      rfl
    have hf6 : o'.t.ctx.hasFlag "SIXTRL_TRACK_BEAMBEAM6D" = true := by
      have : o'.t.ctx.hasFlag "SIXTRL_TRACK_BEAMBEAM6D" = (o'.t.ctx.flag "SIXTRL_TRACK_BEAMBEAM6D").isSome := by
        unfold Ctx.hasFlag Ctx.flag
        rfl
      rw [this, k6]
      rfl
    rw [hf4, hf6, k4, k6]
    simp [MAP_ENABLED]

/-- the same library without macros -/
def clPlain : Setup := { clSetup with value := fun _ => none }

example : ∃ o', clPlain.new.setBeamBeam clPlain.env "0" = .ok o' ∧ beamBeam o'.t.ctx = false := by
  have hf : Setup.Files clPlain := clSetup_files _
  obtain ⟨g1, g2, -⟩ := stocked_build hf none false
  have hcx := build_eq hf none false
  have hnew : clPlain.build ⟨newTracker clPlain none, false⟩ = clPlain.new := rfl
  rw [hnew] at g1 hcx
  have hfl : ∀ m, m = "SIXTRL_TRACK_BEAMBEAM4D" ∨ m = "SIXTRL_TRACK_BEAMBEAM6D" → clPlain.new.t.ctx.flag m = none := by
    intro m hm
    rw [hcx]
    show (freshCtx clPlain).flag _ = _
    rcases hm with rfl | rfl
    all_goals
      rw [freshCtx_flag _ _ (by decide)]
      rfl
  obtain ⟨o', k1, -, -, k2, -⟩ := C96_beam_beam_partial (e := clPlain.env) g1.node (clSetup_files _) (hfl _ (.inl rfl))
    (hfl _ (.inr rfl)) "0"
  exact ⟨o', k1, by rw [k2]; rfl⟩

/-- The library defines both macros (common/generated/config.h.template:29-37), so that a new context has both flags.  Then
neither enabling nor skipping nor disabling beam-beam elements has an effect on the flags or on the programs. -/
theorem C96_beam_beam_violated {s : Setup} (hf : Setup.Files s) {a b : String}
    (h4 : s.value "SIXTRL_TRACK_BEAMBEAM4D" = some a) (h6 : s.value "SIXTRL_TRACK_BEAMBEAM6D" = some b) (v : String) :
    ∃ o', s.new.setBeamBeam s.env v = .ok o' ∧ o'.t.ctx.flags = s.new.t.ctx.flags ∧
      o'.t.ctx.flag "SIXTRL_TRACK_BEAMBEAM4D" = some a ∧ o'.t.ctx.flag "SIXTRL_TRACK_BEAMBEAM6D" = some b ∧
      beamBeam o'.t.ctx = beamBeam s.new.t.ctx ∧
      ∀ w, ∃ i p, o'.t.prog w = some i ∧ o'.t.ctx.programs[i]? = some p ∧
        p.options = fileOptions s.env (freshCtx s) (fileOf false w) := by
  obtain ⟨g1, g2, -⟩ := stocked_build hf none false
  have hcx := build_eq hf none false
  have hnew : s.build ⟨newTracker s none, false⟩ = s.new := rfl
  rw [hnew] at g1 g2 hcx
  have k4 : s.new.t.ctx.flag "SIXTRL_TRACK_BEAMBEAM4D" = some a := by
    rw [hcx]
    show (freshCtx s).flag _ = _
    rw [freshCtx_flag s _ (by decide), h4]
    rfl
  have k6 : s.new.t.ctx.flag "SIXTRL_TRACK_BEAMBEAM6D" = some b := by
    rw [hcx]
    show (freshCtx s).flag _ = _
    rw [freshCtx_flag s _ (by decide), h6]
    rfl
  have hsame : (s.new.t.ctx.setFlag "SIXTRL_TRACK_BEAMBEAM4D" v).setFlag "SIXTRL_TRACK_BEAMBEAM6D" v = s.new.t.ctx := by
    rw [(C90_flag_violated _ _ v a k4).1, (C90_flag_violated _ _ v b k6).1]
  have haf : AllFiles s.env s.new.t.ctx := by
    unfold Setup.Files at hf
    have hm := make_members s.env s.nodes
    have hfm := freshCtx_members s
    rw [hcx]
    unfold AllFiles remapSrc Ctx.remapPath at hf ⊢
    rw [hm.2.1, hm.2.2.1] at hf
    simp only
    rw [hfm.2.1, hfm.2.2.1]
    exact hf
  obtain ⟨o', h1, h2⟩ := reinit_spec (e := s.env) (o := s.new) g1.node haf
  have hfl : o'.t.ctx.flags = s.new.t.ctx.flags := by rw [h2.ctx]
  have hflag : ∀ n, o'.t.ctx.flag n = s.new.t.ctx.flag n := fun n => by unfold Ctx.flag; rw [hfl]
  have hhas : ∀ n, o'.t.ctx.hasFlag n = s.new.t.ctx.hasFlag n := fun n => by unfold Ctx.hasFlag; rw [hfl]
  refine ⟨o', ?_, hfl, by rw [hflag, k4], by rw [hflag, k6], ?_, fun w => ?_⟩
  · unfold Obj.setBeamBeam
    rw [if_pos g1.node, hsame]
    have : ({ s.new with t := { s.new.t with ctx := s.new.t.ctx } } : Obj) = s.new := rfl
    rw [this, h1]
    rfl
  · unfold beamBeam
    rw [hflag, hflag, hhas, hhas]
  · refine ⟨_, _, congrFun h2.stocked.prog w, h2.stocked.file (fileOf s.new.opt w), ?_⟩
    show fileOptions s.env o'.t.ctx (fileOf s.new.opt w) = _
    rw [g2, h2.ctx, hcx]
    cases (fileOf false w) <;> rfl

example : ∃ o', clSetup.new.setBeamBeam clSetup.env "1" = .ok o' ∧
    o'.t.ctx.flag "SIXTRL_TRACK_BEAMBEAM4D" = some "2" := by
  obtain ⟨o', h1, -, h2, -⟩ := C96_beam_beam_violated (s := clSetup) (clSetup_files _) (a := "2") (b := "0") rfl rfl "1"
  exact ⟨o', h1, h2⟩

/-! ## Selecting a node without a source file -/

theorem initAllKerns_missing {e : Env} {o : Obj} (h1 : o.t.prog .turn = some ILLEGAL)
    (hn : (o.t.ctx.initKernels e).2.hasNode = true) (hl : (o.t.ctx.initKernels e).2.programs.length ≤ 7) :
    ∃ r, o.initAllKerns e = .ok (false, r) ∧ r.t.ctx = (o.t.ctx.initKernels e).2 ∧ r.t.kernel = o.t.kernel := by
  have hx : (o.initRemap e).2.t.ctx = (o.t.ctx.initKernels e).2 := rfl
  have hk : (o.initRemap e).2.t.kernel = o.t.kernel := rfl
  have hp : (o.initRemap e).2.t.prog = o.t.prog := rfl
  unfold Obj.initAllKerns
  simp only
  rw [← hx] at hn hl ⊢
  rw [← hk]
  rw [← hp] at h1
  generalize o.initRemap e = x at *
  obtain ⟨b, y⟩ := x
  cases b with
  | false => exact ⟨y, rfl, rfl, rfl⟩
  | true =>
    refine ⟨y, ?_, rfl, rfl⟩
    have : ¬ ILLEGAL < y.t.ctx.programs.length := by
      have : (7 : Nat) ≤ ILLEGAL := by decide
      simp only at hl
      omega
    simp only [if_true] at h1 hn ⊢
    unfold Obj.initKerns Obj.enableFirst
    rw [if_pos hn, h1]
    simp only [ClTrack.read, Res.ok_bind, if_neg this, Res.pure_eq, Bool.false_eq_true, if_false]

/-- If a source file other than the one for fetching addresses cannot be read, selecting a node for a new context fails, but
the node stays selected, and the id of the kernel for tracking has never been written. -/
theorem C96_select_missing_violated {s : Setup} {f : File} (hf : f ≠ .fetch) (hm : srcOf s.env s.env.kernelDir false f = "")
    {i : Nat} (hu : NodeWorks s.env i) (hi : i < s.nodes.length) :
    ∃ o', s.selectNode s.new i = .ok (false, o') ∧ o'.t.ctx.hasNode = true ∧ o'.t.ctx.selected = i ∧ o'.t.id .turn = .ub := by
  obtain ⟨hp, h1, h2⟩ := build_missing hf hm none false
  have hnew : s.build ⟨newTracker s none, false⟩ = s.new := rfl
  have hopt : s.new.opt = false := by
    have h : ∀ o : Obj, (o.initProgs s.env).2.opt = o.opt := fun o => by
      unfold Obj.initProgs
      simp only
      generalize addProgram s.env o.t.ctx o.t.ctx .track = a
      generalize addProgram s.env o.t.ctx a.2 .trackOpt = b
      generalize addProgram s.env o.t.ctx b.2 .mon = c
      generalize addProgram s.env o.t.ctx c.2 .elem = d
      generalize addProgram s.env o.t.ctx d.2 .fetch = f
      generalize addProgram s.env o.t.ctx f.2 .addr = g
      split_ifs <;> rfl
    exact h _
  rw [hnew] at hp h1 h2
  generalize s.new = o at *
  obtain ⟨t, opt⟩ := o
  simp only at *
  have hil : i < t.ctx.nodes.length := by rw [hp.nodes]; exact hi
  have hc : CanSelect s.env t.ctx i := ⟨hp.node, hil, hu.writes, fun p h => ⟨hp.options p h, hu.builds _ _⟩⟩
  have hk := selectBase_ok.2 hc
  have he := selectBase_eq hc
  have hsel : Obj.selectPlain s.env ⟨t, opt⟩ i = (true,
      ⟨{ t.onto (t.ctx.selectBase s.env i).2 with flags := { t.flags with device := 0 } }, opt⟩) := by
    unfold Obj.selectPlain
    rw [if_pos ⟨hp.node, hil, hu.writes⟩]
    simp only
    rw [hk]
  have hn2 : ((t.ctx.selectBase s.env i).2.initKernels s.env).2.hasNode = true := by
    rw [(NodeKept.initKernels _ s.env).hasNode, he]
    unfold Ctx.hasNode
    simp [hil]
  have hs2 : ((t.ctx.selectBase s.env i).2.initKernels s.env).2.selected = i := by
    rw [(NodeKept.initKernels _ s.env).2, he]
  have hl : ((t.ctx.selectBase s.env i).2.initKernels s.env).2.programs.length ≤ 7 := by
    rw [initKernels_programs, he]
    simpa using hp.length
  have hub : ∀ o : Obj, o.t.ctx.hasNode = true → o.t.kernel .turn = none → o.t.id .turn = .ub := fun o hn hk => by
    show o.t.idIf .turn .turn = .ub
    unfold Tracker.idIf Tracker.has
    rw [if_pos hn, hk]
    rfl
  obtain ⟨r, r1, r2, r3⟩ := initAllKerns_missing (e := s.env)
    (o := ⟨{ t.onto (t.ctx.selectBase s.env i).2 with flags := { t.flags with device := 0 } }, opt⟩) h1 hn2 hl
  refine ⟨r, ?_, by rw [r2]; exact hn2, by rw [r2]; exact hs2, hub r (by rw [r2]; exact hn2) (by rw [r3]; exact h2)⟩
  unfold Setup.selectNode
  rw [select_plain (by simp [hopt]), hsel, Res.ok_bind]
  simp only [if_true]
  rw [r1]
  rfl

example : ∃ o', clBare.selectNode clBare.new 0 = .ok (false, o') ∧ o'.t.ctx.hasNode = true := by
  obtain ⟨o', h1, h2, -⟩ := C96_select_missing_violated (s := clBare) (f := .addr) (by decide) (by decide +kernel) (i := 0)
    ⟨rfl, fun _ _ => rfl⟩ (by decide)
  exact ⟨o', h1, h2⟩

end SixTrack
