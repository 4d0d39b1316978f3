import Verif.Props.ClTrackMade

/-!
# C96: constructors without a node, with a text that names none, and without a source file
-/

namespace SixTrack
open ClContext ClRun ClTrack

/-! ## Nodes that are not there -/

/-- With an index that is not the index of a node, the constructor gives a context without a node; optimised tracking is
chosen. -/
theorem C96_out_of_range {s : Setup} (hf : Setup.Files s) {i : Nat} (hi : s.nodes.length ≤ i) :
    ∃ o, s.newAt i = .ok o ∧ o.t.ctx.hasNode = false ∧ o.opt = true ∧ o.t.ctx.kernels = [] ∧
      o.t.prog .turn = some 2 ∧ o.t.prog .line = some 2 ∧ o.t.prog .elem = some 2 := by
  obtain ⟨h1, h2, -⟩ := stocked_build hf none true
  have hcx := build_eq hf none true
  have hn := (freshCtx_members s).2.2.2
  refine ⟨_, ?_, h1.node, h2, ?_, ?_, ?_, ?_⟩
  · unfold Setup.newAt
    have : s.isAmd (make s.env s.nodes) i = false := by
      unfold Setup.isAmd
      rw [make_nodes]
      simp [Nat.not_lt.2 hi]
    rw [this]
    unfold Setup.place
    rw [if_neg]
    · rfl
    · show ¬ i < (s.build ⟨newTracker s none, true⟩).t.ctx.nodes.length
      rw [hcx]
      show ¬ i < (freshCtx s).nodes.length
      rw [hn.1]
      omega
  · rw [hcx]
    exact hn.2
  all_goals
    rw [h1.prog]
    rfl

example : ∃ o, clSetup.newAt 2 = .ok o ∧ o.t.ctx.hasNode = false ∧ o.opt = true := by
  obtain ⟨o, h1, h2, h3, -⟩ := C96_out_of_range (s := clSetup) (clSetup_files _) (i := 2) (by decide)
  exact ⟨o, h1, h2, h3⟩

/-- With a text that names no node, the first node is taken; but whether it belongs to AMD is not looked at again: it gets the
kernels for optimised tracking. -/
theorem C96_default_violated {s : Setup} (hf : Setup.Files s) {id : Option NodeId} {n : NodeId} {ns : List NodeId}
    (hns : s.nodes = n :: ns) (hp : 0 ≤ n.platform ∧ 0 ≤ n.device) (hno : s.nodes.length ≤ (make s.env s.nodes).findNodeStr id)
    (hu : NodeWorks s.env 0) (ha : Arities s 0 true true) (_hamd : s.amd 0 = true) :
    ∃ o, s.newStr id = .ok o ∧ Placed s o 0 true true := by
  have hb := (stocked_build hf (some ILLEGAL) true).2.1
  have hcx := build_eq hf (some ILLEGAL) true
  have hn := (freshCtx_members s).2.2.2.1
  have hi : 0 < s.nodes.length := by rw [hns]; simp
  obtain ⟨o, h1, h2⟩ := placed_build hf hu hi (some ILLEGAL) true true ha
  refine ⟨o, ?_, h2⟩
  unfold Setup.newStr
  simp only
  have : s.isAmd (make s.env s.nodes) ((make s.env s.nodes).findNodeStr id) = false := by
    unfold Setup.isAmd
    rw [make_nodes]
    simp [Nat.not_lt.2 hno]
  rw [this]
  show s.place (s.build ⟨newTracker s (some ILLEGAL), true⟩) (if (s.build ⟨newTracker s (some ILLEGAL), true⟩).t.ctx.nodes.length
    ≤ _ then (s.build ⟨newTracker s (some ILLEGAL), true⟩).t.ctx.findNode (s.build ⟨newTracker s (some ILLEGAL), true⟩).t.ctx.defaultNode
    else _) = _
  generalize s.build ⟨newTracker s (some ILLEGAL), true⟩ = b at *
  have hl : b.t.ctx.nodes = n :: ns := by
    rw [← hns, hcx, ← hn]
  have h0 : b.t.ctx.findNode b.t.ctx.defaultNode = 0 := by
    have hd : b.t.ctx.defaultNode = n := by
      unfold Ctx.defaultNode
      rw [hl]
      rfl
    rw [hd]
    unfold Ctx.findNode
    rw [if_pos hp, hl]
    unfold findLoop
    rw [if_pos ⟨rfl, rfl⟩]
  rw [if_pos (by rw [hl, ← hns]; exact hno), h0, ← h1]
  obtain ⟨t, opt⟩ := b
  subst hb
  rfl

/-- the same library with both nodes of AMD -/
def clAmd : Setup := { clSetup with amd := fun _ => true }

theorem findNodeStr_none (c : Ctx) : c.findNodeStr none = c.nodes.length := rfl

theorem clAmd_files : Setup.Files clAmd := clSetup_files _

theorem clAmd_arities : Arities clAmd 0 true true := fun w => clSetup_arity 0 _ true false w

theorem clAmd_none : clAmd.nodes.length ≤ (make clAmd.env clAmd.nodes).findNodeStr none := by
  rw [findNodeStr_none, make_nodes]

example : ∃ o, clAmd.newStr none = .ok o ∧ Placed clAmd o 0 true true :=
  C96_default_violated (n := ⟨0, 0⟩) (ns := [⟨0, 1⟩]) clAmd_files rfl (by decide) clAmd_none ⟨rfl, fun _ _ => rfl⟩
    clAmd_arities rfl

/-! ## Source files that are not there -/

/-- a context while its programs are made -/
structure Prep (s : Setup) (c : Ctx) (n : Nat) : Prop where
  node : c.hasNode = false
  nodes : c.nodes = s.nodes
  dir : c.kernelDir = s.env.kernelDir
  debug : c.debug = false
  options : ∀ p ∈ c.programs, p.options ≠ ""
  length : c.programs.length ≤ n

theorem addFile_cases {c : Ctx} (e : Env) (hn : c.hasNode = false) {path o : String} (ho : o ≠ "") :
    (c.addFile e path o = (ILLEGAL, c) ∧ (path = "" ∨ (e.file path).getD "" = "")) ∨
      ∃ src, (e.file path).getD "" ≠ "" ∧
        c.addFile e path o = (c.programs.length, { c with programs := c.programs ++ [⟨path, src, o, [], false⟩] }) := by
  by_cases hp : path = ""
  · left
    subst hp
    exact ⟨rfl, .inl rfl⟩
  · cases hf : e.file path with
    | none =>
      left
      refine ⟨?_, .inr rfl⟩
      unfold Ctx.addFile Ctx.fullPath
      simp only [ne_eq, hp, not_false_eq_true, if_true, hf]
    | some src =>
      by_cases hs : src = ""
      · left
        subst hs
        refine ⟨?_, .inr rfl⟩
        unfold Ctx.addFile Ctx.fullPath
        simp [hp, hf]
      · exact .inr ⟨src, hs, addFile_plain hn hp hf hs ho⟩

theorem Prep.addFile {s : Setup} {c : Ctx} {n : Nat} (h : Prep s c n) (path : String) {o : String} (ho : o ≠ "") :
    Prep s (c.addFile s.env path o).2 (n + 1) := by
  rcases addFile_cases s.env h.node (path := path) ho with ⟨h1, -⟩ | ⟨src, -, h1⟩
  · rw [h1]
    exact ⟨h.node, h.nodes, h.dir, h.debug, h.options, Nat.le_succ_of_le h.length⟩
  · rw [h1]
    refine ⟨h.node, h.nodes, h.dir, h.debug, fun p hp => ?_, ?_⟩
    · have hp : p ∈ c.programs ++ _ := hp
      rw [List.mem_append, List.mem_singleton] at hp
      rcases hp with hp | rfl
      · exact h.options p hp
      · exact ho
    · have := h.length
      simp only [List.length_append, List.length_singleton]
      omega

theorem Prep.addProgram {s : Setup} {c : Ctx} {n : Nat} (h : Prep s c n) (c₀ : Ctx) (f : File) :
    Prep s (addProgram s.env c₀ c f).2 (n + 1) ∧
      (srcOf s.env s.env.kernelDir false f = "" → (addProgram s.env c₀ c f).1 = ILLEGAL) := by
  refine ⟨h.addFile _ (fileOptions_ne s.env c₀ f), fun hs => ?_⟩
  unfold ClTrack.addProgram
  rcases addFile_cases s.env h.node (path := c.kernelDir ++ fileName c.debug f) (fileOptions_ne s.env c₀ f) with
    ⟨h1, -⟩ | ⟨src, h2, -⟩
  · rw [h1]
  · rw [h.dir, h.debug] at h2
    exact absurd hs h2

theorem prep_freshCtx (s : Setup) : Prep s (freshCtx s) 1 := by
  have hb : Prep s (base s.env s.nodes) 0 := by
    rw [base_members]
    exact ⟨rfl, rfl, rfl, rfl, fun p hp => absurd hp (by simp), Nat.le_refl _⟩
  have hm : Prep s (make s.env s.nodes) 1 := by
    have := hb.addFile (base s.env s.nodes).remapPath (remapOptions_ne s.env (base s.env s.nodes))
    unfold make Ctx.initPrograms
    simp only
    generalize (base s.env s.nodes).addFile s.env (base s.env s.nodes).remapPath _ = x at *
    exact ⟨this.node, this.nodes, this.dir, this.debug, this.options, this.length⟩
  unfold freshCtx
  generalize make s.env s.nodes = c at *
  rw [setMacros_members]
  exact ⟨hm.node, hm.nodes, hm.dir, hm.debug, hm.options, hm.length⟩

/-- What is left if one of the files is not there: the ids of the programs and of the first kernel stay as they were. -/
theorem build_missing {s : Setup} {f : File} (hf : f ≠ .fetch) (hm : srcOf s.env s.env.kernelDir false f = "")
    (a : Option Nat) (po : Bool) : Prep s (s.build ⟨newTracker s a, po⟩).t.ctx 7 ∧
      (s.build ⟨newTracker s a, po⟩).t.prog .turn = some ILLEGAL ∧ (s.build ⟨newTracker s a, po⟩).t.kernel .turn = none := by
  have h0 := prep_freshCtx s
  have hb : s.build ⟨newTracker s a, po⟩ = (Obj.initProgs s.env ⟨{ newTracker s a with ctx := freshCtx s }, po⟩).2 := rfl
  rw [hb]
  unfold Obj.initProgs
  simp only
  have h1 := h0.addProgram (freshCtx s) .track
  generalize addProgram s.env (freshCtx s) (freshCtx s) .track = x1 at *
  have h2 := h1.1.addProgram (freshCtx s) .trackOpt
  generalize addProgram s.env (freshCtx s) x1.2 .trackOpt = x2 at *
  have h3 := h2.1.addProgram (freshCtx s) .mon
  generalize addProgram s.env (freshCtx s) x2.2 .mon = x3 at *
  have h4 := h3.1.addProgram (freshCtx s) .elem
  generalize addProgram s.env (freshCtx s) x3.2 .elem = x4 at *
  have h5 := h4.1.addProgram (freshCtx s) .fetch
  generalize addProgram s.env (freshCtx s) x4.2 .fetch = x5 at *
  have h6 := h5.1.addProgram (freshCtx s) .addr
  generalize addProgram s.env (freshCtx s) x5.2 .addr = x6 at *
  rw [if_neg]
  · exact ⟨h6.1, rfl, rfl⟩
  · rintro ⟨g1, g2, g3, g4, g6⟩
    cases f
    · exact g1 (h1.2 hm)
    · exact g2 (h2.2 hm)
    · exact g3 (h3.2 hm)
    · exact g4 (h4.2 hm)
    · exact hf rfl
    · exact g6 (h6.2 hm)

theorem initKernels_programs (c : Ctx) (e : Env) : (c.initKernels e).2.programs.length = c.programs.length := by
  have h1 : ∀ n p, (c.enableKernel e n p).2.programs.length = c.programs.length := fun n p => by
    unfold Ctx.enableKernel
    split_ifs
    · cases c.programs[p]? with
      | none => rfl
      | some q =>
        simp only
        have hc : (c.compileProgram e p).2.programs.length = c.programs.length := by
          unfold Ctx.compileProgram
          split
          · split_ifs <;> simp
          · rfl
        by_cases hq : q.compiled = true
        · rw [if_pos hq]
          split_ifs
          · rfl
          · unfold Ctx.addKernel
            simp
        · rw [if_neg hq]
          cases (c.compileProgram e p).2.programs[p]? with
          | none => exact hc
          | some q' =>
            simp only
            split_ifs
            · unfold Ctx.addKernel
              simp [hc]
            · exact hc
    · rfl
  unfold Ctx.initKernels
  split_ifs
  · unfold Ctx.setRemapKernel
    simp only
    rw [← h1 c.remapName c.remapProgram]
    generalize (c.enableKernel e c.remapName c.remapProgram) = x
    cases x.2.kernels[x.1]? with
    | none => rfl
    | some y =>
      simp only
      split_ifs <;> rfl
  · rfl

theorem place_missing {s : Setup} {t : Tracker} {i : Nat} (opt : Bool) (hp : Prep s t.ctx 7) (hu : NodeWorks s.env i)
    (hi : i < s.nodes.length) (h1 : t.prog .turn = some ILLEGAL) (h2 : t.kernel .turn = none) : s.place ⟨t, opt⟩ i = .ub := by
  have hil : i < t.ctx.nodes.length := by rw [hp.nodes]; exact hi
  have hc : CanSelect s.env t.ctx i := ⟨hp.node, hil, hu.writes, fun p h => ⟨hp.options p h, hu.builds _ _⟩⟩
  have hk := selectBase_ok.2 hc
  have he := selectBase_eq hc
  unfold Setup.place
  rw [if_pos hil]
  have hsel : Obj.selectPlain s.env ⟨t, opt⟩ i = (true,
      ⟨{ t.onto (t.ctx.selectBase s.env i).2 with flags := { t.flags with device := 0 } }, opt⟩) := by
    unfold Obj.selectPlain
    rw [if_pos ⟨hp.node, hil, hu.writes⟩]
    simp only
    rw [hk]
  simp only
  rw [hsel]
  simp only [if_true]
  have hn2 : ((t.ctx.selectBase s.env i).2.initKernels s.env).2.hasNode = true := by
    rw [(NodeKept.initKernels _ s.env).hasNode, he]
    unfold Ctx.hasNode
    simp [hil]
  have hl : ((t.ctx.selectBase s.env i).2.initKernels s.env).2.programs.length ≤ 7 := by
    rw [initKernels_programs, he]
    simpa using hp.length
  unfold Obj.initRemap
  simp only [Tracker.onto]
  generalize ((t.ctx.selectBase s.env i).2.initKernels s.env).2 = c at *
  unfold Obj.initKerns
  simp only
  rw [if_pos hn2]
  have hf : ∀ (o : Obj), o.t.prog .turn = some ILLEGAL → o.t.ctx = c → o.enableFirst s.env = .ok (false, o) := by
    intro o ho hoc
    unfold Obj.enableFirst
    rw [ho]
    show (if ILLEGAL < o.t.ctx.programs.length then _ else _) = _
    rw [hoc, if_neg]
    · rfl
    · have : (7 : Nat) ≤ ILLEGAL := by decide
      omega
  rw [hf _ h1 rfl, Res.ok_bind]
  simp only [Bool.false_eq_true, if_false, Res.pure_eq, Res.ok_bind]
  have hs : ∀ t : Tracker, t.ctx = c → t.kernel .turn = none → t.assignSlot SLOT_SIZE = .ub := by
    intro t ht hk
    have : t.id .turn = .ub := by
      show t.idIf .turn .turn = .ub
      unfold Tracker.idIf Tracker.has
      rw [ht, if_pos hn2, hk]
      rfl
    unfold Tracker.assignSlot Tracker.putRows slotRows Tracker.ids
    rw [this]
    rfl
  rw [hs]
  · rfl
  · rfl
  · exact h2

/-- If a source file other than the one for fetching addresses cannot be read, every constructor with a node that can be used
reads the id of a kernel that has never been written. -/
theorem C96_missing_violated {s : Setup} {f : File} (hf : f ≠ .fetch) (hm : srcOf s.env s.env.kernelDir false f = "") {i : Nat}
    (hu : NodeWorks s.env i) (hi : i < s.nodes.length) :
    s.newAt i = .ub ∧ ∀ id, (make s.env s.nodes).findNode id = i → s.newOn id = .ub ∧ s.newId id = .ub ∧ s.newStr (some id) = .ub := by
  have key : ∀ a po opt, s.place ⟨(s.build ⟨newTracker s a, po⟩).t, opt⟩ i = .ub := fun a po opt => by
    obtain ⟨h1, h2, h3⟩ := build_missing hf hm a po
    exact place_missing opt h1 hu hi h2 h3
  refine ⟨key none _ _, fun id hid => ⟨?_, ?_, ?_⟩⟩
  · unfold Setup.newOn
    simp only
    rw [hid]
    exact key _ _ _
  · unfold Setup.newId
    simp only
    have hn := (build_missing hf hm (some ILLEGAL) false).1.nodes
    rw [findNode_nodes (hn.trans (make_nodes s.env s.nodes).symm), hid]
    exact key _ _ _
  · unfold Setup.newStr Ctx.findNodeStr
    simp only
    rw [hid, if_neg]
    · exact key _ _ _
    · have hn := (build_missing hf hm (some ILLEGAL) (!s.isAmd (make s.env s.nodes) i)).1.nodes
      rw [hn]
      omega

/-- the same library without the file for addresses -/
def clBare : Setup :=
  { clSetup with env := { clSetup.env with file := fun p =>
      if p = "/cl/assign_address_item.cl" then none else some ("source of " ++ p) } }

example : clBare.newAt 0 = .ub :=
  (C96_missing_violated (f := .addr) (by decide) (by decide +kernel) (i := 0) ⟨rfl, fun _ _ => rfl⟩ (by decide)).1

end SixTrack
