import Verif.Props.ClTrackFail
import Verif.Props.ClTrackAll

/-!
# C96: selecting a node for an OpenCL context for tracking that has none
-/

namespace SixTrack
open ClContext ClRun ClTrack

theorem select_plain {s : Setup} {o : Obj} {i : Nat} (hopt : o.opt = true → s.amd i = false) :
    s.select o i = .ok (o.selectPlain s.env i) := by
  unfold Setup.select
  rw [if_neg]
  · rfl
  · rintro ⟨h1, h2⟩
    unfold Setup.isAmd at h2
    rw [hopt h1] at h2
    simp at h2

/-- What is needed so that the object `o` gets its kernels on the node `i`: the kernels have the number of arguments of their
task, and that for remapping has one more in debug mode. -/
def Suits (s : Setup) (o : Obj) (po : Bool) (i : Nat) : Prop :=
  (∀ w, (s.env.kernel i (srcOf s.env o.t.ctx.kernelDir o.t.ctx.debug (fileOf po w))
    (kernelName o.opt o.t.ctx.debug w)).numArgs = arity o.t.ctx.debug w) ∧
  (s.env.kernel i (remapSrc s.env o.t.ctx) o.t.ctx.remapName).numArgs = if o.t.ctx.debug then 3 else 2

theorem selected_spec {s : Setup} {o : Obj} {po : Bool} {n i : Nat} (h : Stocked s.env o po n) (hu : NodeWorks s.env i)
    (hi : i < o.t.ctx.nodes.length) (ha : Suits s o po i) :
    ∃ o1 o3, o.selectPlain s.env i = (true, o1) ∧ o1.initAllKerns s.env = .ok (true, o3) ∧ Fitted o o3 i (progAt po n) ∧
      (∀ k j, kArg o3.t.ctx k j = none) ∧ o3.t.config = o.t.config ∧
      Remaps o3.t taskId 0 (if o.t.ctx.debug then 3 else 2) := by
  obtain ⟨o1, o2, o3, h1, h2, h3, h4, h5, h6, h7, k, p, h8, h9, h10⟩ := fitted_spec (h.selectable hu hi) ha.1
  refine ⟨o1, o3, h1, ?_, h4, h5, h6, h7, ⟨k, h8, ?_⟩, fun w => by cases w <;> decide⟩
  · unfold Obj.initAllKerns
    rw [h2]
    exact h3
  · obtain ⟨q, q1, -, q3⟩ := h.first
    rw [h.remap, q1] at h9
    cases h9
    rw [h10, q3, ha.2]

/-- Selecting a node by its index makes the kernels on this node from the programs that have been chosen, and assigns the slot
size to all of them and, in debug mode, the status flags.  No other argument is set. -/
theorem C96_select {s : Setup} {o : Obj} {po : Bool} {n i : Nat} (h : Stocked s.env o po n) (hu : NodeWorks s.env i)
    (hi : i < o.t.ctx.nodes.length) (ha : Suits s o po i) (hopt : o.opt = true → s.amd i = false) :
    ∃ o', s.selectNode o i = .ok (true, o') ∧ Fitted o o' i (progAt po n) ∧ o'.t.config = o.t.config ∧
      (∀ j, kArg o'.t.ctx 0 j = if j = 1 then some (.value 8) else
        if j = 2 ∧ o.t.ctx.debug = true then some (.buffer s.flagsId) else none) ∧
      ∀ w j, kArg o'.t.ctx (taskId w) j =
        if (w, j) ∈ [(Task.turn, 4), (.line, 6), (.elem, 6), (.monOut, 4), (.clear, 1), (.elemOut, 4), (.fetch, 2)] then
          some (.value 8)
        else if o.t.ctx.debug = true ∧ (w, j) ∈ [(Task.turn, 5), (.line, 7), (.elem, 7), (.monOut, 5), (.clear, 2),
          (.elemOut, 5)] then some (.buffer s.flagsId) else none := by
  obtain ⟨o1, o3, h1, h2, hF, hn, hcfg, hR⟩ := selected_spec h hu hi ha
  have hm : 2 ≤ if o.t.ctx.debug then 3 else 2 := by split_ifs <;> omega
  obtain ⟨ca, a1, a2, a3, a4, a5⟩ := C95_slot_all hF.staffed hR hm SLOT_SIZE (by decide)
  let oa : Obj := { o3 with t := { o3.t with ctx := ca } }
  have hFa : Fitted o oa i (progAt po n) := hF.update a2 ⟨_, rfl⟩
  have hRa : Remaps oa.t taskId 0 _ := hR.update a2
  have hda : oa.t.ctx.debug = o.t.ctx.debug := hFa.debug
  have hz : ∀ w, taskId w ≠ 0 := fun w => by cases w <;> decide
  have hsel : s.selectNode o i = (do
      let b ← oa.t.assignFlagsAll s.flagsId
      pure (b.1, { o3 with t := b.2 })) := by
    unfold Setup.selectNode
    rw [select_plain hopt, h1, Res.ok_bind]
    simp only [if_true]
    rw [h2, Res.ok_bind]
    simp only [if_true]
    rw [a1, Res.ok_bind]
    rfl
  have ha0 : ∀ j, kArg ca 0 j = if j = 1 then some (.value 8) else none := fun j => by
    by_cases hj : j = 1
    · subst hj
      exact a3
    · rw [if_neg hj, a5 0 j (fun h => hj h.2) fun w _ => hz w]
      exact hn 0 j
  have haw : ∀ w j, kArg ca (taskId w) j = if (w, j) ∈ [(Task.turn, 4), (.line, 6), (.elem, 6), (.monOut, 4), (.clear, 1),
      (.elemOut, 4), (.fetch, 2)] then some (.value 8) else none := fun w j => by
    by_cases hj : (w, j) ∈ [(Task.turn, 4), (.line, 6), (.elem, 6), (.monOut, 4), (.clear, 1), (.elemOut, 4), (.fetch, 2)]
    · rw [if_pos hj]
      exact a4 w j hj
    · rw [if_neg hj, a5 (taskId w) j (fun h => hz w h.1)]
      · exact hn _ j
      · intro w' hw' he
        rw [taskId_inj he] at hw'
        exact hj hw'
  obtain ⟨b1, -, b3⟩ := C95_flags_all hFa.staffed hRa hm s.flagsId
  rw [hda] at b1 b3
  cases hd : o.t.ctx.debug with
  | false =>
    refine ⟨oa, ?_, hFa, hcfg, fun j => ?_, fun w j => ?_⟩
    · rw [hsel, b1 hd]
      rfl
    · rw [show kArg oa.t.ctx 0 j = _ from ha0 j]
      simp
    · rw [show kArg oa.t.ctx (taskId w) j = _ from haw w j]
      simp
  | true =>
    rw [hd, if_pos rfl] at b3
    obtain ⟨cb, e1, e2, e3, e4, e5⟩ := b3 rfl (by omega)
    refine ⟨{ o3 with t := { o3.t with ctx := cb } }, ?_, hFa.update e2 ⟨_, rfl⟩, hcfg, fun j => ?_, fun w j => ?_⟩
    · rw [hsel, e1]
      rfl
    · show kArg cb 0 j = _
      by_cases hj : j = 2
      · subst hj
        simpa using e3
      · rw [e5 0 j (fun h => hj h.2) fun w _ => hz w]
        show kArg ca 0 j = _
        rw [ha0]
        simp [hj]
    · show kArg cb (taskId w) j = _
      have hfl : (w ≠ .fetch ∧ w ≠ .addr ∧ j + 1 = arity true w) ↔ (w, j) ∈ [(Task.turn, 5), (.line, 7), (.elem, 7),
          (.monOut, 5), (.clear, 2), (.elemOut, 5)] := by
        cases w <;> simp [arity]
      by_cases hj : w ≠ .fetch ∧ w ≠ .addr ∧ j + 1 = arity true w
      · rw [e4 w j hj.1 hj.2.1 hj.2.2, if_neg, if_pos ⟨rfl, hfl.1 hj⟩]
        intro hs
        exact (slot_flags_apart w j (.inl hs) hj.1).1 hj.2.2
      · rw [e5 (taskId w) j (fun h => hz w h.1)]
        · show kArg ca (taskId w) j = _
          rw [haw, if_neg (c := _ ∧ _) fun h => hj (hfl.2 h.2)]
        · intro w' hw' he
          rw [taskId_inj he] at hw'
          exact hj hw'

theorem clSetup_suits (o : Obj) (po : Bool) (i : Nat) : Suits clSetup o po i := by
  refine ⟨fun w => clSetup_arity _ _ _ _ _, ?_⟩
  show clArity o.t.ctx.remapName = _
  unfold Ctx.remapName
  cases o.t.ctx.debug <;> decide +kernel

theorem clSetup_new : Stocked clSetup.env clSetup.new false 0 ∧ clSetup.new.opt = false ∧
    clSetup.new.t.ctx.nodes.length = 2 := by
  obtain ⟨h1, h2, -⟩ := stocked_build (s := clSetup) (clSetup_files _) none false
  have hcx := build_eq (s := clSetup) (clSetup_files _) none false
  refine ⟨h1, h2, ?_⟩
  show (clSetup.build ⟨newTracker clSetup none, false⟩).t.ctx.nodes.length = 2
  rw [hcx]
  show (freshCtx clSetup).nodes.length = 2
  rw [(freshCtx_members clSetup).2.2.2.1]
  rfl

example : ∃ o', clSetup.selectNode clSetup.new 1 = .ok (true, o') ∧ kArg o'.t.ctx 0 1 = some (.value 8) ∧
    kArg o'.t.ctx (taskId .turn) 4 = some (.value 8) ∧ kArg o'.t.ctx (taskId .turn) 3 = none := by
  obtain ⟨h1, h2, h3⟩ := clSetup_new
  obtain ⟨o', k1, -, -, k2, k3⟩ := C96_select (i := 1) h1 (clSetup_usable 1) (by omega) (clSetup_suits _ _ _) (by simp [h2])
  exact ⟨o', k1, by rw [k2]; rfl, by rw [k3]; rfl, by rw [k3]; simp⟩

/-- If a node is selected by id, by platform and device, or by a text, the same kernels are made, but no argument is set: not
the slot size and, in debug mode, not the status flags. -/
theorem C96_select_id_violated {s : Setup} {o : Obj} {po : Bool} {n i : Nat} (h : Stocked s.env o po n) (hu : NodeWorks s.env i)
    (hi : i < o.t.ctx.nodes.length) (ha : Suits s o po i) (hopt : o.opt = true → s.amd i = false) :
    ∃ o', s.selectAt o i = .ok (true, o') ∧ Fitted o o' i (progAt po n) ∧ ∀ k j, kArg o'.t.ctx k j = none := by
  obtain ⟨o1, o3, h1, h2, hF, hn, -⟩ := selected_spec h hu hi ha
  refine ⟨o3, ?_, hF, hn⟩
  unfold Setup.selectAt
  rw [select_plain hopt, h1, Res.ok_bind]
  exact h2

example : ∃ o', clSetup.selectAt clSetup.new 1 = .ok (true, o') ∧ ∀ k j, kArg o'.t.ctx k j = none := by
  obtain ⟨h1, h2, h3⟩ := clSetup_new
  obtain ⟨o', k1, -, k2⟩ := C96_select_id_violated (i := 1) h1 (clSetup_usable 1) (by omega) (clSetup_suits _ _ _) (by simp [h2])
  exact ⟨o', k1, k2⟩

/-- Other than the constructor with an index, making a context and then selecting the node leaves the index of the
configuration for element-by-element output unset. -/
theorem C96_select_config_violated {s : Setup} (hf : Setup.Files s) {i : Nat} (hu : NodeWorks s.env i) (hi : i < s.nodes.length)
    (ha : Suits s s.new false i) (ha' : Arities s i (!s.amd i) (!s.amd i)) :
    (∃ o, s.selectNode s.new i = .ok (true, o) ∧ kArg o.t.ctx (taskId .elem) 4 = none ∧ kArg o.t.ctx (taskId .elemOut) 1 = none) ∧
      ∃ o, s.newAt i = .ok o ∧ kArg o.t.ctx (taskId .elem) 4 = some (.value 0) ∧
        kArg o.t.ctx (taskId .elemOut) 1 = some (.value 0) := by
  constructor
  · obtain ⟨h1, h2, -⟩ := stocked_build hf none false
    have hcx := build_eq hf none false
    have hnew : s.build ⟨newTracker s none, false⟩ = s.new := rfl
    rw [hnew] at h1 h2 hcx
    have hi' : i < s.new.t.ctx.nodes.length := by
      rw [hcx]
      show i < (freshCtx s).nodes.length
      rw [(freshCtx_members s).2.2.2.1]
      exact hi
    obtain ⟨o, k1, -, -, -, k2⟩ := C96_select h1 hu hi' ha (by rw [h2]; simp)
    refine ⟨o, k1, ?_, ?_⟩ <;> rw [k2] <;> simp
  · obtain ⟨o, h1, h2⟩ := C96_at hf hu hi ha'
    exact ⟨o, h1, h2.config _ _ (by simp), h2.config _ _ (by simp)⟩

example := C96_select_config_violated (s := clSetup) (i := 0) (clSetup_files _) (clSetup_usable 0) (by decide)
  (clSetup_suits _ _ _) (clSetup_arities _ _ _)

end SixTrack
