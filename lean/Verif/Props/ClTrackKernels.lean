import Verif.Props.ClTrackFail

/-!
# C96: members of a new context, and kernels whose programs are not there
-/

namespace SixTrack
open ClContext ClRun ClTrack

/-- A new context without a node has neither launched nor assigned anything: no particles, the first set, the first
configuration, and the status flags it was given. -/
theorem C96_members (s : Setup) :
    s.new.t.particles = 0 ∧ s.new.t.pset = 0 ∧ s.new.t.config = 0 ∧ s.new.t.calls = [] ∧ s.new.t.execs = [] ∧
    s.new.t.flags = s.flags ∧ s.new.t.flagsId = s.flagsId ∧ s.new.t.kernel .turn = none ∧ s.new.t.kernel .addr = none ∧
    ∀ w, w ≠ .turn → w ≠ .addr → s.new.t.kernel w = some ILLEGAL := by
  have h : ∀ o : Obj, (o.initProgs s.env).2.t.particles = o.t.particles ∧ (o.initProgs s.env).2.t.pset = o.t.pset ∧
      (o.initProgs s.env).2.t.config = o.t.config ∧ (o.initProgs s.env).2.t.calls = o.t.calls ∧
      (o.initProgs s.env).2.t.execs = o.t.execs ∧ (o.initProgs s.env).2.t.flags = o.t.flags ∧
      (o.initProgs s.env).2.t.flagsId = o.t.flagsId ∧ (o.initProgs s.env).2.t.kernel = o.t.kernel := fun o => by
    unfold Obj.initProgs
    simp only
    generalize addProgram s.env o.t.ctx o.t.ctx .track = a
    generalize addProgram s.env o.t.ctx a.2 .trackOpt = b
    generalize addProgram s.env o.t.ctx b.2 .mon = c
    generalize addProgram s.env o.t.ctx c.2 .elem = d
    generalize addProgram s.env o.t.ctx d.2 .fetch = f
    generalize addProgram s.env o.t.ctx f.2 .addr = g
    split_ifs <;> exact ⟨rfl, rfl, rfl, rfl, rfl, rfl, rfl, rfl⟩
  obtain ⟨h1, h2, h3, h4, h5, h6, h7, h8⟩ := h ⟨{ newTracker s none with ctx := freshCtx s }, false⟩
  refine ⟨h1, h2, h3, h4, h5, h6, h7, ?_, ?_, fun w hw hw' => ?_⟩
  · exact congrFun h8 .turn
  · exact congrFun h8 .addr
  · refine (congrFun h8 w).trans ?_
    show (if w = .turn then none else if w = .addr then none else some ILLEGAL) = _
    rw [if_neg hw, if_neg hw']

example : clSetup.new.t.flagsId = 77 ∧ clSetup.new.t.flags = ⟨0, 5⟩ :=
  ⟨(C96_members clSetup).2.2.2.2.2.2.1, (C96_members clSetup).2.2.2.2.2.1⟩

/-- Without a node no kernels are made: this is a failure without effect. -/
theorem C96_kernels_no_node {o : Obj} (e : Env) (hn : o.t.ctx.hasNode = false) : o.initKerns e = .ok (false, o) := by
  unfold Obj.initKerns
  rw [hn]
  rfl

example : clSetup.new.initKerns clSetup.env = .ok (false, clSetup.new) :=
  C96_kernels_no_node _ (C96_programs (s := clSetup) (clSetup_files _)).1

/-! ## Programs that are not there -/

/-- The kernel for tracking until a turn can be made: it gets the id `k`, and `c` is the context with it. -/
structure FirstMade (e : Env) (o : Obj) (k : Nat) (c : Ctx) : Prop where
  node : o.t.ctx.hasNode = true
  made : ∃ p, o.t.prog .turn = some p ∧ p < o.t.ctx.programs.length ∧
    o.t.ctx.enableKernel e (kernelName o.opt o.t.ctx.debug .turn) p = (k, c)
  legal : c.hasNode = true ∧ k < c.kernels.length ∧ c.kernelProgram k < c.programs.length

/-- the object after the first kernel -/
def afterFirst (o : Obj) (k : Nat) (c : Ctx) : Obj :=
  { o with t := { o.t with
      ctx := c, execs := newExecs o.t.execs c.kernels.length
      kernel := setTask o.t.kernel .turn k, prog := setTask o.t.prog .turn (c.kernelProgram k) } }

theorem FirstMade.first {e : Env} {o : Obj} {k : Nat} {c : Ctx} (h : FirstMade e o k c) :
    o.enableFirst e = .ok (true, afterFirst o k c) := by
  obtain ⟨p, h1, h2, h3⟩ := h.made
  unfold Obj.enableFirst
  rw [h1]
  show (if p < o.t.ctx.programs.length then _ else _) = _
  rw [if_pos h2]
  unfold Obj.enableSet Tracker.enable
  simp only
  rw [h3]
  unfold Tracker.setKernel
  simp only
  rw [if_pos h.legal]
  rfl

theorem enableAll_skip {e : Env} {o : Obj} (as bs : List Task)
    (h : ∀ v ∈ as, ∃ q, o.t.prog v = some q ∧ o.t.ctx.programs.length ≤ q) :
    enableAll e o (as ++ bs) = enableAll e o bs := by
  induction as with
  | nil => rfl
  | cons v as ih =>
    obtain ⟨q, h1, h2⟩ := h v (List.mem_cons_self ..)
    show (o.enableNext e v >>= fun r => _) = _
    have : o.enableNext e v = .ok (true, o) := by
      unfold Obj.enableNext
      rw [h1]
      show (if q < _ then _ else _) = _
      rw [if_neg (Nat.not_lt.2 h2)]
      rfl
    rw [this, Res.ok_bind]
    exact ih fun v hv => h v (List.mem_cons_of_mem _ hv)

theorem prog_after {o : Obj} {k : Nat} {c : Ctx} {v : Task} (hv : v ≠ .turn) : (afterFirst o k c).t.prog v = o.t.prog v :=
  if_neg hv

/-- Tasks after the first one whose programs are not there are passed over: with none of these programs the kernel for
tracking until a turn is made alone, the ids of the others stay, and this is a success. -/
theorem C96_kernels_skip {e : Env} {o : Obj} {k : Nat} {c : Ctx} (h : FirstMade e o k c)
    (hs : ∀ v, v ≠ .turn → ∃ q, o.t.prog v = some q ∧ c.programs.length ≤ q) :
    ∃ o', o.initKerns e = .ok (true, o') ∧ o'.t.ctx = c ∧ o'.t.kernel .turn = some k ∧
      ∀ v, v ≠ .turn → o'.t.kernel v = o.t.kernel v := by
  refine ⟨afterFirst o k c, ?_, rfl, rfl, fun v hv => if_neg hv⟩
  unfold Obj.initKerns
  rw [if_pos h.node, h.first, Res.ok_bind, if_pos rfl]
  have := enableAll_skip (e := e) (o := afterFirst o k c) MIDDLE [] fun v hv => by
    have hv : v ≠ .turn := by rintro rfl; exact absurd hv (by decide)
    rw [prog_after hv]
    exact hs v hv
  rw [List.append_nil] at this
  simp only
  rw [this]
  show (Res.ok _ >>= _) = _
  rw [Res.ok_bind, if_pos rfl]
  obtain ⟨q, h1, h2⟩ := hs .addr (by decide)
  unfold Obj.enableLast
  simp only
  rw [prog_after (by decide), h1]
  show (if q ≠ ILLEGAL ∧ q < c.programs.length then _ else _) = _
  rw [if_neg fun hc => absurd hc.2 (Nat.not_lt.2 h2)]
  rfl

/-- The first task whose program is there but does not get a kernel ends it with a failure: the first kernel stays, and no
kernel is made for any other task. -/
theorem C96_kernels_stop {e : Env} {o : Obj} {k : Nat} {c : Ctx} (h : FirstMade e o k c) {as bs : List Task} {w : Task}
    (hm : [Task.elem, .line, .monOut, .clear, .elemOut, .fetch] = as ++ w :: bs)
    (hs : ∀ v ∈ as, ∃ q, o.t.prog v = some q ∧ c.programs.length ≤ q)
    {q : Nat} (hq : o.t.prog w = some q) (hl : q < c.programs.length) {c' : Ctx}
    (hf : c.enableKernel e (kernelName o.opt c.debug w) q = (ILLEGAL, c')) (hc : c'.kernels.length ≤ ILLEGAL) :
    ∃ o', o.initKerns e = .ok (false, o') ∧ o'.t.ctx = c' ∧ o'.t.kernel .turn = some k ∧
      ∀ v, v ≠ .turn → o'.t.kernel v = o.t.kernel v := by
  have hmem : ∀ v ∈ as ++ w :: bs, v ≠ .turn := fun v hv => by
    rw [← hm] at hv
    rintro rfl
    exact absurd hv (by decide)
  refine ⟨{ afterFirst o k c with t := { (afterFirst o k c).t with
    ctx := c', execs := newExecs (afterFirst o k c).t.execs c'.kernels.length } }, ?_, rfl, rfl, fun v hv => if_neg hv⟩
  unfold Obj.initKerns
  rw [if_pos h.node, h.first, Res.ok_bind, if_pos rfl]
  have h1 := enableAll_skip (e := e) (o := afterFirst o k c) as (w :: bs) fun v hv => by
    rw [prog_after (hmem v (List.mem_append_left _ hv))]
    exact hs v hv
  have h2 : enableAll e (afterFirst o k c) (w :: bs) = .ok (false, { afterFirst o k c with t := { (afterFirst o k c).t with
      ctx := c', execs := newExecs (afterFirst o k c).t.execs c'.kernels.length } }) := by
    show ((afterFirst o k c).enableNext e w >>= fun r => _) = _
    have : (afterFirst o k c).enableNext e w = .ok (false, { afterFirst o k c with t := { (afterFirst o k c).t with
        ctx := c', execs := newExecs (afterFirst o k c).t.execs c'.kernels.length } }) := by
      unfold Obj.enableNext
      rw [prog_after (hmem w (List.mem_append_right _ (List.mem_cons_self ..))), hq]
      show (if q < c.programs.length then _ else _) = _
      rw [if_pos hl]
      unfold Obj.enableSet Tracker.enable
      simp only
      have hf' : (afterFirst o k c).t.ctx.enableKernel e (kernelName (afterFirst o k c).opt (afterFirst o k c).t.ctx.debug w) q =
        (ILLEGAL, c') := hf
      rw [hf']
      unfold Tracker.setKernel
      simp only
      rw [if_neg fun hh => absurd hh.2.1 (Nat.not_lt.2 hc)]
      rfl
    rw [this]
    rfl
  have hM : MIDDLE = as ++ w :: bs := hm
  simp only
  rw [hM, h1, h2]
  rfl

/-! ## Contexts with two programs -/

/-- a context on a node: the first program has no kernels yet, the second one has that for tracking element by element; `ps` are
the programs of the tasks. -/
def clTwoPrograms (ps : Task → Nat) : Obj :=
  { opt := false
    t := { clTracker false with
      ctx := { (clTracker false).ctx with
        programs := [⟨"", "src", "-O", [], true⟩, ⟨"", "src", "-O", [0], true⟩], clPrograms := ["src", "src"]
        kernels := [newKernel ⟨7, 256, 64, 0⟩ (kernelName false false .elem) 1] }
      execs := [Exec.new]
      prog := fun w => some (ps w)
      kernel := fun w => if w = .turn then none else some ILLEGAL } }

/-- what the first kernel adds -/
def clTwoAfter : Ctx := ((clTwoPrograms fun _ => 0).t.ctx.enableKernel clSetup.env (kernelName false false .turn) 0).2

theorem clTwo_first (ps : Task → Nat) (h : ps .turn = 0) : FirstMade clSetup.env (clTwoPrograms ps) 1 clTwoAfter where
  node := rfl
  made := ⟨0, by rw [← h]; rfl, Nat.zero_lt_two, rfl⟩
  legal := by decide +kernel

example : ∃ o', (clTwoPrograms fun w => if w = .turn then 0 else 5).initKerns clSetup.env = .ok (true, o') ∧
    o'.t.kernel .turn = some 1 ∧ o'.t.kernel .elem = some ILLEGAL := by
  obtain ⟨o', h1, -, h2, h3⟩ := C96_kernels_skip (clTwo_first (fun w => if w = .turn then 0 else 5) rfl)
    fun v hv => ⟨5, congrArg some (if_neg hv), by decide +kernel⟩
  exact ⟨o', h1, h2, h3 .elem (by decide)⟩

example : ∃ o', (clTwoPrograms fun w => if w = .elem then 1 else 0).initKerns clSetup.env = .ok (false, o') ∧
    o'.t.kernel .turn = some 1 ∧ o'.t.kernel .line = some ILLEGAL := by
  obtain ⟨o', h1, -, h2, h3⟩ := C96_kernels_stop (clTwo_first (fun w => if w = .elem then 1 else 0) rfl) (as := []) (w := .elem)
    rfl (by simp) (q := 1) rfl (by decide +kernel) (c' := clTwoAfter) (by decide +kernel) (by decide +kernel)
  exact ⟨o', h1, h2, h3 .line (by decide)⟩

end SixTrack
