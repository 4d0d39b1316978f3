import Verif.ClTrackCalls

/-!
# C95: arguments of the kernels of the OpenCL context for tracking

`Staffed t K` (Verif/ClTrackLemmas.lean): a node is selected, and the kernel `K w`, which has as many arguments as its
source says, does the task `w`.  `Becomes K c c' P v`: the arguments with `P` are `v` in `c'`, all others are as in `c`, and
nothing but arguments has changed.
-/

namespace SixTrack
open ClContext ClRun ClTrack

/-- The argument holds a C buffer. -/
def ClTrack.Buf.Holds (b : Buf) (objects : Nat) : Prop := ∃ slot, b.cobj = some (objects, slot)

/-- Assigning the particles sets the first argument of all kernels for tracking and of that for fetching addresses. -/
theorem C95_particles {t : Tracker} {K : Task → Nat} (h : Staffed t K) {b : Buf} {n : Nat} (hb : b.Holds n) :
    ∃ c', t.assignParticles b = .ok (true, { t with ctx := c' }) ∧
      Becomes K t.ctx c' (fun w i => (w, i) ∈ [(Task.turn, 0), (.line, 0), (.elem, 0), (.fetch, 0)]) (.buffer b.mem) := by
  obtain ⟨s, hb⟩ := hb
  unfold Tracker.assignParticles Tracker.putBuf
  rw [if_pos (by simp [hb])]
  refine putRows_staffed h _ _ _ _ (fun w i => ?_) ?_
  · cases w <;> simp [particlesRows, eq_comm]
  · cases t.ctx.debug <;> decide

/-- Selecting a set of particles sets the second argument of the kernels for tracking and the number of work items of the
calls that follow. -/
theorem C95_set {t : Tracker} {K : Task → Nat} (h : Staffed t K) (p n : Nat) :
    ∃ c', t.assignSet p n = .ok (true, { t with ctx := c', pset := p, particles := n }) ∧
      Becomes K t.ctx c' (fun w i => (w, i) ∈ [(Task.turn, 1), (.line, 1), (.elem, 1)]) (.value p) := by
  obtain ⟨c', h1, h2⟩ := putRows_staffed h psetRows ⟨.value, none⟩ (.value p)
    (fun w i => (w, i) ∈ [(Task.turn, 1), (.line, 1), (.elem, 1)])
    (fun w i => by cases w <;> simp [psetRows, eq_comm]) (by cases t.ctx.debug <;> decide)
  refine ⟨c', ?_, h2⟩
  unfold Tracker.assignSet
  rw [h1, Res.ok_bind]
  rfl

/-- Assigning a beam line with elements sets its argument in all kernels that use it. -/
theorem C95_elements {t : Tracker} {K : Task → Nat} (h : Staffed t K) {b : Buf} {n : Nat} (hb : b.Holds n) (hn : 0 < n) :
    ∃ c', t.assignElements b = .ok (true, { t with ctx := c' }) ∧
      Becomes K t.ctx c' (fun w i => (w, i) ∈ [(Task.turn, 2), (.line, 2), (.elem, 2), (.monOut, 0), (.clear, 0)])
        (.buffer b.mem) := by
  obtain ⟨s, hb⟩ := hb
  unfold Tracker.assignElements Tracker.putBuf
  simp only [hb, Option.isSome_some, if_true]
  rw [if_neg (by omega)]
  refine putRows_staffed h _ _ _ _ (fun w i => ?_) ?_
  · cases w <;> simp [elementsRows, eq_comm]
  · cases t.ctx.debug <;> decide

/-- Assigning the output buffer sets its argument in both kernels that hand out its particles. -/
theorem C95_output {t : Tracker} {K : Task → Nat} (h : Staffed t K) {b : Buf} {n : Nat} (hb : b.Holds n) :
    ∃ c', t.assignOutput b = .ok (true, { t with ctx := c' }) ∧
      Becomes K t.ctx c' (fun w i => (w, i) ∈ [(Task.monOut, 1), (.elemOut, 2)]) (.buffer b.mem) := by
  obtain ⟨s, hb⟩ := hb
  unfold Tracker.assignOutput Tracker.putBuf
  rw [if_pos (by simp [hb])]
  refine putRows_staffed h _ _ _ _ (fun w i => ?_) ?_
  · cases w <;> simp [outputRows, eq_comm]
  · cases t.ctx.debug <;> decide

/-- Assigning the buffer of configurations sets its argument in both kernels that use it. -/
theorem C95_config {t : Tracker} {K : Task → Nat} (h : Staffed t K) {b : Buf} {n : Nat} (hb : b.Holds n) :
    ∃ c', t.assignConfig b = .ok (true, { t with ctx := c' }) ∧
      Becomes K t.ctx c' (fun w i => (w, i) ∈ [(Task.elem, 3), (.elemOut, 0)]) (.buffer b.mem) := by
  obtain ⟨s, hb⟩ := hb
  unfold Tracker.assignConfig Tracker.putBuf
  rw [if_pos (by simp [hb])]
  refine putRows_staffed h _ _ _ _ (fun w i => ?_) ?_
  · cases w <;> simp [configRows, eq_comm]
  · cases t.ctx.debug <;> decide

/-- Assigning the index of the configuration sets its argument in both kernels that use it, and it is remembered. -/
theorem C95_config_index {t : Tracker} {K : Task → Nat} (h : Staffed t K) (k : Nat) :
    ∃ c', t.assignConfigIndex k = .ok (true, { t with ctx := c', config := k }) ∧
      Becomes K t.ctx c' (fun w i => (w, i) ∈ [(Task.elem, 4), (.elemOut, 1)]) (.value k) := by
  obtain ⟨c', h1, h2⟩ := putRows_staffed h configIndexRows ⟨.value, none⟩ (.value k)
    (fun w i => (w, i) ∈ [(Task.elem, 4), (.elemOut, 1)])
    (fun w i => by cases w <;> simp [configIndexRows, eq_comm]) (by cases t.ctx.debug <;> decide)
  refine ⟨c', ?_, h2⟩
  unfold Tracker.assignConfigIndex
  rw [h1, Res.ok_bind]
  rfl

/-- Assigning the buffer of addresses sets the second argument of the kernel that fetches them. -/
theorem C95_addr_buffer {t : Tracker} {K : Task → Nat} (h : Staffed t K) {b : Buf} {n : Nat} (hb : b.Holds n) :
    ∃ c', t.assignAddrBuffer b = .ok (true, { t with ctx := c' }) ∧
      Becomes K t.ctx c' (fun w i => (w, i) ∈ [(Task.fetch, 1)]) (.buffer b.mem) := by
  obtain ⟨s, hb⟩ := hb
  obtain ⟨x, hx, hn⟩ := h.args .fetch
  refine ⟨t.ctx.assign (K .fetch) 1 ⟨.clArgument, some b.at_⟩ (.buffer b.mem), ?_, OnlyArgs.assign .., ?_, ?_⟩
  · unfold Tracker.assignAddrBuffer put
    rw [if_pos (by simp [hb]), h.id, Res.ok_bind,
      if_pos ⟨h.ne_illegal _, by rw [h.numArgs]; cases t.ctx.debug <;> decide⟩, if_pos (h.lt _), Res.ok_bind]
    rfl
  all_goals
    have hi : 1 < x.cl.length := by rw [h.tidy _ _ hx, hn]; cases t.ctx.debug <;> decide
  · intro w i hw
    simp only [List.mem_singleton, Prod.mk.injEq] at hw
    rw [hw.1, hw.2, kArg_assign hx hi, if_pos ⟨rfl, rfl⟩]
  · intro k i hw
    rw [kArg_assign hx hi, if_neg]
    rintro ⟨rfl, rfl⟩
    exact hw .fetch (by simp) rfl

/-- Assigning the slot size sets its argument in all kernels but that which assigns addresses. -/
theorem C95_slot {t : Tracker} {K : Task → Nat} (h : Staffed t K) (n : Nat) :
    ∃ c', t.assignSlot n = .ok (true, { t with ctx := c' }) ∧
      Becomes K t.ctx c' (fun w i => (w, i) ∈ [(Task.turn, 4), (.line, 6), (.elem, 6), (.monOut, 4), (.clear, 1),
        (.elemOut, 4), (.fetch, 2)]) (.value n) := by
  refine putRows_staffed h _ _ _ _ (fun w i => ?_) ?_
  · cases w <;> simp [slotRows, eq_comm]
  · cases t.ctx.debug <;> decide

/-- In debug mode the last argument of all kernels but those for addresses is the buffer of the status flags; otherwise
nothing is assigned. -/
theorem C95_flags {t : Tracker} {K : Task → Nat} (h : Staffed t K) (b : Nat) :
    (t.ctx.debug = false → t.assignFlags b = .ok (true, t)) ∧
    (t.ctx.debug = true → ∃ c', t.assignFlags b = .ok (true, { t with ctx := c' }) ∧
      Becomes K t.ctx c' (fun w i => w ≠ .fetch ∧ w ≠ .addr ∧ i + 1 = arity true w) (.buffer b)) := by
  unfold Tracker.assignFlags
  refine ⟨fun hd => by rw [hd]; rfl, fun hd => ?_⟩
  rw [if_pos hd]
  refine putRows_staffed h _ _ _ _ (fun w i => ?_) ?_
  · cases w <;> simp [flagsRows, arity, eq_comm]
  · rw [hd]
    decide

/-- An argument without a C buffer is refused without effect, as is a beam line without elements. -/
theorem C95_assign_refused (t : Tracker) (b : Buf) :
    (b.cobj = none → t.assignParticles b = .ok (false, t) ∧ t.assignElements b = .ok (false, t) ∧
      t.assignOutput b = .ok (false, t) ∧ t.assignConfig b = .ok (false, t) ∧ t.assignAddrBuffer b = .ok (false, t)) ∧
    (b.Holds 0 → t.assignElements b = .ok (false, t)) := by
  constructor
  · intro hb
    simp [Tracker.assignParticles, Tracker.assignElements, Tracker.assignOutput, Tracker.assignConfig,
      Tracker.assignAddrBuffer, Tracker.putBuf, hb]
  · rintro ⟨s, hb⟩
    simp [Tracker.assignElements, hb]

/-- Kernels can be chosen for tasks: a kernel of the context with a program of it does the task from then on, and the
other tasks are left alone; anything else is refused without effect. -/
theorem C95_choose (t : Tracker) (w : Task) (k : Nat) :
    (t.ctx.hasNode = true ∧ k < t.ctx.kernels.length ∧ t.ctx.kernelProgram k < t.ctx.programs.length →
      ∃ t', t.setKernel w k = (true, t') ∧ t'.kernel w = some k ∧ t'.prog w = some (t.ctx.kernelProgram k) ∧
        t'.has w = .ok true ∧ (w ≠ .line → t'.id w = .ok k) ∧
        (∀ w', w' ≠ w → t'.kernel w' = t.kernel w' ∧ t'.prog w' = t.prog w' ∧ t'.has w' = t.has w') ∧
        t' = { t with kernel := t'.kernel, prog := t'.prog }) ∧
    (¬ (t.ctx.hasNode = true ∧ k < t.ctx.kernels.length ∧ t.ctx.kernelProgram k < t.ctx.programs.length) →
      t.setKernel w k = (false, t)) := by
  unfold Tracker.setKernel
  constructor
  · intro h
    rw [if_pos h]
    have hk : setTask t.kernel w k w = some k := by simp [setTask]
    have hh : Tracker.has { t with kernel := setTask t.kernel w k, prog := setTask t.prog w (t.ctx.kernelProgram k) } w =
        .ok true := by
      unfold Tracker.has
      simp only [h.1, if_true, hk, ClTrack.read, Res.ok_bind, Res.pure_eq, h.2.1, decide_true]
    refine ⟨_, rfl, hk, by simp [setTask], hh, fun hw => ?_, fun w' hw => ?_, rfl⟩
    · have e : Tracker.idIf { t with kernel := setTask t.kernel w k, prog := setTask t.prog w (t.ctx.kernelProgram k) } w w =
          .ok k := by
        unfold Tracker.idIf
        rw [hh, Res.ok_bind, if_pos rfl]
        simp only [hk, ClTrack.read]
      cases w
      case line => exact absurd rfl hw
      case addr =>
        unfold Tracker.id
        simp only [hk, ClTrack.read]
      all_goals exact e
    · have e1 : setTask t.kernel w k w' = t.kernel w' := by simp [setTask, hw]
      refine ⟨e1, by simp [setTask, hw], ?_⟩
      unfold Tracker.has
      simp only [e1]
  · intro h
    rw [if_neg h]

/-! ## A context with all kernels -/

/-- the kernels of a context: the remapping kernel and the tasks in the order in which they are looked up, 2202-2408 -/
def clTrackKernels (debug : Bool) : List Kernel :=
  newKernel ⟨2, 256, 32, 0⟩ "remap" 0 ::
    ([Task.turn, .elem, .line, .monOut, .clear, .elemOut, .fetch, .addr].map fun w =>
      newKernel ⟨arity debug w, 256, 32, 0⟩ "k" 0)

/-- the ids of these kernels -/
def clTrackIds : Task → Nat
  | .turn => 1
  | .elem => 2
  | .line => 3
  | .monOut => 4
  | .clear => 5
  | .elemOut => 6
  | .fetch => 7
  | .addr => 8

/-- a context with a node and these kernels, whose arguments have not been set -/
def clTracker (debug : Bool) : Tracker where
  ctx :=
    { nodes := [⟨0, 0⟩], selected := 0, debug := debug, kernelDir := "", incDir := "", options := "", flags := []
      programs := [⟨"", "src", "-O", [0, 1, 2, 3, 4, 5, 6, 7, 8], true⟩], clPrograms := ["src"]
      kernels := clTrackKernels debug, remapProgram := 0, remapKernel := 0 }
  execs := List.replicate 9 Exec.new
  flags := ⟨0, 0⟩
  flagsId := 77
  particles := 10
  pset := 0
  config := 0
  prog := fun _ => some 0
  kernel := fun w => some (clTrackIds w)
  calls := []

theorem clTracker_staffed (debug : Bool) : Staffed (clTracker debug) clTrackIds where
  node := rfl
  tidy := by
    intro k x hx
    have hm : x ∈ clTrackKernels debug := List.mem_of_getElem? hx
    have : ∀ x ∈ clTrackKernels debug, x.cl.length = x.numArgs := by cases debug <;> decide +kernel
    exact this x hm
  legal := by cases debug <;> decide +kernel
  ids _ := rfl
  inj := by
    intro w w' h
    cases w <;> cases w' <;> first | rfl | exact absurd h (by decide)
  args w := by cases w <;> exact ⟨_, rfl, rfl⟩

/-- an argument with two objects -/
def clTwoObjects : Buf := ⟨1, 11, true, some (2, 8)⟩

example : clTwoObjects.Holds 2 := ⟨8, rfl⟩

example : ∃ (t : Tracker) (K : Task → Nat), Staffed t K ∧ t.ctx.debug = true := ⟨_, _, clTracker_staffed true, rfl⟩

example : ∃ (t : Tracker) (K : Task → Nat), Staffed t K ∧ t.ctx.debug = false := ⟨_, _, clTracker_staffed false, rfl⟩

example : ((clTracker false).ctx.hasNode = true ∧ 3 < (clTracker false).ctx.kernels.length ∧
    (clTracker false).ctx.kernelProgram 3 < (clTracker false).ctx.programs.length) ∧
    ¬ 9 < (clTracker false).ctx.kernels.length := by decide +kernel

/-! ## Where assigning goes wrong -/

/-- a kernel for tracking element by element with too few arguments -/
def clTrackerShort : Tracker :=
  { clTracker false with
    ctx := { (clTracker false).ctx with kernels := (clTrackKernels false).set 2 (newKernel ⟨6, 256, 32, 0⟩ "k" 0) } }

/-- its arguments after assigning particles -/
def clShortAfter : Ctx :=
  [1, 3, 7].foldl (fun c k => c.assign k 0 ⟨.clArgument, some 1⟩ (.buffer 11)) clTrackerShort.ctx

/-- An assignment that fails may have changed the arguments of some kernels: the particles are those of the new buffer for
tracking until a turn, but not for tracking element by element. -/
theorem C95_atomic_violated : ∃ (t t' : Tracker) (b : Buf),
    t.assignParticles b = .ok (false, t') ∧ kArg t.ctx 1 0 = none ∧ t.kernel .turn = some 1 ∧
      kArg t'.ctx 1 0 = some (.buffer b.mem) ∧ t.kernel .elem = some 2 ∧ kArg t'.ctx 2 0 = none :=
  ⟨clTrackerShort, { clTrackerShort with ctx := clShortAfter }, clTwoObjects, rfl, by decide +kernel, rfl,
    by decide +kernel, rfl, by decide +kernel⟩

/-- Without a node an assignment is a success although nothing is assigned, and a set of particles counts as selected. -/
theorem C95_no_node_violated (t : Tracker) (h : t.ctx.hasNode = false) (p n : Nat) :
    t.assignSet p n = .ok (true, { t with pset := p, particles := n }) := by
  have hi : ∀ w w', t.idIf w w' = .ok ILLEGAL := fun w w' => by
    unfold Tracker.idIf Tracker.has
    rw [h]
    rfl
  have hids : t.ids psetRows = .ok [(ILLEGAL, ⟨.turn, UNTIL_ARGS, 1⟩), (ILLEGAL, ⟨.line, LINE_ARGS, 1⟩),
      (ILLEGAL, ⟨.elem, ELEM_ARGS, 1⟩)] := by
    simp only [psetRows, Tracker.ids, Tracker.id, hi, Res.ok_bind, Res.pure_eq]
  unfold Tracker.assignSet Tracker.putRows
  rw [hids]
  rfl

example : ∃ t : Tracker, t.ctx.hasNode = false :=
  ⟨{ clTracker false with ctx := { (clTracker false).ctx with selected := -1 } }, rfl⟩

/-- The buffer of addresses is accepted although the kernel has too few arguments to take it. -/
theorem C95_addr_buffer_violated : ∃ (t : Tracker) (b : Buf), t.ctx.hasNode = true ∧ t.kernel .fetch = some 7 ∧
    t.ctx.kernelNumArgs 7 = 2 ∧ t.assignAddrBuffer b = .ok (true, t) ∧ kArg t.ctx 7 1 = none :=
  ⟨{ clTracker false with
    ctx := { (clTracker false).ctx with kernels := (clTrackKernels false).set 7 (newKernel ⟨2, 256, 32, 0⟩ "k" 0) } },
    clTwoObjects, rfl, rfl, rfl, rfl, by decide +kernel⟩

/-- If a node is selected but no kernel was ever found for tracking until a turn, so that its id was never written, then
assigning particles, sets, elements, slot sizes and status flags in debug mode reads that id. -/
theorem C95_unset_violated (t : Tracker) (h : t.ctx.hasNode = true) (hk : t.kernel .turn = none) :
    (∀ b n, b.Holds n → t.assignParticles b = .ub) ∧ (∀ p n, t.assignSet p n = .ub) ∧
      (∀ b n, b.Holds n → 0 < n → t.assignElements b = .ub) ∧ (∀ n, t.assignSlot n = .ub) ∧
      (∀ b, t.ctx.debug = true → t.assignFlags b = .ub) := by
  have hi : ∀ w, t.idIf .turn w = .ub := fun w => by
    unfold Tracker.idIf Tracker.has
    rw [h, hk]
    rfl
  have hr : ∀ r rows a v, t.putRows (⟨.turn, UNTIL_ARGS, r⟩ :: rows) a v = .ub := fun r rows a v => by
    unfold Tracker.putRows Tracker.ids
    simp only [Tracker.id, hi, Res.ub_bind]
  refine ⟨?_, fun p n => ?_, ?_, fun n => hr _ _ _ _, fun b hd => ?_⟩
  · rintro b n ⟨s, hb⟩
    unfold Tracker.assignParticles Tracker.putBuf
    rw [if_pos (by simp [hb])]
    exact hr _ _ _ _
  · unfold Tracker.assignSet
    rw [show t.putRows psetRows ⟨.value, none⟩ (.value p) = .ub from hr _ _ _ _, Res.ub_bind]
  · rintro b n ⟨s, hb⟩ hn
    unfold Tracker.assignElements Tracker.putBuf
    simp only [hb, Option.isSome_some, if_true]
    rw [if_neg (by omega)]
    exact hr _ _ _ _
  · unfold Tracker.assignFlags
    rw [if_pos hd]
    exact hr _ _ _ _

example : ∃ t : Tracker, t.ctx.hasNode = true ∧ t.kernel .turn = none :=
  ⟨{ clTracker false with kernel := fun _ => none }, rfl, rfl⟩

/-- The kernel for tracking a line that has been chosen is not used if there is no kernel for tracking until a turn. -/
theorem C95_line_id_violated : ∃ t t' : Tracker, t.setKernel .line 3 = (true, t') ∧ t'.has .line = .ok true ∧
    t'.kernel .line = some 3 ∧ t'.id .line = .ok ILLEGAL :=
  ⟨{ clTracker false with kernel := fun _ => some ILLEGAL }, _, rfl, rfl, rfl, rfl⟩

end SixTrack
