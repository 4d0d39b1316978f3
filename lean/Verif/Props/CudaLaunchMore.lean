import Verif.Props.CudaLaunch

/-!
# C102: what the launches of the CUDA track job miss
-/

namespace SixTrack
open SixTrack.KConf SixTrack.WorkItems SixTrack.CudaGrid SixTrack.CudaLaunch

/-- a job with a selected node, two particle sets with 4096 particles, and blocks of 64 and 32 threads -/
def launchJob (debug : Bool) : Job :=
  ⟨[], 1, some 32, fun _ => ILLEGAL, [3, 4], 4096, some 400, some 5, 64, 32, debug, true⟩

theorem launchJob_sane (debug : Bool) : JobSane (launchJob debug) := by
  constructor
  · exact ⟨32, rfl, by decide⟩
  · decide +revert
  · decide +revert
  · decide +revert
  · decide +revert
  · decide +revert

/-- what is left of the job once its kernels are prepared -/
def readyJob (debug : Bool) : Res (Bool × Job) := (launchJob debug).prepare

/-- C102 with C78: once the kernels are prepared, the threads that tracking launches in the debug mode, in any order, one after
another, track all particles of the first set. -/
theorem C102_until_tracks_partial {E C R : Type} (S : Track.Sem E C R) (lat : List E) (hS : Status32 S lat)
    (hmin : ∀ e ∈ lat, ∀ p, (S.dispatch e p).status ≠ -2 ^ 31) (turn : Nat) (j j' : Job) (d : Device) (h : JobSane j)
    (hp : j.prepare = .ok (true, j')) (hd : j.debug = true) (hreg : j.register = true) (hsend : d.send = true)
    (hrec : d.receive = true) (a : JobTrack.Args) (ha : Legal a) (hpl : InPlace a) {rest : List Nat}
    (hsets : j.sets = a.set :: rest) (m : JobTrack.Mem C R) (hs : ∃ ps, m.objs[a.set]? = some (some ps)) :
    ∃ grid block, (∀ s, DebugReg.evaluate (d.leaves ⟨.until a.set turn, false, true, grid, block⟩) = .ok s →
        j'.trackUntil d turn = .ok (s, some ⟨.until a.set turn, false, true, grid, block⟩)) ∧
      ∀ threads : List (Dim3 × Dim3), threads.Nodup → (∀ p, p ∈ threads ↔ ThreadOf grid block p) →
      ∃ reg st m', JobTrack.items
          (fun k m => JobTrack.untilDebug S lat turn (a.item (totalThreads grid block).toNat k) m)
          (threads.map fun p => (threadId grid block p.2 p.1).toNat) 0 m = .ok (reg, m') ∧
        Tracked (Track.trackUntil S lat turn) [a.set] m st m' ∧ Reports reg st (fun _ => False) := by
  obtain ⟨e, i, h1, -, h2, -⟩ := C102_prepare j h
  rw [hp] at h1
  obtain rfl := (Prod.mk.inj (Res.ok.inj h1)).2
  obtain ⟨g, b, hl, hr⟩ := (C102_track { j with confs := j.confs ++ e, ids := i } d h2 hsets).1 turn
  have ht : 0 < j.trackThreads ∧ j.trackThreads < 2 ^ 32 := h.track
  have hvb : volume b = j.trackThreads := by
    unfold volume
    rw [hl.shape.1, hl.shape.2.1, hl.shape.2.2, Nat.mul_one, Nat.mul_one]
  have hvg : volume g = g.x.toNat := by
    unfold volume
    rw [hl.flat.1, hl.flat.2, Nat.mul_one, Nat.mul_one]
  have hg0 : 0 < g.x.toNat := by
    have h3 := hl.enough
    have h4 := (trackItems_spec (n := j.total) ht.1).1
    by_contra hc
    rw [Nat.eq_zero_of_not_pos hc, Nat.zero_mul] at h3
    exact absurd (Nat.lt_of_lt_of_le h4 h3) (Nat.lt_irrefl _)
  refine ⟨g, b, fun s he => hr.debug hd hreg hsend hrec s he, fun threads hn hall => ?_⟩
  exact C78_launch_partial S lat hS hmin turn a ha hpl g b ⟨by rw [hvg]; exact g.x.isLt, by rw [hvb]; exact ht.2⟩
    (by rw [hvg]; exact hg0) (by rw [hvb]; exact ht.1) threads hn hall m hs

/-- The kernels of the example are prepared, and tracking launches one block of 64 threads. -/
example : ∃ j', readyJob false = .ok (true, j') ∧ ∀ d turn, j'.trackUntil d turn =
    .ok (0#32, some ⟨.until 3 turn, true, false, ⟨1, 1, 1⟩, ⟨64, 1, 1⟩⟩) :=
  ⟨_, rfl, fun _ _ => rfl⟩

/-- The number of particles is divided by the threads of a block twice: 4096 particles are tracked by 64 threads, though there is a
thread for each of them in 64 blocks. -/
theorem C102_threads_violated : ∃ j', readyJob false = .ok (true, j') ∧ ∀ d turn, ∃ l,
    j'.trackUntil d turn = .ok (0#32, some l) ∧ volume l.grid * volume l.block = 64 ∧ j'.total = 64 * 64 :=
  ⟨_, rfl, fun _ _ => ⟨_, rfl, rfl, rfl⟩⟩

/-- Only the first particle set is tracked, and that is a success. -/
theorem C102_sets_violated : ∃ j', readyJob false = .ok (true, j') ∧ j'.sets = [3, 4] ∧
    ∀ d turn r, j'.trackUntil d turn = .ok r → r.1 = 0#32 ∧ ∃ l, r.2 = some l ∧ l.call = .until 3 turn :=
  ⟨_, rfl, rfl, fun _ _ _ h => by
    obtain rfl := Res.ok.inj h.symm
    exact ⟨rfl, _, rfl, rfl⟩⟩

/-- In the debug mode, assigning the output for tracking element by element launches the plain kernel: it is a success whatever happens on
the device. -/
theorem C102_config_debug_violated (j : Job) (d : Device) (hr : ∀ k, KernelReady j k) (hd : j.debug = true)
    (hreg : j.register = true) (hs : d.send = true) (hv : d.receive = true) (index offset : Nat) :
    ∃ g b, j.assignConfig true d index offset = .ok (0#32, some ⟨.config index offset, true, false, g, b⟩) := by
  obtain ⟨c, g, b, h1, h2, -⟩ := hr .monitors
  refine ⟨g, b, ?_⟩
  unfold Job.assignConfig Job.runIf
  rw [if_pos ⟨rfl, by rw [h1]; rfl⟩]
  unfold Job.run wrapper
  rw [if_neg (by simp [hd]), if_pos hreg, if_pos hs, h1]
  simp only [Option.bind_some, h2, hv, if_true, Res.ok_bind]
  have he : DebugReg.evaluate (0#64) = .ok 0#32 := by decide +kernel
  show (DebugReg.evaluate (0#64) >>= _) = _
  rw [he, Res.ok_bind]
  rfl

/-- The same call with beam monitors tells what happened. -/
example : ∃ j', readyJob true = .ok (true, j') ∧ ∀ d : Device, d.send = true → d.receive = true →
    (∀ l, d.leaves l = 0x100000000#64) → ∀ own x offset, ∃ l l',
      j'.assignMonitors true d own x offset = .ok (-1#32, some l) ∧ j'.assignConfig true d 0 offset = .ok (0#32, some l') := by
  obtain ⟨e, i, h, -, hr, -⟩ := C102_prepare _ (launchJob_sane true)
  refine ⟨_, h, fun d hs hv hl own x offset => ?_⟩
  obtain ⟨g, b, -, hm⟩ := (C102_assign _ d hr).1 own x offset
  obtain ⟨g', b', hc⟩ := C102_config_debug_violated _ d hr rfl rfl hs hv 0 offset
  exact ⟨_, _, hm.debug rfl rfl hs hv _ (by rw [hl]; decide +kernel), hc⟩

/-- The turn that beam monitors start with is always that of the job. -/
theorem C102_turn_violated (j : Job) (ready : Bool) (d : Device) (own turn turn' : Int) (offset : Nat) :
    j.assignMonitors ready d own turn offset = j.assignMonitors ready d own turn' offset := rfl

/-- Tracking a part of the line does not look at the configuration of its own kernel: with one that was prepared for a block of 1024
threads it takes the other one, and without the other one it dereferences a null pointer. -/
theorem C102_line_violated : ∃ j' c, readyJob false = .ok (true, j') ∧
    configure (new 1 1 0 0 32) 32 1024 1024 = .ok (true, c) ∧ c.launch = some (⟨1, 1, 1⟩, ⟨1024, 1, 1⟩) ∧
    ∀ d, Job.trackLine { j' with confs := j'.confs.set (j'.ids .line) (some c) } d 0 1 true =
      .ok (0#32, some ⟨.line 3 0 1 true, true, false, ⟨1, 1, 1⟩, ⟨64, 1, 1⟩⟩) ∧
    Job.trackLine { j' with confs := j'.confs.set (j'.ids .elemByElem) none } d 0 1 true = .ub :=
  ⟨_, _, rfl, rfl, rfl, fun _ => ⟨rfl, rfl⟩⟩

/-- If no node is selected preparing the kernels is a success without any; tracking then dereferences a null pointer. -/
theorem C102_no_node_violated : ∃ j : Job, 0 < j.nodes ∧ j.prepare = .ok (true, j) ∧ j.confs = [] ∧
    ∀ d turn, j.trackUntil d turn = .ub :=
  ⟨{ launchJob false with warp := none }, by decide, rfl, rfl, fun _ _ => rfl⟩

/-- Blocks can be larger than any device allows (1024 threads); the launch fails, and that is a success. -/
theorem C102_block_violated : threadsOf none (some 2048) = (128, 2048) ∧
    ∃ j', Job.prepare { launchJob false with trackThreads := 2048 } = .ok (true, j') ∧ ∀ d turn,
      j'.trackUntil d turn = .ok (0#32, some ⟨.until 3 turn, true, false, ⟨1, 1, 1⟩, ⟨2048, 1, 1⟩⟩) :=
  ⟨rfl, _, rfl, fun _ _ => rfl⟩

/-- The kernel that fetches addresses is configured for as many work items as the buffer for addresses has bytes. -/
theorem C102_bytes_violated : (launchJob false).objs = some 5 ∧ (launchJob false).numSets = 400 ∧
    (launchJob false).workItems .addresses = 13 := ⟨rfl, rfl, rfl⟩

end SixTrack
