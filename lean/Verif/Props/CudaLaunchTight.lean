import Verif.Props.CudaGridMore
import Verif.Props.CudaLaunchMore

/-!
# C101 and C102: what is left when configurations are missing, cleared or refused
-/

namespace SixTrack
open SixTrack.KConf SixTrack.WorkItems SixTrack.CudaGrid SixTrack.CudaLaunch

/-- Before an update there are no blocks and no threads. -/
theorem C101_total_none (c : Conf) (h : c.needsUpdate = true) :
    c.launch = none ∧ c.totalBlocks = 0 ∧ c.totalPerBlock = 0 ∧ c.totalThreads = 0 := by
  have h1 : c.totalBlocks = 0 := by unfold Conf.totalBlocks; rw [h]; rfl
  have h2 : c.totalPerBlock = 0 := by unfold Conf.totalPerBlock; rw [h]; rfl
  refine ⟨by unfold Conf.launch; rw [h]; rfl, h1, h2, ?_⟩
  unfold Conf.totalThreads
  rw [h1, Nat.zero_mul, Nat.zero_mod]

example : ({ CudaGrid.new 1 1 0 0 32 with needsUpdate := true } : Conf).needsUpdate = true := rfl

/-- Clearing makes all sizes zero and keeps the dimensions; no update is possible afterwards. -/
theorem C101_cleared (c : Conf) (hi : c.items.dim ≤ 3) (hg : c.groups.dim ≤ 3) :
    ∃ d, c.step .clear = .ok d ∧ d.items.dim = c.items.dim ∧ d.groups.dim = c.groups.dim ∧
      (∀ i < c.items.dim, sizeIn d.items i = 0) ∧ (∀ i < c.groups.dim, sizeIn d.groups i = 0) ∧
      d.update = .ok (false, d) := by
  have zero : ∀ s : Sizes, s.dim ≤ 3 → ∀ i < s.dim, sizeIn (clearSizes s) i = 0 := by
    intro s hs i hi
    match i, hi with
    | 0, hi => exact if_pos hi
    | 1, hi => exact if_pos hi
    | 2, hi => exact if_pos hi
    | n + 3, hi => omega
  refine ⟨_, rfl, rfl, rfl, zero _ hi, zero _ hg, ?_⟩
  apply C101_refused
  · exact hi
  · by_cases h0 : c.items.dim = 0
    · exact .inl h0
    · exact .inr (.inr ⟨0, Nat.pos_of_ne_zero h0, .inr (zero _ hi 0 (Nat.pos_of_ne_zero h0))⟩)

example : (CudaGrid.new 2 2 0 0 32).items.dim ≤ 3 ∧ (CudaGrid.new 2 2 0 0 32).groups.dim ≤ 3 := by decide

/-- The kernel for addresses counts the bytes of the buffer for addresses or, without one, the objects of the particle buffer. -/
theorem C102_num_sets (j : Job) :
    (∀ n, j.addrBytes = some n → j.numSets = n) ∧ (∀ n, j.addrBytes = none → j.objs = some n → j.numSets = n) ∧
      (j.addrBytes = none → j.objs = none → j.numSets = 0) := by
  unfold Job.numSets
  exact ⟨fun n h => by rw [h], fun n h g => by rw [h, g]; rfl, fun h g => by rw [h, g]; rfl⟩

/-- After preparing, the kernel that assigns addresses is launched with one thread. -/
theorem C102_assign_single (j : Job) (h : JobSane j) : ∃ j' c g b, j.prepare = .ok (true, j') ∧
    j'.conf (j'.ids .assign) = some c ∧ c.launch = some (g, b) ∧ volume g = 1 ∧ volume b = 1 := by
  obtain ⟨e, i, h1, -, h2, -⟩ := C102_prepare j h
  obtain ⟨c, g, b, h3, h4, h5⟩ := h2 .assign
  refine ⟨_, c, g, b, h1, h3, h4, ?_, ?_⟩
  · have e1 := h5.enough
    have e2 := h5.least
    simp only [Job.perBlock, Job.workItems] at e1 e2
    unfold volume
    rw [h5.flat.1, h5.flat.2]
    omega
  · unfold volume
    rw [h5.shape.1, h5.shape.2.1, h5.shape.2.2]
    rfl

/-- The id of a kernel is set exactly if its configuration could be made; the other kernels keep theirs. -/
theorem C102_set_kernel (j : Job) (k : Kernel) (id : Nat) (r : Bool × Job) (h : j.setKernel k id = .ok r) :
    (r.1 = true → r.2.ids k = id ∧ ∀ x, x ≠ k → r.2.ids x = j.ids x) ∧ (r.1 = false → r.2.ids = j.ids) ∧
      (j.warp = some 0 → r.1 = false) := by
  unfold Job.setKernel at h
  split at h
  · rename_i c w hc hw
    split at h
    · obtain ⟨q, hq, h⟩ := Res.bind_eq_ok.1 h
      have hz : w = 0 → q.1 = false := by
        intro h0
        subst h0
        unfold configure at hq
        simp only [Nat.lt_irrefl, false_and, if_false] at hq
        split at hq
        · split at hq <;> cases hq <;> rfl
        · cases hq; rfl
      cases h
      cases hb : q.1 with
      | true =>
        refine ⟨fun _ => ⟨if_pos rfl, fun x hx => if_neg hx⟩, fun h => Bool.noConfusion h, fun h => ?_⟩
        have := hz (Option.some.inj (hw.symm.trans h))
        rw [hb] at this
        cases this
      | false => exact ⟨fun h => Bool.noConfusion h, fun _ => rfl, fun _ => rfl⟩
    · cases h
      exact ⟨fun h => Bool.noConfusion h, fun _ => rfl, fun _ => rfl⟩
  · cases h
    exact ⟨fun h => Bool.noConfusion h, fun _ => rfl, fun _ => rfl⟩

example : ∃ j', Job.setKernel { launchJob false with warp := some 0, confs := [some (CudaGrid.new 1 1 0 0 32)] } .until 0 =
    .ok (false, j') ∧ j'.ids .until = ILLEGAL := ⟨_, rfl, rfl⟩

/-- Without a node no kernel is made and the id is not legal. -/
theorem C102_add_refused (j : Job) (h : j.warp = none) : j.add = (ILLEGAL, j) ∧ ∀ j' : Job, j'.conf j.add.1 = none := by
  have e : j.add = (ILLEGAL, j) := by unfold Job.add; rw [h]
  exact ⟨e, fun j' => by rw [e]; rfl⟩

private theorem loop_false : ∀ (ks : List Kernel) (j : Job) (r : Bool × Job), Job.prepareLoop ks false j = .ok r → r.1 = false
  | [], _, _, h => by cases h; rfl
  | k :: ks, j, r, h => by
    unfold Job.prepareLoop at h
    obtain ⟨q, _, h⟩ := Res.bind_eq_ok.1 h
    exact loop_false ks _ r h

private theorem perBlock_eq {j j' : Job} (h : j'.trackThreads = j.trackThreads ∧ j'.threads = j.threads) (k : Kernel) :
    j'.perBlock k = j.perBlock k := by
  cases k <;> simp [Job.perBlock, h.1, h.2]

private theorem setKernel_threads {j : Job} {k : Kernel} {id : Nat} {r : Bool × Job} (h : j.setKernel k id = .ok r) :
    r.2.trackThreads = j.trackThreads ∧ r.2.threads = j.threads := by
  unfold Job.setKernel at h
  split at h
  · split at h
    · obtain ⟨q, _, h⟩ := Res.bind_eq_ok.1 h
      cases h
      cases q.1 <;> exact ⟨rfl, rfl⟩
    · cases h; exact ⟨rfl, rfl⟩
  · cases h; exact ⟨rfl, rfl⟩

private theorem add_threads (j : Job) : j.add.2.trackThreads = j.trackThreads ∧ j.add.2.threads = j.threads := by
  unfold Job.add
  split <;> exact ⟨rfl, rfl⟩

private theorem loop_zero {k : Kernel} : ∀ (ks : List Kernel) (ok : Bool) (j : Job) (r : Bool × Job), k ∈ ks →
    j.perBlock k = 0 → Job.prepareLoop ks ok j = .ok r → r.1 = false
  | [], _, _, _, hk, _, _ => by cases hk
  | x :: ks, ok, j, r, hk, h0, h => by
    unfold Job.prepareLoop at h
    obtain ⟨q, hq, h⟩ := Res.bind_eq_ok.1 h
    by_cases hx : k = x
    · subst hx
      rw [C102_refused _ k _ (.inr (.inr ((perBlock_eq (add_threads j) k).trans h0)))] at hq
      cases hq
      rw [Bool.and_false] at h
      exact loop_false ks _ r h
    · have hk' : k ∈ ks := by
        rcases List.mem_cons.1 hk with e | e
        · exact absurd e hx
        · exact e
      exact loop_zero ks _ _ r hk' ((perBlock_eq (setKernel_threads hq) k).trans
        ((perBlock_eq (add_threads j) k).trans h0)) h

/-- Preparing the kernels fails if one kind of blocks has no threads, and if there are no nodes. -/
theorem C102_prepare_fails (j : Job) (r : Bool × Job) (h : j.prepare = .ok r)
    (hz : (j.warp.isSome = true ∧ (j.trackThreads = 0 ∨ j.threads = 0)) ∨ (j.warp = none ∧ j.nodes = 0)) : r.1 = false := by
  unfold Job.prepare at h
  rcases hz with ⟨hw, hz⟩ | ⟨hw, hn⟩
  · obtain ⟨w, hw⟩ := Option.isSome_iff_exists.1 hw
    rw [hw] at h
    obtain ⟨a, ha, h⟩ := Res.bind_eq_ok.1 h
    obtain ⟨b, hb, h⟩ := Res.bind_eq_ok.1 h
    cases h
    have h1 : a.1 = false := by
      rcases hz with hz | hz
      · exact loop_zero (k := .until) _ _ _ _ (by simp) hz ha
      · exact loop_zero (k := .monitors) _ _ _ _ (by simp) hz ha
    rw [h1] at hb
    simp only [h1, loop_false _ _ _ hb, Bool.or_self]
  · rw [hw, hn] at h
    cases h
    rfl

example : ∃ j', Job.prepare { launchJob false with trackThreads := 0 } = .ok (false, j') := ⟨_, rfl⟩
example : Job.prepare { launchJob false with warp := none, nodes := 0 } =
    .ok (false, { launchJob false with warp := none, nodes := 0 }) := rfl

/-- The kernel that assigns addresses may fail without making the preparation fail: that is so if the controller has so many kernels
that it would get the illegal id. -/
theorem C102_assign_lost_violated (j : Job) (h : JobSane { j with confs := [] }) (hl : j.confs.length = 2 ^ 32 - 7) :
    ∃ j', j.prepare = .ok (true, j') ∧ j'.ids .assign = j.ids .assign := by
  obtain ⟨w, hw, hw0⟩ := h.node
  obtain ⟨e, i, p1, p2, p3, -, -⟩ := prepare_all [.until, .elemByElem, .line, .monitors, .config, .addresses] (by decide) j w
    hw hw0 (by simp only [List.length_cons, List.length_nil]; omega) fun k _ => workItems_sane h k
  simp only [List.length_cons, List.length_nil] at p2
  have hw' : j.warp = some w := hw
  have hadd : (Job.add { j with confs := j.confs ++ e, ids := i }).1 = ILLEGAL := by
    unfold Job.add
    simp only [hw', List.length_append, p2, hl]
    rfl
  have hset := C102_refused (Job.add { j with confs := j.confs ++ e, ids := i }).2 .assign
    (Job.add { j with confs := j.confs ++ e, ids := i }).1 (.inl (by rw [hadd]; rfl))
  refine ⟨(Job.add { j with confs := j.confs ++ e, ids := i }).2, ?_, ?_⟩
  · have q1 : Job.prepareLoop [.assign] true { j with confs := j.confs ++ e, ids := i } =
        .ok (false, (Job.add { j with confs := j.confs ++ e, ids := i }).2) := by
      unfold Job.prepareLoop
      rw [hset, Res.ok_bind]
      rfl
    unfold Job.prepare
    split
    · rw [p1, Res.ok_bind, q1, Res.ok_bind]
      rfl
    · rename_i hn
      rw [hn] at hw'
      cases hw'
  · have : (Job.add { j with confs := j.confs ++ e, ids := i }).2.ids = i := by
      unfold Job.add
      simp only [hw']
    rw [this]
    exact p3 .assign (by decide)

example : ∃ j : Job, JobSane { j with confs := [] } ∧ j.confs.length = 2 ^ 32 - 7 :=
  ⟨{ launchJob false with confs := List.replicate (2 ^ 32 - 7) none }, launchJob_sane false, List.length_replicate⟩

/-- In the debug mode a missing configuration is a success without any launch; otherwise a null pointer is dereferenced. -/
theorem C102_no_conf_violated (j : Job) (d : Device) (turn : Nat) (hs : j.sets ≠ []) (hc : j.conf (j.ids .until) = none) :
    (j.debug = true → j.register = true → d.send = true → d.receive = true → j.trackUntil d turn = .ok (0#32, none)) ∧
      (j.debug = false → j.trackUntil d turn = .ub) := by
  obtain ⟨s, rest, hs⟩ := List.exists_cons_of_ne_nil hs
  have he : DebugReg.evaluate (0#64) = .ok 0#32 := by decide +kernel
  unfold Job.trackUntil
  rw [hs, hc]
  simp only
  constructor
  · intro h1 h2 h3 h4
    unfold Job.run
    rw [if_neg (by simp [h1]), if_pos h2, if_pos h3]
    show (if d.receive = true then (DebugReg.evaluate (0#64) >>= _) else _) = _
    rw [if_pos h4, he]
    rfl
  · intro h1
    unfold Job.run
    rw [if_pos h1]
    rfl

example : (launchJob true).sets ≠ [] ∧ (launchJob true).conf ((launchJob true).ids .until) = none := ⟨by decide, rfl⟩

/-- A job without particle sets reads a set that is not there. -/
theorem C102_no_sets_violated (j : Job) (d : Device) (hs : j.sets = []) (config turn first last : Nat) (finish : Bool) :
    j.trackUntil d turn = .ub ∧ j.trackElemByElem d config turn = .ub ∧ j.trackLine d first last finish = .ub := by
  unfold Job.trackUntil Job.trackElemByElem Job.trackLine
  rw [hs]
  exact ⟨rfl, rfl, rfl⟩

end SixTrack
