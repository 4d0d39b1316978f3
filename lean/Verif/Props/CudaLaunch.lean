import Verif.CudaLaunch
import Verif.Props.CudaGrid

/-!
# C102: what the CUDA track job launches
-/

namespace SixTrack
open SixTrack.KConf SixTrack.WorkItems SixTrack.CudaGrid SixTrack.CudaLaunch

/-- The launch has one direction, blocks of `t` threads, and just enough of them for `n` work items. -/
structure LaunchOf (n t : Nat) (g b : Dim3) : Prop where
  shape : b.x.toNat = t ∧ b.y.toNat = 1 ∧ b.z.toNat = 1
  flat : g.y.toNat = 1 ∧ g.z.toNat = 1
  enough : n ≤ g.x.toNat * t
  least : g.x.toNat * t < n + t

/-- The kernel has a configuration that is updated and fits to the job. -/
def KernelReady (j : Job) (k : Kernel) : Prop :=
  ∃ c g b, j.conf (j.ids k) = some c ∧ c.launch = some (g, b) ∧ LaunchOf (j.workItems k) (j.perBlock k) g b

/-- A node is selected, there are threads in a block, and neither their number nor that of the blocks is too large. -/
structure JobSane (j : Job) : Prop where
  node : ∃ w, j.warp = some w ∧ 0 < w
  track : 0 < j.trackThreads ∧ j.trackThreads < 2 ^ 32
  other : 0 < j.threads ∧ j.threads < 2 ^ 32
  particles : j.total ≤ (2 ^ 32 - 1) * j.trackThreads
  sets : j.numSets ≤ (2 ^ 32 - 1) * j.threads
  room : j.confs.length + 7 < 2 ^ 32

theorem trackItems_spec {n t : Nat} (ht : 0 < t) :
    0 < trackItems n t ∧ n ≤ trackItems n t * t ∧ trackItems n t * t ≤ n + t := by
  have h := Nat.div_add_mod n t
  have hm := Nat.mod_lt n ht
  have e : n / t * t = t * (n / t) := Nat.mul_comm _ _
  unfold trackItems
  simp only
  generalize n / t = q at *
  by_cases h0 : q * t < n
  · rw [if_pos h0, if_neg (by omega), Nat.add_mul, Nat.one_mul]
    omega
  · rw [if_neg h0]
    by_cases h1 : q = 0
    · rw [if_pos h1, Nat.one_mul]
      rw [h1] at h0
      omega
    · rw [if_neg h1]
      omega

theorem trackItems_le {n t m : Nat} (ht : 0 < t) (hm : 0 < m) (h : n ≤ m * t) : trackItems n t ≤ m * t := by
  have hs : trackItems n t ≤ m := by
    unfold trackItems
    simp only
    have hd : n / t ≤ m := Nat.div_le_of_le_mul (by rw [Nat.mul_comm]; exact h)
    generalize n / t = q at *
    by_cases h0 : q * t < n
    · rw [if_pos h0, if_neg (by omega)]
      by_contra hc
      have : q = m := by omega
      rw [this] at h0
      omega
    · rw [if_neg h0]
      split_ifs <;> omega
  exact Nat.le_trans hs (Nat.le_mul_of_pos_right _ ht)

/-- Configuring a kernel in one direction. -/
theorem configure_ok (c : Conf) {w n t : Nat} (hi : c.items.dim = 1) (hg : c.groups.dim = 1) (hw : 0 < w)
    (hn : 0 < n ∧ n ≤ (2 ^ 32 - 1) * t) (ht : 0 < t ∧ t < 2 ^ 32) :
    ∃ c' g b, configure c w n t = .ok (true, c') ∧ c'.launch = some (g, b) ∧ LaunchOf n t g b := by
  have e1 : c.items.set1 n = ({ c.items with v := { c.items.v with a := n } }, true) := by
    unfold Sizes.set1
    rw [if_pos ⟨hi, hn.1⟩]
  have e2 : c.groups.set1 t = ({ c.groups with v := { c.groups.v with a := t } }, true) := by
    unfold Sizes.set1
    rw [if_pos ⟨hg, ht.1⟩]
  have hc : configure c w n t = Conf.update { c with
      items := { c.items with v := { c.items.v with a := n } }
      groups := { c.groups with v := { c.groups.v with a := t } } } := by
    unfold configure
    simp only [e1, e2, if_true]
    rw [if_pos ⟨hw, hg⟩]
  have one : ∀ {i}, i < c.items.dim → i = 0 := fun {i} h => by omega
  obtain ⟨s, b, th, hu, hcov, hs⟩ := C101_update { c with
      items := { c.items with v := { c.items.v with a := n } }
      groups := { c.groups with v := { c.groups.v with a := t } } }
    ⟨by simp only; omega, by simp only; omega, fun i h => by obtain rfl := one h; exact hn,
      fun i h => by obtain rfl := one h; exact ht⟩
  have h0 : 0 < c.items.dim := by omega
  have r1 := hcov.rest 1 (by simp only; omega) (by omega)
  have r2 := hcov.rest 2 (by simp only; omega) (by omega)
  have sh := hcov.shape 0 h0
  have en := hcov.enough 0 h0
  have le := hcov.least 0 h0
  simp only [extentIn, sizeIn] at r1 r2 sh en le
  have hs : s = true := by
    apply hs
    · unfold volume
      rw [r1.1, r2.1]
      have := b.x.isLt
      omega
    · unfold volume
      rw [r1.2, r2.2]
      have := th.x.isLt
      omega
  subst hs
  refine ⟨_, b, th, hc.trans hu, rfl, ⟨sh, r1.2, r2.2⟩, ⟨r1.1, r2.1⟩, ?_, ?_⟩
  · rw [← sh]
    exact en
  · rw [← sh]
    exact le

theorem workItems_sane {j : Job} (h : JobSane j) (k : Kernel) :
    (0 < j.workItems k ∧ j.workItems k ≤ (2 ^ 32 - 1) * j.perBlock k) ∧ 0 < j.perBlock k ∧ j.perBlock k < 2 ^ 32 := by
  have ht := h.track
  have ho := h.other
  have a1 := (trackItems_spec (n := j.total) ht.1).1
  have a2 := trackItems_le ht.1 (by omega) h.particles
  have b1 := (trackItems_spec (n := j.numSets) ho.1).1
  have b2 := trackItems_le ho.1 (by omega) h.sets
  cases k <;> simp only [Job.workItems, Job.perBlock] <;> omega

theorem confs_append {j : Job} {id : Nat} {c : Conf} (h : j.conf id = some c) (e : List (Option Conf)) (i : Kernel → Nat) :
    Job.conf { j with confs := j.confs ++ e, ids := i } id = some c := by
  unfold Job.conf at h ⊢
  split_ifs at h ⊢ with hid
  have hlt : id < j.confs.length := by
    by_contra hc
    rw [List.getElem?_eq_none (by omega)] at h
    simp at h
  simp only
  rw [List.getElem?_append_left hlt]
  exact h

/-- Adding and configuring one kernel. -/
theorem prepare_step {j : Job} (k : Kernel) {w : Nat} (hw : j.warp = some w) (hw0 : 0 < w) (hl : j.confs.length + 1 < 2 ^ 32)
    (hn : 0 < j.workItems k ∧ j.workItems k ≤ (2 ^ 32 - 1) * j.perBlock k) (ht : 0 < j.perBlock k ∧ j.perBlock k < 2 ^ 32) :
    ∃ c g b, j.add.2.setKernel k j.add.1 = .ok (true, { j with
        confs := j.confs ++ [some c], ids := fun x => if x = k then j.confs.length else j.ids x }) ∧
      c.launch = some (g, b) ∧ LaunchOf (j.workItems k) (j.perBlock k) g b := by
  have hlen : j.confs.length % 2 ^ 32 = j.confs.length := Nat.mod_eq_of_lt (by omega)
  have hadd : j.add = (j.confs.length, { j with confs := j.confs ++ [some ((new 1 1 0 0 32).setWarp w)] }) := by
    unfold Job.add
    rw [hw]
    simp only [hlen]
  rw [hadd]
  have hdim : ((new 1 1 0 0 32).setWarp w).items.dim = 1 ∧ ((new 1 1 0 0 32).setWarp w).groups.dim = 1 := by
    unfold Conf.setWarp
    rw [if_pos hw0]
    exact ⟨rfl, rfl⟩
  obtain ⟨c, g, b, h1, h2, h3⟩ := configure_ok ((new 1 1 0 0 32).setWarp w) hdim.1 hdim.2 hw0 hn ht
  refine ⟨c, g, b, ?_, h2, h3⟩
  have hconf : Job.conf { j with confs := j.confs ++ [some ((new 1 1 0 0 32).setWarp w)] } j.confs.length =
      some ((new 1 1 0 0 32).setWarp w) := by
    unfold Job.conf ILLEGAL
    rw [if_pos (by omega)]
    simp
  unfold Job.setKernel
  rw [hconf]
  simp only [hw]
  have hp : Job.perBlock { j with confs := j.confs ++ [some ((new 1 1 0 0 32).setWarp w)] } k = j.perBlock k := by
    cases k <;> rfl
  have hq : Job.workItems { j with confs := j.confs ++ [some ((new 1 1 0 0 32).setWarp w)] } k = j.workItems k := by
    cases k <;> rfl
  simp only [hw] at hp hq
  rw [hp, hq, if_pos ht.1, h1]
  simp [Res.pure_eq, Res.ok_bind]

theorem prepare_all (ks : List Kernel) (hk : ks.Nodup) : ∀ (j : Job) (w : Nat), j.warp = some w → 0 < w →
    j.confs.length + ks.length < 2 ^ 32 →
    (∀ k ∈ ks, (0 < j.workItems k ∧ j.workItems k ≤ (2 ^ 32 - 1) * j.perBlock k) ∧ 0 < j.perBlock k ∧ j.perBlock k < 2 ^ 32) →
    ∃ e i, Job.prepareLoop ks true j = .ok (true, { j with confs := j.confs ++ e, ids := i }) ∧
      e.length = ks.length ∧ (∀ k, k ∉ ks → i k = j.ids k) ∧
      (∀ n (h : n < ks.length), i ks[n] = j.confs.length + n) ∧
      ∀ k ∈ ks, KernelReady { j with confs := j.confs ++ e, ids := i } k := by
  induction ks with
  | nil => exact fun j w _ _ _ _ => ⟨[], j.ids, by simp [Job.prepareLoop], rfl, fun _ _ => rfl,
      fun n h => absurd h (by simp), fun k h => absurd h (by simp)⟩
  | cons k ks ih =>
    intro j w hw hw0 hl hs
    rw [List.nodup_cons] at hk
    rw [List.length_cons] at hl
    obtain ⟨hn, ht⟩ := hs k List.mem_cons_self
    obtain ⟨c, g, b, h1, h2, h3⟩ := prepare_step k hw hw0 (by omega) hn ht
    obtain ⟨e, i, q1, q2, q3, q4, q5⟩ := ih hk.2 { j with
        confs := j.confs ++ [some c], ids := fun x => if x = k then j.confs.length else j.ids x } w hw hw0
      (by simp only [List.length_append, List.length_singleton]; omega)
      (fun x hx => hs x (List.mem_cons_of_mem _ hx))
    refine ⟨some c :: e, i, ?_, by simp [q2], ?_, ?_, ?_⟩
    · unfold Job.prepareLoop
      rw [h1, Res.ok_bind]
      simp only [Bool.and_true]
      rw [q1]
      simp
    · intro x hx
      rw [List.mem_cons, not_or] at hx
      rw [q3 x hx.2]
      simp [hx.1]
    · intro n hlt
      match n with
      | 0 =>
        rw [List.getElem_cons_zero, q3 k hk.1]
        simp
      | n + 1 =>
        rw [List.getElem_cons_succ, q4 n (by simpa using hlt)]
        simp only [List.length_append, List.length_singleton]
        omega
    · have hjob : ({ j with confs := j.confs ++ some c :: e, ids := i } : Job) =
          { j with confs := (j.confs ++ [some c]) ++ e, ids := i } := by simp
      intro x hx
      rw [hjob]
      rw [List.mem_cons] at hx
      obtain rfl | hx := hx
      · have hid : i x = j.confs.length := by
          rw [q3 x hk.1]
          simp
        refine ⟨c, g, b, ?_, h2, h3⟩
        have hc : Job.conf { j with confs := j.confs ++ [some c] } j.confs.length = some c := by
          unfold Job.conf ILLEGAL
          rw [if_pos (by omega)]
          simp
        have := confs_append hc e i
        rw [← hid] at this
        exact this
      · exact q5 x hx

/-- Preparing the kernels is a success, and each of them has its own configuration that is updated. -/
theorem C102_prepare (j : Job) (h : JobSane j) :
    ∃ e i, j.prepare = .ok (true, { j with confs := j.confs ++ e, ids := i }) ∧ e.length = 7 ∧
      (∀ k, KernelReady { j with confs := j.confs ++ e, ids := i } k) ∧
      (∀ k, j.confs.length ≤ i k ∧ i k < j.confs.length + 7) ∧ ∀ k k', i k = i k' → k = k' := by
  obtain ⟨w, hw, hw0⟩ := h.node
  have hr := h.room
  obtain ⟨e, i, p1, p2, p3, p4, p5⟩ := prepare_all [.until, .elemByElem, .line, .monitors, .config, .addresses] (by decide) j w
    hw hw0 (by simp only [List.length_cons, List.length_nil]; omega) fun k _ => workItems_sane h k
  simp only [List.length_cons, List.length_nil] at p2
  obtain ⟨e', i', q1, q2, q3, q4, q5⟩ := prepare_all [.assign] (by decide) { j with confs := j.confs ++ e, ids := i } w hw hw0
    (by simp only [List.length_append, List.length_cons, List.length_nil]; omega) fun k _ => workItems_sane h k
  simp only [List.length_cons, List.length_nil] at q2
  have hi : ∀ k, k ≠ .assign → i' k = i k := fun k hk => q3 k (by simpa using hk)
  have ids : i' .until = j.confs.length + 0 ∧ i' .elemByElem = j.confs.length + 1 ∧ i' .line = j.confs.length + 2 ∧
      i' .monitors = j.confs.length + 3 ∧ i' .config = j.confs.length + 4 ∧ i' .addresses = j.confs.length + 5 ∧
      i' .assign = j.confs.length + 6 := by
    refine ⟨?_, ?_, ?_, ?_, ?_, ?_, ?_⟩
    · exact (hi _ (by decide)).trans (p4 0 (by decide))
    · exact (hi _ (by decide)).trans (p4 1 (by decide))
    · exact (hi _ (by decide)).trans (p4 2 (by decide))
    · exact (hi _ (by decide)).trans (p4 3 (by decide))
    · exact (hi _ (by decide)).trans (p4 4 (by decide))
    · exact (hi _ (by decide)).trans (p4 5 (by decide))
    · have := q4 0 (by decide)
      simp only [List.length_append, List.getElem_cons_zero] at this
      omega
  obtain ⟨i0, i1, i2, i3, i4, i5, i6⟩ := ids
  refine ⟨e ++ e', i', ?_, ?_, ?_, ?_, ?_⟩
  · unfold Job.prepare
    rw [hw]
    simp only
    rw [hw] at p1 q1
    rw [p1, Res.ok_bind, q1, Res.ok_bind]
    simp [Res.pure_eq]
  · rw [List.length_append, p2, q2]
  · intro k
    have hjob : ({ j with confs := j.confs ++ (e ++ e'), ids := i' } : Job) =
        { j with confs := (j.confs ++ e) ++ e', ids := i' } := by simp
    rw [hjob]
    by_cases hk : k = .assign
    · subst hk
      exact q5 _ (by simp)
    · obtain ⟨c, g, b, h1, h2, h3⟩ := p5 k (by cases k <;> simp at hk ⊢)
      refine ⟨c, g, b, ?_, h2, h3⟩
      have := confs_append h1 e' i'
      simp only [hi k hk]
      exact this
  · intro k
    cases k <;> omega
  · intro k k' hkk
    cases k <;> cases k' <;> first | rfl | omega

/-- Without a configuration, a node or threads the id is not set. -/
theorem C102_refused (j : Job) (k : Kernel) (id : Nat) (h : j.conf id = none ∨ j.warp = none ∨ j.perBlock k = 0) :
    j.setKernel k id = .ok (false, j) := by
  unfold Job.setKernel
  cases hc : j.conf id with
  | none => rfl
  | some c =>
    cases hw : j.warp with
    | none => rfl
    | some w =>
      have h0 : j.perBlock k = 0 := by simpa [hc, hw] using h
      simp only [h0, Nat.lt_irrefl, if_false]

/-- What a program sees of a launch: outside of the debug mode it is a success, in the debug mode the status is what the kernel left in
the register. -/
structure RunsAs (j : Job) (d : Device) (c : Call) (g b : Dim3) (r : Res (BitVec 32 × Option Launch)) : Prop where
  plain : j.debug = false → r = .ok (0#32, some ⟨c, true, false, g, b⟩)
  debug : j.debug = true → j.register = true → d.send = true → d.receive = true →
    ∀ s, DebugReg.evaluate (d.leaves ⟨c, false, true, g, b⟩) = .ok s → r = .ok (s, some ⟨c, false, true, g, b⟩)
  lost : j.debug = true → j.register = true → d.send = true → d.receive = false →
    r = .ok (-1#32, some ⟨c, false, true, g, b⟩)
  stopped : j.debug = true → j.register = false ∨ d.send = false → r = .ok (-1#32, none)

theorem run_as (j : Job) (d : Device) {c : Call} (hc : ∀ reg, c.takesPlain reg = !reg) {conf : Option Conf} {g b : Dim3}
    (h : conf.bind Conf.launch = some (g, b)) : RunsAs j d c g b (j.run d conf c) := by
  have hw : ∀ reg, wrapper conf c reg = .ok (some ⟨c, !reg, reg, g, b⟩) := fun reg => by
    unfold wrapper
    rw [h]
    simp only [hc, Bool.not_not, Bool.and_self]
  constructor
  · intro hd
    unfold Job.run
    rw [if_pos hd, hw]
    rfl
  · intro hd hr hs hv s he
    unfold Job.run
    rw [if_neg (by simp [hd]), if_pos hr, if_pos hs, hw, Res.ok_bind]
    simp only [hv, if_true, Device.after, Bool.not_true, he, Res.ok_bind, Res.pure_eq]
  · intro hd hr hs hv
    unfold Job.run
    rw [if_neg (by simp [hd]), if_pos hr, if_pos hs, hw, Res.ok_bind]
    simp [hv, Res.ok_bind, Res.pure_eq]
  · intro hd h
    unfold Job.run
    rw [if_neg (by simp [hd])]
    obtain h | h := h
    · rw [if_neg (by simp [h])]
    · by_cases h1 : j.register = true
      · rw [if_pos h1, if_neg (by simp [h])]
      · rw [if_neg h1]

/-- Tracking launches the kernel for the first particle set, with the threads of the configuration. -/
theorem C102_track (j : Job) (d : Device) (hr : ∀ k, KernelReady j k) {s : Nat} {rest : List Nat} (hs : j.sets = s :: rest) :
    (∀ turn, ∃ g b, LaunchOf (trackItems j.total j.trackThreads) j.trackThreads g b ∧
      RunsAs j d (.until s turn) g b (j.trackUntil d turn)) ∧
    (∀ config turn, ∃ g b, LaunchOf (trackItems j.total j.trackThreads) j.trackThreads g b ∧
      RunsAs j d (.elemByElem s config turn) g b (j.trackElemByElem d config turn)) ∧
    ∀ first last finish, ∃ g b, LaunchOf (trackItems j.total j.trackThreads) j.trackThreads g b ∧
      RunsAs j d (.line s first last finish) g b (j.trackLine d first last finish) := by
  unfold Job.trackUntil Job.trackElemByElem Job.trackLine
  rw [hs]
  obtain ⟨c, g, b, h1, h2, h3⟩ := hr .until
  obtain ⟨c', g', b', h1', h2', h3'⟩ := hr .elemByElem
  have e : (j.conf (j.ids .until)).bind Conf.launch = some (g, b) := by rw [h1]; exact h2
  have e' : (j.conf (j.ids .elemByElem)).bind Conf.launch = some (g', b') := by rw [h1']; exact h2'
  exact ⟨fun _ => ⟨g, b, h3, run_as j d (fun _ => rfl) e⟩, fun _ _ => ⟨g', b', h3', run_as j d (fun _ => rfl) e'⟩,
    fun _ _ _ => ⟨g', b', h3', run_as j d (fun _ => rfl) e'⟩⟩

/-- Assigning output to beam monitors and fetching addresses launch their kernels. -/
theorem C102_assign (j : Job) (d : Device) (hr : ∀ k, KernelReady j k) :
    (∀ own turn offset, ∃ g b, LaunchOf 1 j.threads g b ∧
      RunsAs j d (.monitors own offset) g b (j.assignMonitors true d own turn offset)) ∧
    ∃ g b, LaunchOf (trackItems j.numSets j.threads) j.threads g b ∧ RunsAs j d .addresses g b (j.fetch true d) := by
  obtain ⟨c, g, b, h1, h2, h3⟩ := hr .monitors
  obtain ⟨c', g', b', h1', h2', h3'⟩ := hr .addresses
  have e : (j.conf (j.ids .monitors)).bind Conf.launch = some (g, b) := by rw [h1]; exact h2
  have e' : (j.conf (j.ids .addresses)).bind Conf.launch = some (g', b') := by rw [h1']; exact h2'
  refine ⟨fun own turn offset => ⟨g, b, h3, ?_⟩, g', b', h3', ?_⟩
  · unfold Job.assignMonitors Job.runIf
    rw [if_pos ⟨rfl, by rw [h1]; rfl⟩]
    exact run_as j d (fun _ => rfl) e
  · unfold Job.fetch Job.runIf
    rw [if_pos ⟨rfl, by rw [h1']; rfl⟩]
    exact run_as j d (fun _ => rfl) e'

/-- Nothing is launched if the arguments are not ready, or if there is no configuration. -/
theorem C102_not_ready (j : Job) (d : Device) (own turn : Int) (index offset : Nat) :
    j.assignMonitors false d own turn offset = .ok (-1#32, none) ∧ j.assignConfig false d index offset = .ok (-1#32, none) ∧
      j.fetch false d = .ok (-1#32, none) ∧
    ∀ ready, (j.conf (j.ids .monitors) = none → j.assignMonitors ready d own turn offset = .ok (-1#32, none) ∧
        j.assignConfig ready d index offset = .ok (-1#32, none)) ∧
      (j.conf (j.ids .addresses) = none → j.fetch ready d = .ok (-1#32, none)) := by
  unfold Job.assignMonitors Job.assignConfig Job.fetch Job.runIf
  refine ⟨rfl, rfl, rfl, fun ready => ⟨fun h => ?_, fun h => ?_⟩⟩
  · rw [h]
    simp
  · rw [h]
    simp

/-- Outside of the debug mode, assigning the output for tracking element by element launches the kernel for debugging, without a
register. -/
theorem C102_config_partial (j : Job) (d : Device) (hr : ∀ k, KernelReady j k) (hd : j.debug = false) (index offset : Nat) :
    ∃ g b, LaunchOf 1 j.threads g b ∧
      j.assignConfig true d index offset = .ok (0#32, some ⟨.config index offset, false, false, g, b⟩) := by
  obtain ⟨c, g, b, h1, h2, h3⟩ := hr .monitors
  refine ⟨g, b, h3, ?_⟩
  unfold Job.assignConfig Job.runIf
  rw [if_pos ⟨rfl, by rw [h1]; rfl⟩]
  unfold Job.run wrapper
  rw [if_pos hd, h1]
  simp only [Option.bind_some, h2]
  rfl

/-- The threads of a launch for tracking: there are enough of them if each takes as many particles as there are threads in a block, and
not many more than that. -/
theorem C102_share {n t : Nat} {g b : Dim3} (ht : 0 < t) (h : LaunchOf (trackItems n t) t g b) :
    n ≤ volume g * volume b * t ∧ volume g * volume b * t < n + t + t * t := by
  obtain ⟨-, s2, s3⟩ := trackItems_spec (n := n) ht
  have hv : volume g * volume b = g.x.toNat * t := by
    unfold volume
    rw [h.shape.1, h.shape.2.1, h.shape.2.2, h.flat.1, h.flat.2, Nat.mul_one, Nat.mul_one, Nat.mul_one, Nat.mul_one]
  rw [hv]
  constructor
  · exact Nat.le_trans s2 (Nat.mul_le_mul_right t h.enough)
  · have := Nat.mul_lt_mul_of_pos_right h.least ht
    rw [Nat.add_mul] at this
    omega

/-- The threads per block are not zero, and a multiple of the warp size. -/
theorem C102_threads (a b : Option Nat) : 0 < (threadsOf a b).1 ∧ (threadsOf a b).1 % 32 = 0 ∧ 0 < (threadsOf a b).2 ∧
    (threadsOf a b).2 % 32 = 0 ∧ (∀ n, a = some n → 0 < n → n % 32 = 0 → (threadsOf a b).1 = n) ∧
    (∀ n, b = some n → 0 < n → n % 32 = 0 → (threadsOf a b).2 = n) ∧
    (∀ n, a = some n → b = none → 0 < n → n % 32 = 0 → (threadsOf a b).2 = n) := by
  unfold threadsOf
  simp only
  refine ⟨?_, ?_, ?_, ?_, ?_, ?_, ?_⟩
  · split_ifs with h <;> omega
  · split_ifs with h <;> omega
  · split_ifs with h <;> omega
  · split_ifs with h <;> omega
  · rintro n rfl h1 h2
    rw [if_neg (by simp only [Option.getD_some]; omega)]
    rfl
  · rintro n rfl h1 h2
    rw [if_neg (by simp only [Option.getD_some]; omega)]
    rfl
  · rintro n rfl rfl h1 h2
    rw [if_neg (by simp only [Option.getD_some, Option.getD_none]; omega)]
    rfl

end SixTrack
