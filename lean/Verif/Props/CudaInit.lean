import Verif.CudaInitLemmas
import Verif.Props.ParticleSets

/-!
# Property C103: a CUDA track job that was set up has its buffers on the device
-/

namespace SixTrack
open Arg ParticleSets Particles CudaInit

/-- The buffers `i` of particles and `k` of elements are those of the job, the kernels are made, and the arguments for addresses
and elements are on the device; the argument for particles is the one made with `i`, or the old one if that is not possible. -/
structure JobPrepared (w : World) (c : Ctl) (j : Job) (i k : Nat) (j' : Job) : Prop where
  ctl : j'.ctl = some c ∧ j'.addrBuf = j.addrBuf
  pbuf : j'.pbuf = some i
  ebuf : j'.ebuf = some k
  made : j'.made = true
  addr : ∃ a, j'.arg .addr = some a ∧ OnDevice w.f c w.h j.addrBuf a
  elements : ∃ a, j'.arg .elements = some a ∧ OnDevice w.f c w.h k a
  particles : ∃ q, Arg.newBuf w.f c w.h i false = .ok q ∧
    j'.arg .particles = if q.2.c99 = some i then some q.2 else j.arg .particles
  ranges : ∃ r, findRanges w.objs j.sets = .ok (0, r) ∧ j'.ranges = some r
  base : w.addrOk = true ∧ w.elements = true ∧ w.kernels = true

/-- The output buffer of the job is on the device, and so is the configuration if there is one. -/
structure OutputPrepared (w : World) (c : Ctl) (j' : Job) : Prop where
  base : w.output = true
  out : ∃ o a, w.outBuf = some o ∧ j'.out = some o ∧ j'.arg .output = some a ∧ OnDevice w.f c w.h o a
  config : j'.config = w.config ∧ ∀ k, w.config = some k → ∃ a, j'.arg .config = some a ∧ OnDevice w.f c w.h k a

theorem output_keeps {w : World} {p : Option Nat} {j j' : Job} {c : Ctl} (hc : j.ctl = some c)
    (hb : w.output = true)
    (h : Job.output w p { j with out := w.outBuf, config := w.config } = .ok (true, j')) :
    OutputPrepared w c j' ∧ j'.ctl = j.ctl ∧ j'.addrBuf = j.addrBuf ∧ j'.pbuf = j.pbuf ∧ j'.ebuf = j.ebuf ∧ j'.made = j.made ∧
      j'.sets = j.sets ∧ j'.ranges = j.ranges ∧ j'.arg .addr = j.arg .addr ∧ j'.arg .elements = j.arg .elements ∧
      j'.arg .particles = j.arg .particles := by
  obtain ⟨c', o, j1, a, h1, h2, h3, h4, rfl⟩ := output_true h
  have : c' = c := Option.some.inj (h1.symm.trans hc)
  subst this
  rcases h3 with ⟨g, rfl⟩ | ⟨k, b, g1, g2, rfl⟩
  · refine ⟨⟨hb, ⟨o, a, h2, h2, rfl, h4⟩, rfl, ?_⟩, rfl, rfl, rfl, rfl, rfl, rfl, rfl, rfl, rfl, rfl⟩
    intro k hk
    exact absurd (hk.symm.trans g) (by simp)
  · refine ⟨⟨hb, ⟨o, a, h2, h2, rfl, h4⟩, rfl, ?_⟩, rfl, rfl, rfl, rfl, rfl, rfl, rfl, rfl, rfl, rfl⟩
    intro k' hk
    cases (g1.symm.trans hk)
    exact ⟨b, rfl, g2⟩

theorem JobPrepared.keep {w : World} {c : Ctl} {j : Job} {i k : Nat} {j1 j2 : Job} (h : JobPrepared w c j i k j1)
    (e : j2.ctl = j1.ctl ∧ j2.addrBuf = j1.addrBuf ∧ j2.pbuf = j1.pbuf ∧ j2.ebuf = j1.ebuf ∧ j2.made = j1.made ∧
      j2.sets = j1.sets ∧ j2.ranges = j1.ranges ∧ j2.arg .addr = j1.arg .addr ∧ j2.arg .elements = j1.arg .elements ∧
      j2.arg .particles = j1.arg .particles) : JobPrepared w c j i k j2 := by
  obtain ⟨e1, e2, e3, e4, e5, _, e7, e8, e9, e10⟩ := e
  constructor
  · rw [e1, e2]; exact h.ctl
  · rw [e3]; exact h.pbuf
  · rw [e4]; exact h.ebuf
  · rw [e5]; exact h.made
  · rw [e8]; exact h.addr
  · rw [e9]; exact h.elements
  · rw [e10]; exact h.particles
  · rw [e7]; exact h.ranges
  · exact h.base

private theorem step {r : Bool × Job} {f : Job → Res (Bool × Job)} {q : Bool × Job} {j' : Job} (h : andThen r f = .ok q)
    (hq : q = (true, j')) : ∃ j, r = (true, j) ∧ f j = .ok (true, j') := by
  subst hq
  obtain ⟨h1, h2⟩ := andThen_true h
  exact ⟨r.2, by rw [← h1], h2⟩

/-- A CUDA track job that was set up successfully has a controller; it has recorded both buffers, the addresses and the elements
are on the device, and the kernels are made.  If there is output it is on the device as well, and it has been assigned if it is
needed; otherwise the arguments for output are left alone.  The particle sets are those that were asked for. -/
theorem C103_init (w : World) (j : Job) (early : Bool) (p e given : Option Nat) (idx : List Nat) (j' : Job)
    (h : j.init w early p e given idx = .ok (true, j')) :
    ∃ c i k, j.ctl = some c ∧ p = some i ∧ e = some k ∧ early = true ∧ idx ≠ [] ∧
      JobPrepared w c j i k j' ∧ j'.sets = (setIndices j.sets w.objs idx).2 ∧
      (w.required = true ∨ given.isSome = true → OutputPrepared w c j') ∧
      (w.required = true → Assigned w) ∧
      (¬ (w.required = true ∨ given.isSome = true) → j'.out = j.out ∧ j'.config = j.config ∧
        j'.arg .output = j.arg .output ∧ j'.arg .config = j.arg .config) := by
  unfold Job.init at h
  obtain ⟨r1, h1, h⟩ := Res.bind_eq_ok.1 h
  obtain ⟨r2, h2, h⟩ := Res.bind_eq_ok.1 h
  obtain ⟨r3, h3, h⟩ := Res.bind_eq_ok.1 h
  obtain ⟨r4, h4, h⟩ := Res.bind_eq_ok.1 h
  obtain ⟨r5, h5, h⟩ := Res.bind_eq_ok.1 h
  obtain ⟨r6, h6, h⟩ := Res.bind_eq_ok.1 h
  obtain ⟨r7, h7, h⟩ := Res.bind_eq_ok.1 h
  obtain ⟨r8, h8, h⟩ := Res.bind_eq_ok.1 h
  obtain ⟨r9, h9, h⟩ := Res.bind_eq_ok.1 h
  obtain ⟨a1, a2⟩ := assign_true h
  subst a1
  -- the output
  obtain ⟨j8, e8, k9⟩ : ∃ j8, r8 = (true, j8) ∧
      (((w.required = true ∨ given.isSome = true) ∧ w.output = true ∧
        Job.output w p { j8 with out := w.outBuf, config := w.config } = .ok (true, j')) ∨
       (¬ (w.required = true ∨ given.isSome = true) ∧ j' = j8)) := by
    unfold initOutput at h9
    split at h9
    · rename_i hc
      obtain ⟨q, hq, h9⟩ := Res.bind_eq_ok.1 h9
      obtain ⟨j9, rfl, k9⟩ := step h9 rfl
      obtain ⟨j8, rfl, k8⟩ := step hq rfl
      have k8' := Res.ok.inj k8
      refine ⟨j8, rfl, .inl ⟨hc, congrArg Prod.fst k8', ?_⟩⟩
      have e9 : { j8 with out := w.outBuf, config := w.config } = j9 := congrArg Prod.snd k8'
      rw [e9]
      exact k9
    · rename_i hc
      cases h9
      exact ⟨j', rfl, .inr ⟨hc, rfl⟩⟩
  obtain ⟨j7, e7, k8⟩ := step h8 e8
  obtain ⟨j6, e6, k7⟩ := step h7 e7
  obtain ⟨j5, e5, k6⟩ := step h6 e6
  obtain ⟨j4, e4, k5⟩ := step h5 e5
  obtain ⟨j3, e3, k4⟩ := step h4 e4
  obtain ⟨j2, e2, k3⟩ := step h3 e3
  obtain ⟨j1, e1, k2⟩ := step h2 e2
  obtain ⟨j0, e0, k1⟩ := step h1 e1
  have hj0 : j0 = j := (congrArg Prod.snd e0).symm
  subst hj0
  have hearly : early = true := by
    have := congrArg Prod.fst e0
    simp only [Bool.and_eq_true] at this
    exact this.1
  obtain ⟨i, r, hp, hr, hok, rfl⟩ := baseParticles_true k1
  obtain ⟨c, i', a, q, hc, hp', ha, hq, e2'⟩ := particles_true k2
  have : i' = i := Option.some.inj (hp'.symm.trans hp)
  subst this
  have e3' : j3 = { j2 with pbuf := p } := (congrArg Prod.snd (Res.ok.inj k3)).symm
  have hidx : idx ≠ [] ∧ j4 = { j3 with sets := (setIndices j3.sets w.objs idx).2 } := by
    unfold Job.choose at k4
    split at k4
    · exact ⟨‹_›, (congrArg Prod.snd (Res.ok.inj k4)).symm⟩
    · cases k4
  have h5' := Res.ok.inj k5
  have he5 : j5 = j4 := (congrArg Prod.snd h5').symm
  have hel : w.elements = true := by
    have := congrArg Prod.fst h5'
    simp only [Bool.and_eq_true] at this
    exact this.2
  obtain ⟨c', k, b, hc', he, hb, e6'⟩ := elements_true k6
  have e7' : j7 = { j6 with ebuf := e } := (congrArg Prod.snd (Res.ok.inj k7)).symm
  have h8' := Res.ok.inj k8
  have hke : w.kernels = true := congrArg Prod.fst h8'
  have e8' : j8 = { j7 with made := w.kernels } := (congrArg Prod.snd h8').symm
  have f2 : j2.ctl = some c ∧ j2.addrBuf = j0.addrBuf ∧ j2.arg .addr = some a ∧
      (j2.arg .particles = if q.2.c99 = some i' then some q.2 else j0.arg .particles) ∧
      j2.arg .output = j0.arg .output ∧ j2.arg .config = j0.arg .config ∧ j2.out = j0.out ∧ j2.config = j0.config ∧
      j2.sets = j0.sets ∧ j2.ranges = some r := by
    rw [e2']
    split
    · exact ⟨hc, rfl, rfl, rfl, rfl, rfl, rfl, rfl, rfl, rfl⟩
    · exact ⟨hc, rfl, rfl, rfl, rfl, rfl, rfl, rfl, rfl, rfl⟩
  obtain ⟨g1, g2, g3, g4, g5, g6, g7, g8, g9, g10⟩ := f2
  have hcc : c' = c := by
    rw [he5, hidx.2, e3'] at hc'
    exact Option.some.inj (hc'.symm.trans g1)
  subst hcc
  have hprep : JobPrepared w c' j0 i' k j8 := by
    rw [e8', e7', e6', he5, hidx.2, e3', hp, he, hke]
    exact ⟨⟨g1, g2⟩, rfl, rfl, rfl, ⟨a, g3, ha⟩, ⟨b, rfl, hb⟩, ⟨q, hq, g4⟩, ⟨r, hr, g10⟩, hok, hel, hke⟩
  have hset : j8.sets = (setIndices j0.sets w.objs idx).2 := by
    rw [e8', e7', e6', he5, hidx.2, e3', ← g9]
    rfl
  refine ⟨c', i', k, hc, hp, he, hearly, hidx.1, ?_⟩
  rcases k9 with ⟨k9, hwo, k10⟩ | ⟨k9, rfl⟩
  · obtain ⟨o1, o2⟩ := output_keeps hprep.ctl.1 hwo k10
    refine ⟨hprep.keep o2, o2.2.2.2.2.2.1.trans hset, fun _ => o1, fun hr => a2 hr ?_, fun hn => absurd k9 hn⟩
    obtain ⟨o, _, _, ho, _⟩ := o1.out
    rw [ho]; rfl
  · refine ⟨hprep, hset, fun hn => absurd hn k9, fun hr => absurd (.inl hr) k9, fun _ => ?_⟩
    rw [e8', e7', e6', he5, hidx.2, e3']
    exact ⟨g7, g8, g5, g6⟩

/-- If the controller can bring the particles to the device they are there. -/
theorem C103_particles_partial (w : World) (c : Ctl) (j : Job) (i k : Nat) (j' : Job) (h : JobPrepared w c j i k j')
    (hs : CanSend w.f c w.h i) : ∃ a, j'.arg .particles = some a ∧ OnDevice w.f c w.h i a := by
  obtain ⟨q, hq, e⟩ := h.particles
  obtain ⟨a, ha, hd, h9, _⟩ := newBuf_can hs false
  rw [ha] at hq
  cases hq
  exact ⟨a, by rw [e]; exact if_pos h9, hd⟩

/-- Without a controller, with a bad configuration or node, or without particles nothing is done. -/
theorem C103_refused (w : World) (j : Job) (early : Bool) (p e given : Option Nat) (idx : List Nat)
    (hn : j.ctl = none ∨ early = false ∨ p = none) : j.init w early p e given idx = .ok (false, j) := by
  have h1 : andThen (early && j.ctl.isSome, j) (Job.baseParticles w p) = .ok (false, j) := by
    rcases hn with hn | hn | hn
    · simp [andThen, hn]
    · simp [andThen, hn]
    · subst hn
      cases hb : (early && j.ctl.isSome) with
      | false => rfl
      | true => rfl
  have h2 : initOutput w p given (false, j) = .ok (false, j) := by
    unfold initOutput
    split <;> rfl
  unfold Job.init
  rw [h1]
  show (initOutput w p given (false, j) >>= assign w) = _
  rw [h2]
  rfl

example : Job.init ⟨toyFmt, toyHost, [], true, true, true, false, false, false, true, none, none, true, true, true, true⟩
    ⟨none, 5, fun _ => none, none, none, none, none, ⟨[0], [0], [0], 0, 0, 0⟩, none, false⟩ true (some 0) (some 1) none [0]
    = .ok (false, ⟨none, 5, fun _ => none, none, none, none, none, ⟨[0], [0], [0], 0, 0, 0⟩, none, false⟩) :=
  C103_refused _ _ _ _ _ _ _ (.inl rfl)

/-! ## it works if everything can be sent -/

/-- What is needed for setting up a job with the buffers `i` and `k`. -/
structure Sendable (w : World) (c : Ctl) (j : Job) (i k : Nat) (output : Prop) : Prop where
  keeps : w.f.Keeps
  addr : CanSend w.f c w.h j.addrBuf
  particles : CanSend w.f c w.h i
  elements : CanSend w.f c w.h k
  ranges : ∃ r, findRanges w.objs j.sets = .ok (0, r)
  base : w.addrOk = true ∧ w.elements = true ∧ w.kernels = true
  output : output → w.output = true ∧ (∃ o, w.outBuf = some o ∧ CanSend w.f c w.h o) ∧
    ∀ x, w.config = some x → CanSend w.f c w.h x
  assigned : w.required = true → Assigned w

theorem particles_can {w : World} {c : Ctl} {j : Job} {i : Nat} (hc : j.ctl = some c)
    (h1 : CanSend w.f c w.h j.addrBuf) (h2 : CanSend w.f c w.h i) :
    ∃ j', Job.particles w (some i) j = .ok (true, j') ∧ j'.ctl = some c := by
  obtain ⟨a, ha, _, _, ha2⟩ := newBuf_can h1 true
  obtain ⟨q, hq, _, hq2, _⟩ := newBuf_can h2 false
  unfold Job.particles
  simp only [hc]
  rw [ha, Res.ok_bind, hq, Res.ok_bind]
  have ha3 : a.cxx = some j.addrBuf := ha2
  simp only [ha3, hq2, if_true]
  exact ⟨_, rfl, hc⟩

theorem elements_can {w : World} {c : Ctl} {j : Job} {i : Nat} (hc : j.ctl = some c)
    (h1 : CanSend w.f c w.h i) : ∃ j', Job.elements w (some i) j = .ok (true, j') ∧ j'.ctl = some c := by
  obtain ⟨q, hq, _, hq2, _⟩ := newBuf_can h1 false
  unfold Job.elements
  simp only [hc]
  rw [hq, Res.ok_bind]
  simp only [hq2, if_true]
  exact ⟨_, rfl, hc⟩

theorem output_can {w : World} {c : Ctl} {j : Job} {i o : Nat} (hf : w.f.Keeps) (hc : j.ctl = some c)
    (ho : j.out = some o) (h1 : CanSend w.f c w.h o) (h2 : ∀ k, j.config = some k → CanSend w.f c w.h k) :
    ∃ j', Job.output w (some i) j = .ok (true, j') ∧ j'.out = some o := by
  have hcfg : ∃ j1, j.configArg w c = .ok (true, j1) ∧ j1.out = some o := by
    unfold Job.configArg
    cases hk : j.config with
    | none => exact ⟨j, rfl, ho⟩
    | some k =>
      obtain ⟨a, ha, _⟩ := newBuf_can (h2 k hk) true
      obtain ⟨a', ha', hx⟩ := resend_can hf (h2 k hk) ha
      simp only
      rw [ha, Res.ok_bind, ha', Res.ok_bind]
      simp only [hx, and_self, decide_true]
      exact ⟨_, rfl, ho⟩
  obtain ⟨j1, e1, ho1⟩ := hcfg
  obtain ⟨q, hq, _, hq2, _⟩ := newBuf_can h1 false
  unfold Job.output
  simp only [hc, ho]
  rw [e1, Res.ok_bind]
  show ∃ j', Job.outputArg w c o j1 = .ok (true, j') ∧ j'.out = some o
  unfold Job.outputArg
  rw [hq, Res.ok_bind]
  simp only [hq2, decide_true]
  exact ⟨_, rfl, ho1⟩

theorem assign_can {w : World} {j : Job} (h : w.required = true → Assigned w) :
    assign w (true, j) = .ok (true, j) := by
  unfold assign
  split
  · rename_i hc
    obtain ⟨h1, h2⟩ := h hc.2.2
    have e1 : assignConfig w (true, j) = .ok (true, j) := by
      unfold assignConfig
      split
      · rename_i hn
        obtain ⟨b1, b2⟩ := h1 hn
        simp [andThen, status, b1, b2]
      · rfl
    rw [e1, Res.ok_bind]
    unfold assignMonitors
    split
    · rename_i hn
      obtain ⟨b1, b2⟩ := h2 hn
      simp [andThen, status, b1, b2]
    · rfl
  · rfl

/-- Setting up a job succeeds if the buffers can be brought to the device, whatever particle sets are asked for. -/
theorem C103_init_succeeds (w : World) (j : Job) (c : Ctl) (hc : j.ctl = some c) (i k : Nat) (given : Option Nat)
    (idx : List Nat) (hi : idx ≠ []) (h : Sendable w c j i k (w.required = true ∨ given.isSome = true)) :
    ∃ j', j.init w true (some i) (some k) given idx = .ok (true, j') := by
  obtain ⟨r, hr⟩ := h.ranges
  have s1 : Job.baseParticles w (some i) j = .ok (true, { j with ranges := some r }) := by
    unfold Job.baseParticles
    simp only
    rw [hr, Res.ok_bind]
    simp only [h.base.1, and_self, if_true]
    rfl
  obtain ⟨j2, s2, hc2⟩ := particles_can (j := { j with ranges := some r }) hc h.addr h.particles
  have s4 : ∀ j3 : Job, Job.choose w idx j3 = .ok (true, { j3 with sets := (setIndices j3.sets w.objs idx).2 }) := by
    intro j3
    unfold Job.choose
    rw [if_pos hi]
  have s5 : ∀ j4 : Job, Job.baseElements w (some k) j4 = .ok (true, j4) := by
    intro j4
    unfold Job.baseElements
    rw [h.base.2.1]
    rfl
  obtain ⟨j6, s6, hc6⟩ := elements_can (w := w) (i := k)
    (j := { { j2 with pbuf := some i } with sets := (setIndices j2.sets w.objs idx).2 }) hc2 h.elements
  have s8 : ∀ j7 : Job, Job.kernels w j7 = .ok (true, { j7 with made := w.kernels }) := by
    intro j7
    unfold Job.kernels
    rw [h.base.2.2]
  obtain ⟨j9, s9⟩ : ∃ j9, initOutput w (some i) given (true, { { j6 with ebuf := some k } with made := w.kernels }) =
      .ok (true, j9) := by
    unfold initOutput
    split
    · rename_i ho
      obtain ⟨o1, ⟨o, o2, o3⟩, o4⟩ := h.output ho
      have b9 : ∀ j8 : Job, Job.baseOutput w j8 = .ok (true, { j8 with out := w.outBuf, config := w.config }) := by
        intro j8
        unfold Job.baseOutput
        rw [o1]
      obtain ⟨j', e, _⟩ := output_can (w := w) (i := i) (o := o)
        (j := { { { j6 with ebuf := some k } with made := w.kernels } with out := w.outBuf, config := w.config })
        h.keeps hc6 o2 o3 o4
      refine ⟨j', ?_⟩
      show (Job.baseOutput w _ >>= _) = _
      rw [b9, Res.ok_bind]
      exact e
    · exact ⟨_, rfl⟩
  refine ⟨j9, ?_⟩
  unfold Job.init
  have s0 : andThen (true && j.ctl.isSome, j) (Job.baseParticles w (some i)) = .ok (true, { j with ranges := some r }) := by
    have hx : (true && j.ctl.isSome) = true := by rw [hc]; rfl
    rw [hx, ← s1]
    rfl
  rw [s0, Res.ok_bind]
  show (Job.particles w (some i) _ >>= _) = _
  rw [s2, Res.ok_bind]
  show (Job.choose w idx _ >>= _) = _
  rw [s4, Res.ok_bind]
  show (Job.baseElements w (some k) _ >>= _) = _
  rw [s5, Res.ok_bind]
  show (Job.elements w (some k) _ >>= _) = _
  rw [s6, Res.ok_bind]
  show (Res.ok (true, { j6 with ebuf := some k }) >>= _) = _
  rw [Res.ok_bind]
  show (Job.kernels w { j6 with ebuf := some k } >>= _) = _
  rw [s8, Res.ok_bind, s9, Res.ok_bind]
  exact assign_can h.assigned

end SixTrack
