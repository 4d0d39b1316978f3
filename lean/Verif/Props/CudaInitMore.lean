import Verif.Props.CudaInit

/-!
# Property C103, continued: resetting a CUDA track job, and what goes wrong
-/

namespace SixTrack
open Arg ParticleSets Particles CudaInit

/-- What stays when the preparation fails. -/
private def Same (j j' : Job) : Prop :=
  j'.ctl = j.ctl ∧ j'.addrBuf = j.addrBuf ∧ j'.pbuf = j.pbuf ∧ j'.ebuf = j.ebuf ∧ j'.sets = j.sets

private theorem Same.refl (j : Job) : Same j j := ⟨rfl, rfl, rfl, rfl, rfl⟩

private theorem Same.trans {a b c : Job} (h : Same a b) (g : Same b c) : Same a c :=
  ⟨g.1.trans h.1, g.2.1.trans h.2.1, g.2.2.1.trans h.2.2.1, g.2.2.2.1.trans h.2.2.2.1, g.2.2.2.2.trans h.2.2.2.2⟩

private theorem andThen_same {r q : Bool × Job} {f : Job → Res (Bool × Job)} (h : andThen r f = .ok q)
    (hf : ∀ j q, f j = .ok q → Same j q.2) : Same r.2 q.2 := by
  unfold andThen at h
  split at h
  · exact hf _ _ h
  · cases h; exact Same.refl _

private theorem baseParticles_same {w : World} {p : Option Nat} (j : Job) (q : Bool × Job)
    (h : Job.baseParticles w p j = .ok q) : Same j q.2 := by
  unfold Job.baseParticles at h
  split at h
  · obtain ⟨r, _, h⟩ := Res.bind_eq_ok.1 h
    cases h
    split <;> exact Same.refl _
  · cases h; exact Same.refl _

private theorem particles_same {w : World} {p : Option Nat} (j : Job) (q : Bool × Job)
    (h : Job.particles w p j = .ok q) : Same j q.2 := by
  unfold Job.particles at h
  split at h
  · obtain ⟨a, _, h⟩ := Res.bind_eq_ok.1 h
    obtain ⟨b, _, h⟩ := Res.bind_eq_ok.1 h
    split at h
    · cases h
      show Same j (if _ then _ else _)
      split <;> exact Same.refl _
    · cases h; exact Same.refl _
  · cases h; exact Same.refl _

private theorem baseElements_same {w : World} {e : Option Nat} (j : Job) (q : Bool × Job)
    (h : Job.baseElements w e j = .ok q) : Same j q.2 := by
  cases h; exact Same.refl _

private theorem elements_same {w : World} {e : Option Nat} (j : Job) (q : Bool × Job)
    (h : Job.elements w e j = .ok q) : Same j q.2 := by
  unfold Job.elements at h
  split at h
  · obtain ⟨a, _, h⟩ := Res.bind_eq_ok.1 h
    cases h
    split <;> exact Same.refl _
  · cases h; exact Same.refl _

private theorem kernels_same {w : World} (j : Job) (q : Bool × Job) (h : Job.kernels w j = .ok q) : Same j q.2 := by
  cases h; exact Same.refl _

private theorem step' {r : Bool × Job} {f : Job → Res (Bool × Job)} {q : Bool × Job} {j' : Job} (h : andThen r f = .ok q)
    (hq : q = (true, j')) : ∃ j, r = (true, j) ∧ f j = .ok (true, j') := by
  subst hq
  obtain ⟨h1, h2⟩ := andThen_true h
  exact ⟨r.2, by rw [← h1], h2⟩

/-- What renewing the buffers does: the particles and elements are those of the job and are prepared, or the old ones stay. -/
private theorem renew_cases {w : World} {j : Job} {p e : Option Nat} {r6 : Bool × Job} (h : j.renew w p e = .ok r6) :
    (r6.1 = true → ∃ c i k, j.ctl = some c ∧ p = some i ∧ e = some k ∧ JobPrepared w c j i k r6.2 ∧ r6.2.sets = j.sets ∧
      r6.2.out = j.out ∧ r6.2.config = j.config ∧ r6.2.arg .output = j.arg .output ∧ r6.2.arg .config = j.arg .config) ∧
    (r6.1 = false → Same j r6.2) := by
  unfold Job.renew at h
  obtain ⟨r1, h1, h⟩ := Res.bind_eq_ok.1 h
  obtain ⟨r2, h2, h⟩ := Res.bind_eq_ok.1 h
  obtain ⟨r3, h3, h⟩ := Res.bind_eq_ok.1 h
  obtain ⟨r4, h4, h⟩ := Res.bind_eq_ok.1 h
  obtain ⟨r5, h5, h6⟩ := Res.bind_eq_ok.1 h
  have hs5 : Same j r5.2 := by
    refine Same.trans (baseParticles_same _ _ h1) (Same.trans (andThen_same h2 particles_same) (Same.trans
      (andThen_same h3 baseElements_same) (Same.trans (andThen_same h4 elements_same) (andThen_same h5 kernels_same))))
  refine ⟨?_, ?_⟩
  · intro ht
    obtain ⟨j5, e5, k6⟩ := step' h6 (show r6 = (true, r6.2) by rw [← ht])
    obtain ⟨j4, e4, k5⟩ := step' h5 e5
    obtain ⟨j3, e3, k4⟩ := step' h4 e4
    obtain ⟨j2, e2, k3⟩ := step' h3 e3
    obtain ⟨j1, e1, k2⟩ := step' h2 e2
    subst e1
    obtain ⟨i, r, hp, hr, hok, rfl⟩ := baseParticles_true h1
    obtain ⟨c, i', a, q, hc, hp', ha, hq, e2'⟩ := particles_true k2
    have : i' = i := Option.some.inj (hp'.symm.trans hp)
    subst this
    have h3' := Res.ok.inj k3
    have he3 : j3 = j2 := (congrArg Prod.snd h3').symm
    have hel : w.elements = true := by
      have := congrArg Prod.fst h3'
      simp only [Bool.and_eq_true] at this
      exact this.2
    obtain ⟨c', k, b, hc', he, hb, e4'⟩ := elements_true k4
    have h5' := Res.ok.inj k5
    have hke : w.kernels = true := congrArg Prod.fst h5'
    have e5' : j5 = { j4 with made := w.kernels } := (congrArg Prod.snd h5').symm
    have e6' : r6.2 = { j5 with pbuf := p, ebuf := e } := (congrArg Prod.snd (Res.ok.inj k6)).symm
    have f2 : j2.ctl = some c ∧ j2.addrBuf = j.addrBuf ∧ j2.arg .addr = some a ∧
        (j2.arg .particles = if q.2.c99 = some i' then some q.2 else j.arg .particles) ∧
        j2.arg .output = j.arg .output ∧ j2.arg .config = j.arg .config ∧ j2.out = j.out ∧ j2.config = j.config ∧
        j2.sets = j.sets ∧ j2.ranges = some r := by
      rw [e2']
      split
      · exact ⟨hc, rfl, rfl, rfl, rfl, rfl, rfl, rfl, rfl, rfl⟩
      · exact ⟨hc, rfl, rfl, rfl, rfl, rfl, rfl, rfl, rfl, rfl⟩
    obtain ⟨g1, g2, g3, g4, g5, g6, g7, g8, g9, g10⟩ := f2
    have hcc : c' = c := by
      rw [he3] at hc'
      exact Option.some.inj (hc'.symm.trans g1)
    subst hcc
    refine ⟨c', i', k, hc, hp, he, ?_⟩
    rw [e6', e5', e4', he3, hp, he, hke]
    exact ⟨⟨⟨g1, g2⟩, rfl, rfl, rfl, ⟨a, g3, ha⟩, ⟨b, rfl, hb⟩, ⟨q, hq, g4⟩, ⟨r, hr, g10⟩, hok, hel, hke⟩,
      g9, g7, g8, g5, g6⟩
  · intro hf
    unfold andThen at h6
    split at h6
    · cases h6; cases hf
    · cases h6; exact hs5

private theorem reset_cases {w : World} {j j' : Job} {p e given : Option Nat} (h : j.reset w p e given = .ok (true, j')) :
    ∃ r, j.renew w p e = .ok r ∧ resetOutput w p given r = .ok (true, j') ∧
      (w.required = true → j'.out.isSome = true ∧ Assigned w) := by
  unfold Job.reset at h
  obtain ⟨r6, h6, h⟩ := Res.bind_eq_ok.1 h
  obtain ⟨r7, h7, h⟩ := Res.bind_eq_ok.1 h
  split at h
  · cases h
  · rename_i hn
    obtain ⟨rfl, a2⟩ := assign_true h
    refine ⟨r6, h6, h7, fun hr => ?_⟩
    have ho : j'.out.isSome = true := by
      cases ho : j'.out with
      | some o => rfl
      | none => exact absurd ⟨rfl, hr, ho⟩ hn
    exact ⟨ho, a2 hr ho⟩

private theorem resetOutput_cases {w : World} {p given : Option Nat} {r : Bool × Job} {j' : Job}
    (h : resetOutput w p given r = .ok (true, j')) :
    ((w.required = true ∨ given.isSome = true) ∧ w.output = true ∧
      Job.output w p { r.2 with out := w.outBuf, config := w.config } = .ok (true, j')) ∨
    (¬ (w.required = true ∨ given.isSome = true) ∧ r = (true, j')) := by
  unfold resetOutput at h
  split at h
  · rename_i hc
    unfold Job.baseOutput at h
    rw [Res.ok_bind] at h
    split at h
    · rename_i ho
      exact .inl ⟨hc, ho.1, h⟩
    · rename_i ho
      simp only at ho h
      split at h
      · cases h
      · rename_i hx
        have h' := Res.ok.inj h
        have hw : w.output = true := congrArg Prod.fst h'
        exact absurd ⟨hw, Option.isSome_iff_ne_none.2 hx⟩ ho
  · rename_i hc
    exact .inr ⟨hc, Res.ok.inj h⟩

/-- Without output, a successful reset has prepared the new buffers; the particle sets and the arguments for output stay. -/
theorem C103_reset_partial (w : World) (j : Job) (p e : Option Nat) (j' : Job) (hw : w.required = false)
    (h : j.reset w p e none = .ok (true, j')) :
    ∃ c i k, j.ctl = some c ∧ p = some i ∧ e = some k ∧ JobPrepared w c j i k j' ∧ j'.sets = j.sets ∧
      j'.out = j.out ∧ j'.config = j.config ∧ j'.arg .output = j.arg .output ∧ j'.arg .config = j.arg .config := by
  obtain ⟨r, h0, h3, _⟩ := reset_cases h
  have h1 := (renew_cases h0).1
  rcases resetOutput_cases h3 with ⟨hc, _⟩ | ⟨_, rfl⟩
  · rw [hw] at hc
    simp at hc
  · exact h1 rfl

/-- With output, a successful reset has brought the output to the device and has assigned it if it is needed; but it has
prepared the new buffers, or it has kept the old ones. -/
theorem C103_reset_output (w : World) (j : Job) (p e given : Option Nat) (j' : Job) (c : Ctl) (hj : j.ctl = some c)
    (hw : w.required = true ∨ given.isSome = true) (h : j.reset w p e given = .ok (true, j')) :
    OutputPrepared w c j' ∧ (w.required = true → Assigned w) ∧ j'.sets = j.sets ∧
      ((∃ i k, p = some i ∧ e = some k ∧ JobPrepared w c j i k j') ∨ (j'.pbuf = j.pbuf ∧ j'.ebuf = j.ebuf)) := by
  obtain ⟨r, h0, h3, h4⟩ := reset_cases h
  obtain ⟨h1, h2⟩ := renew_cases h0
  rcases resetOutput_cases h3 with ⟨_, ho, k⟩ | ⟨hc, _⟩
  · cases hb : r.1 with
    | true =>
      obtain ⟨c', i, k', g1, g2, g3, g4, g5, _⟩ := h1 hb
      have : c' = c := Option.some.inj (g1.symm.trans hj)
      subst this
      obtain ⟨o1, o2⟩ := output_keeps g4.ctl.1 ho k
      exact ⟨o1, fun hr => (h4 hr).2, o2.2.2.2.2.2.1.trans g5, .inl ⟨i, k', g2, g3, g4.keep o2⟩⟩
    | false =>
      obtain ⟨s1, _, s3, s4, s5⟩ := h2 hb
      obtain ⟨o1, o2⟩ := output_keeps (s1.trans hj) ho k
      exact ⟨o1, fun hr => (h4 hr).2, o2.2.2.2.2.2.1.trans s5, .inr ⟨o2.2.2.1.trans s3, o2.2.2.2.1.trans s4⟩⟩
  · exact absurd hw hc

/-- If everything can be sent a reset succeeds and prepares the new buffers, with output or without it. -/
theorem C103_reset_succeeds (w : World) (j : Job) (c : Ctl) (hc : j.ctl = some c) (i k : Nat) (given : Option Nat)
    (h : Sendable w c j i k (w.required = true ∨ given.isSome = true)) :
    ∃ j', j.reset w (some i) (some k) given = .ok (true, j') ∧ JobPrepared w c j i k j' ∧
      (w.required = true ∨ given.isSome = true → OutputPrepared w c j') := by
  obtain ⟨r, hr⟩ := h.ranges
  have s1 : Job.baseParticles w (some i) j = .ok (true, { j with ranges := some r }) := by
    unfold Job.baseParticles
    simp only
    rw [hr, Res.ok_bind]
    simp only [h.base.1, and_self, if_true]
    rfl
  obtain ⟨j2, s2, hc2⟩ := particles_can (j := { j with ranges := some r }) hc h.addr h.particles
  have s3 : ∀ j4 : Job, Job.baseElements w (some k) j4 = .ok (true, j4) := by
    intro j4
    unfold Job.baseElements
    rw [h.base.2.1]
    rfl
  obtain ⟨j4, s4, hc4⟩ := elements_can (w := w) (i := k) hc2 h.elements
  have s5 : ∀ j7 : Job, Job.kernels w j7 = .ok (true, { j7 with made := w.kernels }) := by
    intro j7
    unfold Job.kernels
    rw [h.base.2.2]
  obtain ⟨j7, s7, g7⟩ : ∃ j7, resetOutput w (some i) given
      (true, { j4 with made := w.kernels, pbuf := some i, ebuf := some k }) = .ok (true, j7) ∧
      (w.required = true → j7.out.isSome = true) := by
    unfold resetOutput
    split
    · rename_i ho
      obtain ⟨o1, ⟨o, o2, o3⟩, o4⟩ := h.output ho
      obtain ⟨j', e, e2⟩ := output_can (w := w) (i := i) (o := o)
        (j := { { j4 with made := w.kernels, pbuf := some i, ebuf := some k } with out := w.outBuf, config := w.config })
        h.keeps hc4 o2 o3 o4
      refine ⟨j', ?_, fun _ => by rw [e2]; rfl⟩
      unfold Job.baseOutput
      rw [Res.ok_bind, if_pos ⟨o1, by rw [o2]; rfl⟩]
      exact e
    · rename_i ho
      exact ⟨_, rfl, fun hr => absurd (.inl hr) ho⟩
  have s6 : j.renew w (some i) (some k) = .ok (true, { j4 with made := w.kernels, pbuf := some i, ebuf := some k }) := by
    unfold Job.renew
    rw [s1, Res.ok_bind]
    show (Job.particles w (some i) _ >>= _) = _
    rw [s2, Res.ok_bind]
    show (Job.baseElements w (some k) _ >>= _) = _
    rw [s3, Res.ok_bind]
    show (Job.elements w (some k) _ >>= _) = _
    rw [s4, Res.ok_bind]
    show (Job.kernels w _ >>= _) = _
    rw [s5, Res.ok_bind]
    rfl
  have main : j.reset w (some i) (some k) given = .ok (true, j7) := by
    unfold Job.reset
    rw [s6, Res.ok_bind, s7, Res.ok_bind, if_neg (fun hx => by have := g7 hx.2.1; rw [hx.2.2] at this; cases this)]
    exact assign_can h.assigned
  obtain ⟨c', i', k', g1, g2, g3, g4, _⟩ := (renew_cases s6).1 rfl
  have : c' = c := Option.some.inj (g1.symm.trans hc)
  subst this
  cases g2
  cases g3
  refine ⟨j7, main, ?_⟩
  rcases resetOutput_cases s7 with ⟨_, ho, k⟩ | ⟨hn, e⟩
  · obtain ⟨o1, o2⟩ := output_keeps g4.ctl.1 ho k
    exact ⟨g4.keep o2, fun _ => o1⟩
  · have e' : { j4 with made := w.kernels, pbuf := some i, ebuf := some k } = j7 := congrArg Prod.snd e
    rw [← e']
    exact ⟨g4, fun hx => absurd hx hn⟩

/-! ## an example -/

/-- A controller that has no memory for four bytes. -/
def smallCtl : Ctl := { toyCtl with alloc := fun n => n ≠ 4 }

/-- A job with a controller that has not been set up yet. -/
def freshJob (c : Ctl) : Job :=
  ⟨some c, 5, fun _ => none, none, none, none, none, ⟨[0], [0], [0], 0, 0, 0⟩, none, false⟩

/-- Two blocks of particles, a configuration in buffer 3 and output in buffer 2 that all work. -/
def fineWorld : World :=
  ⟨toyFmt, toyHost, [some [⟨1, 0, 0⟩], some [⟨5, 0, 0⟩]], true, true, true, true, true, true, true, some 2, some 3,
    true, true, true, true⟩

theorem toy_sends (i : Nat) : CanSend toyFmt toyCtl toyHost i :=
  ⟨⟨rfl, rfl, rfl⟩, by show 0 < 3; decide, by show 3 ≤ 8; decide, rfl, fun h => by cases h⟩

theorem fine_sendable : Sendable fineWorld toyCtl (freshJob toyCtl) 0 1 True :=
  ⟨toy_images.2, toy_sends 5, toy_sends 0, toy_sends 1, ⟨_, rfl⟩, ⟨rfl, rfl, rfl⟩,
    fun _ => ⟨rfl, ⟨2, rfl, toy_sends 2⟩, fun x hx => by cases hx; exact toy_sends 3⟩,
    fun _ => ⟨fun _ => ⟨rfl, rfl⟩, fun _ => ⟨rfl, rfl⟩⟩⟩

example : ∃ j', (freshJob toyCtl).init fineWorld true (some 0) (some 1) none [1] = .ok (true, j') ∧
    JobPrepared fineWorld toyCtl (freshJob toyCtl) 0 1 j' ∧ OutputPrepared fineWorld toyCtl j' ∧
    (∃ a, j'.arg .particles = some a ∧ OnDevice toyFmt toyCtl toyHost 0 a) ∧ j'.sets.indices = [1] := by
  have hs : Sendable fineWorld toyCtl (freshJob toyCtl) 0 1 (fineWorld.required = true ∨ (none : Option Nat).isSome = true) :=
    { fine_sendable with output := fun _ => fine_sendable.output trivial }
  obtain ⟨j', h⟩ := C103_init_succeeds fineWorld (freshJob toyCtl) toyCtl rfl 0 1 none [1] (by simp) hs
  obtain ⟨c, i, k, h1, h2, h3, _, _, h4, h5, h6, _⟩ := C103_init _ _ _ _ _ _ _ _ h
  cases h1
  cases h2
  cases h3
  refine ⟨j', h, h4, h6 (.inl rfl), C103_particles_partial _ _ _ _ _ _ h4 hs.particles, ?_⟩
  rw [h5]
  decide +kernel

example : ∃ j', (freshJob toyCtl).reset fineWorld (some 0) (some 1) none = .ok (true, j') ∧
    JobPrepared fineWorld toyCtl (freshJob toyCtl) 0 1 j' ∧ OutputPrepared fineWorld toyCtl j' := by
  obtain ⟨j', h1, h2, h3⟩ := C103_reset_succeeds fineWorld (freshJob toyCtl) toyCtl rfl 0 1 none
    { fine_sendable with output := fun _ => fine_sendable.output trivial }
  exact ⟨j', h1, h2, h3 (.inl rfl)⟩

example : ∃ j', (freshJob toyCtl).reset { fineWorld with required := false } (some 0) (some 1) none = .ok (true, j') ∧
    ∃ c i k, JobPrepared { fineWorld with required := false } c (freshJob toyCtl) i k j' ∧ j'.out = none := by
  obtain ⟨j', h1, _⟩ := C103_reset_succeeds { fineWorld with required := false } (freshJob toyCtl) toyCtl rfl 0 1 none
    ⟨fine_sendable.keeps, fine_sendable.addr, fine_sendable.particles, fine_sendable.elements, fine_sendable.ranges,
      fine_sendable.base, fun h => by simp at h, fun h => by cases h⟩
  obtain ⟨c, i, k, _, _, _, h2, _, h3, _⟩ := C103_reset_partial _ _ _ _ _ rfl h1
  exact ⟨j', h1, c, i, k, h2, h3⟩

example : ∃ j', (freshJob smallCtl).reset fineWorld (some 0) (some 1) (some 2) = .ok (true, j') ∧
    OutputPrepared fineWorld smallCtl j' :=
  have h : (freshJob smallCtl).reset fineWorld (some 0) (some 1) (some 2) = .ok (true, _) := rfl
  ⟨_, h, (C103_reset_output _ _ _ _ _ _ _ rfl (.inl rfl) h).1⟩

/-! ## what goes wrong -/

/-- The same with a buffer of another size than the others, for which there is no memory on the device. -/
def bigWorld (b : Nat) : World := { fineWorld with h := { toyHost with size := fun i => if i = b then 4 else 3 } }

/-- C103 is false of the particles: if they cannot be brought to the device setting up the job succeeds all the same, and
there is no argument for them; a reset succeeds as well and keeps the argument for the old particles. -/
theorem C103_particles_violated :
    (∃ j', (freshJob smallCtl).init (bigWorld 0) true (some 0) (some 1) none [0] = .ok (true, j') ∧
      j'.pbuf = some 0 ∧ j'.arg .particles = none) ∧
    ∀ old : Arg, ∃ j', ((freshJob smallCtl).put .particles old).reset (bigWorld 0) (some 0) (some 1) none = .ok (true, j') ∧
      j'.pbuf = some 0 ∧ j'.arg .particles = some old :=
  ⟨⟨_, rfl, rfl, rfl⟩, fun _ => ⟨_, rfl, rfl, rfl⟩⟩

/-- C103 is false of a reset with output: if the elements cannot be brought to the device it succeeds all the same; the buffers
of the job are the old ones. -/
theorem C103_reset_violated :
    ∃ j', (freshJob smallCtl).reset (bigWorld 1) (some 0) (some 1) none = .ok (true, j') ∧
      j'.ebuf = none ∧ j'.pbuf = none ∧ j'.arg .elements = none ∧ j'.made = false :=
  ⟨_, rfl, rfl, rfl, rfl, rfl⟩

/-- C103 is false of the ranges: they are found before the particle sets are chosen and are those of the sets the job had, that
is of set 0 for a new job. -/
theorem C103_ranges_violated :
    ∃ j' r r', (freshJob toyCtl).init fineWorld true (some 0) (some 1) none [1] = .ok (true, j') ∧
      j'.sets.indices = [1] ∧ j'.ranges = some r ∧ findRanges fineWorld.objs j'.sets = .ok (0, r') ∧
      r.minId = 1 ∧ r.maxId = 1 ∧ r'.minId = 5 ∧ r'.maxId = 5 :=
  ⟨_, _, _, rfl, by decide +kernel, rfl, rfl, by decide +kernel, by decide +kernel, by decide +kernel, by decide +kernel⟩

/-- C103 is false of the sets: if none of the sets that are asked for exists setting up the job succeeds all the same, and the
job has no particle sets. -/
theorem C103_sets_violated :
    ∃ j', (freshJob toyCtl).init fineWorld true (some 0) (some 1) none [7] = .ok (true, j') ∧
      (setIndices (freshJob toyCtl).sets fineWorld.objs [7]).1 ≠ SUCCESS ∧ j'.sets.indices = [] :=
  ⟨_, rfl, by decide +kernel, by decide +kernel⟩

/-- C103 is false of the functions that combine both preparations: they are a success as soon as one of them is, and after a
success of the first one the other is not even made; two failures give 1. -/
theorem C103_both_violated (a : Int) (b : Unit → Int) :
    (bothStatus a b = 0 ↔ a = 0 ∨ b () = 0) ∧ (a = 0 → ∀ b', bothStatus a b' = 0) ∧
    (a ≠ 0 → b () ≠ 0 → bothStatus a b = 1) := by
  unfold bothStatus
  refine ⟨?_, fun h b' => by rw [if_neg (by simpa using h)], fun h1 h2 => by rw [if_pos h1, if_pos h2]⟩
  constructor
  · intro h
    split at h
    · split at h
      · cases h
      · rename_i hb
        exact .inr (by simpa using hb)
    · rename_i ha
      exact .inl (by simpa using ha)
  · rintro (h | h)
    · rw [if_neg (by simpa using h)]
    · rw [if_neg (show ¬ b () ≠ 0 by simpa using h)]
      split <;> rfl

example : bothStatus (-1) (fun _ => 0) = 0 ∧ bothStatus (-1) (fun _ => -1) = 1 := by decide

end SixTrack
