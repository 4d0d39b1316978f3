import Verif.Props.ClJobReset

/-!
# C97: an OpenCL job whose context has no node
-/

namespace SixTrack
open SixTrack.ClContext SixTrack.ClRun SixTrack.ClTrack SixTrack.ClJob

theorem arg_usable (e : ClJob.Env) (c : Nat) : ((e.arg c).cobj.isSome = true ∧ (e.arg c).mine = true) ↔ e.made c = true := by
  unfold ClJob.Env.arg
  cases e.made c <;> simp

/-- Without a node the job keeps the arguments it makes, but no kernel gets them; it is a success for the addresses and
elements if their argument has the buffer, for the particles if that of the addresses has it, and always for the output.
The output is handed to nobody, which is a failure. -/
theorem C97_no_node_prepare (e : ClJob.Env) (base : ClJob.Base) (j : ClJob.Job) (hn : j.t.ctx.hasNode = false) :
    storeAddr e j = .ok (e.made j.addr, { j with addresses := some ⟨e.arg j.addr, j.addr⟩ }) ∧
    (∀ pb, prepareParticles e base j (some pb) = .ok (e.made j.addr,
      { j with particles := some ⟨e.arg pb, pb⟩, addresses := some ⟨e.arg j.addr, j.addr⟩ })) ∧
    (∀ be, prepareElements e j (some be) = .ok (e.made be, { j with elements := some ⟨e.arg be, be⟩ })) ∧
    (∀ out, base.config = none →
      prepareOutput e base j out = .ok (true, { j with output := some ⟨e.arg out, out⟩ })) ∧
    (∀ be out, handMonitors e base j be out = .ok (false, j)) ∧ ∀ out, handEbe e base j out = .ok (false, j) := by
  have hs : ∀ j : ClJob.Job, j.t.ctx.hasNode = false →
      storeAddr e j = .ok (e.made j.addr, { j with addresses := some ⟨e.arg j.addr, j.addr⟩ }) := fun j hn => by
    unfold storeAddr
    simp only
    by_cases hm : e.made j.addr = true
    · rw [if_pos ((arg_usable e _).2 hm), if_neg (by rw [hn]; decide), hm]
    · rw [if_neg (mt (arg_usable e _).1 hm), Bool.eq_false_iff.2 hm]
  refine ⟨hs j hn, fun pb => ?_, fun be => ?_, fun out hc => ?_, fun be out => ?_, fun out => ?_⟩
  · unfold prepareParticles
    simp only
    rw [hs { j with particles := some ⟨e.arg pb, pb⟩ } hn, Res.ok_bind, if_neg]
    · rfl
    · rintro ⟨-, -, -, -, h⟩
      rw [show ({ j with particles := some ⟨e.arg pb, pb⟩, addresses := some ⟨e.arg j.addr, j.addr⟩ } : ClJob.Job).t.ctx.hasNode =
        false from hn] at h
      cases h
  · unfold prepareElements
    simp only
    by_cases hm : e.made be = true
    · rw [if_pos ((arg_usable e _).2 hm), if_neg (by rw [hn]; decide), hm]
    · rw [if_neg (mt (arg_usable e _).1 hm), Bool.eq_false_iff.2 hm]
  · unfold prepareOutput assignOut
    simp only
    rw [if_neg (by rw [hn]; decide), Res.ok_bind, if_pos rfl, hc]
    rfl
  · unfold handMonitors
    rw [if_neg (by rw [hn]; decide)]
  · unfold handEbe
    rw [if_neg (by rw [hn]; decide)]

/-- **C97 (a job that has been reset can track), violated**: without a node a reset without output is a success if the buffers
of addresses and elements become arguments, but tracking the particle set fails, and nothing is launched. -/
theorem C97_no_node_reset_violated (e : ClJob.Env) (d : Dev) (base : ClJob.Base) (j : ClJob.Job) (hn : j.t.ctx.hasNode = false)
    (hb : base.particles = true ∧ base.elements = true ∧ base.needsEbe = false ∧ base.needsMon = false) {pb be p n : Nat}
    (ha : e.made j.addr = true) (he : e.made be = true) (hs : j.sets = [(p, n)]) :
    ∃ j', resetJob e base j (some pb) (some be) none = .ok (true, j') ∧ j'.t = j.t ∧
      ∀ turn, track d j' turn = .ok (-1#32, j') := by
  refine ⟨{ j with particles := some ⟨e.arg pb, pb⟩, addresses := some ⟨e.arg j.addr, j.addr⟩,
                   elements := some ⟨e.arg be, be⟩ }, ?_, rfl, fun turn => ?_⟩
  · unfold resetJob
    rw [if_pos ⟨hb.1, hb.2.1⟩, (C97_no_node_prepare e base j hn).2.1 pb, Res.ok_bind, if_pos ha]
    simp only
    rw [(C97_no_node_prepare e base { j with particles := some ⟨e.arg pb, pb⟩, addresses := some ⟨e.arg j.addr, j.addr⟩ }
      hn).2.2.1 be, Res.ok_bind, he]
    unfold outputPart
    rw [hb.2.2.1, hb.2.2.2]
    rfl
  · obtain ⟨a1, -⟩ := C95_no_node d j.t hn
    unfold track overSets
    simp only [hs]
    rw [a1, Res.ok_bind]
    rfl

/-- a job whose context has no node -/
example : ∃ (e : ClJob.Env) (base : ClJob.Base) (j : ClJob.Job), j.t.ctx.hasNode = false ∧ base.particles = true ∧
    base.elements = true ∧ base.needsEbe = false ∧ base.needsMon = false ∧ base.config = none ∧ e.made j.addr = true ∧
    e.made 2 = true ∧ j.sets = [(0, 10)] :=
  ⟨jobEnv (fun _ => true) true, jobBase, clJob { clTracker false with ctx := { (clTracker false).ctx with selected := -1 } } [(0, 10)],
    rfl, rfl, rfl, rfl, rfl, rfl, rfl, rfl, rfl⟩

end SixTrack
