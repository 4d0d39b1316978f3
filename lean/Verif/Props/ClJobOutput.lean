import Verif.Props.ClJobReset

/-! # C97: resetting an OpenCL job with output -/

namespace SixTrack
open ClContext ClRun ClTrack ClJob

/-- From `t` to `t'` only the arguments in the list have got new values, and these launches have been taken. -/
structure Handed (K : Task → Nat) (t t' : Tracker) (l : List ((Task × Nat) × ClVal)) (calls : List Call) : Prop where
  rest : t' = { t with ctx := t'.ctx, execs := t'.execs, calls := t.calls ++ calls }
  has : NowHas K t.ctx t'.ctx l
  groups : ∀ i, lastGroup t' i = lastGroup t i

theorem Handed.refl (K : Task → Nat) (t : Tracker) : Handed K t t [] [] :=
  ⟨by simp, NowHas.refl K t.ctx, fun _ => rfl⟩

theorem Handed.staffed {K : Task → Nat} {t t' : Tracker} {l : List ((Task × Nat) × ClVal)} {calls : List Call}
    (h : Staffed t K) (hh : Handed K t t' l calls) : Staffed t' K := h.update hh.has.1 (by rw [hh.rest])

theorem nowHas_values {K : Task → Nat} {c c' : Ctx} {w : Task} {a b x y : Nat} (ho : OnlyArgs c c')
    (h : argsOf c' (K w) = withValues (argsOf c (K w)) [(a, x), (b, y)]) (hab : a ≠ b) (ha : a < (argsOf c (K w)).length)
    (hb : b < (argsOf c (K w)).length) (hr : ∀ i, i ≠ K w → argsOf c' i = argsOf c i) :
    NowHas K c c' [((w, a), .value x), ((w, b), .value y)] := by
  refine ⟨ho, ?_, fun k i hi => ?_⟩
  · simp only [List.mem_cons, List.not_mem_nil, or_false, forall_eq_or_imp, forall_eq]
    rw [kArg_eq, kArg_eq, h]
    simp only [withValues]
    constructor
    · rw [List.getElem?_set, if_neg (Ne.symm hab), List.getElem?_set, if_pos rfl, if_pos ha]
      rfl
    · rw [List.getElem?_set, if_pos rfl, if_pos (by simpa using hb)]
      rfl
  · by_cases hk : k = K w
    · subst hk
      simp only [List.mem_cons, List.not_mem_nil, or_false, forall_eq_or_imp, forall_eq, forall_const] at hi
      rw [kArg_eq, kArg_eq, h, withValues_get]
      simpa using hi
    · rw [kArg_eq, kArg_eq, hr k hk]

/-- a launch that is taken, not in debug mode -/
theorem Ran.handed {d : Dev} {t : Tracker} {K : Task → Nat} (h : Staffed t K) (hd : t.ctx.debug = false) {w : Task}
    {a b x y : Nat} {r : BitVec 32 × Tracker} (hab : a ≠ b) (ha : a < arity false w) (hb : b < arity false w)
    (hT : Taken d (withValues (argsOf t.ctx (K w)) [(a, x), (b, y)]) (lastGroup t (K w)) 1)
    (hr : Ran d t (K w) (withValues (argsOf t.ctx (K w)) [(a, x), (b, y)]) 1
      (withValues (argsOf t.ctx (K w)) [(a, x), (b, y)]) (.ok r)) :
    r.1 = 0#32 ∧ Handed K t r.2 [((w, a), .value x), ((w, b), .value y)]
      [⟨K w, withValues (argsOf t.ctx (K w)) [(a, x), (b, y)], launchOf (lastGroup t (K w)) 1⟩] := by
  obtain ⟨c', xs, s, f, f', h1, h2, h3, h4, h5, h6, -⟩ := hr
  rw [if_pos hT] at h5
  have hr := Res.ok.inj h5
  subst hr
  obtain ⟨q1, q2, -⟩ := h6 hd
  have hlen : (argsOf t.ctx (K w)).length = arity false w := by
    rw [h.argsOf, hd]
    simp
  refine ⟨q1, ⟨by simp only [q2], ?_, h4⟩⟩
  exact nowHas_values h1 h2 hab (by omega) (by omega) h3

/-- handing out the output of tracking element by element -/
theorem handEbe_handed {e : ClJob.Env} {base : ClJob.Base} {j : ClJob.Job} {K : Task → Nat} (h : Staffed j.t K)
    (hd : j.t.ctx.debug = false) {out slot cfg : Nat} (hm : base.hasEbe = true) (hc : j.config.isSome = true)
    (hb : base.config.isSome = true) (he : j.elements.isSome = true) (ho : j.output = some ⟨e.arg out, out⟩)
    (hmade : e.made out = true) (h0 : kArg j.t.ctx (K .elemOut) 0 = some (.buffer cfg))
    (h4 : kArg j.t.ctx (K .elemOut) 4 = some (.value slot)) (hr : e.dev.run.ok = true)
    (hl : 0 < launchItems (lastGroup j.t (K .elemOut)) 1) :
    ∃ t', handEbe e base j out = .ok (true, { j with t := t' }) ∧
      Handed K j.t t' (outputArgs (e.mem out) ++ [((.elemOut, 1), .value j.t.config), ((.elemOut, 3), .value base.ebeOffset)])
        [⟨K .elemOut, [some (.buffer cfg), some (.value j.t.config), some (.buffer (e.mem out)),
          some (.value base.ebeOffset), some (.value slot)], launchOf (lastGroup j.t (K .elemOut)) 1⟩] := by
  have hh : Held.has j.output out = true := by
    rw [ho]
    simp only [Held.has, arg_cobj, hmade, Bool.and_eq_true, decide_eq_true_eq, and_true]
    rfl
  obtain ⟨c', r, a, hran, hres⟩ := C97_ebe_partial (e := e) (base := base) h (fun q => by rw [hd] at q; cases q) hm hc hb he ho hh
  have s1 : Staffed { j.t with ctx := c' } K := h.update a.1 rfl
  have hd' : c'.debug = false := by rw [a.1.debug]; exact hd
  have hargs : argsOf c' (K .elemOut) = [some (.buffer cfg), kArg c' (K .elemOut) 1, some (.buffer (e.mem out)),
      kArg c' (K .elemOut) 3, some (.value slot)] := by
    have := s1.argsOf .elemOut
    simp only [hd'] at this
    rw [this]
    have k0 : kArg c' (K .elemOut) 0 = some (.buffer cfg) := by
      rw [a.keep h (by simp [outputArgs])]
      exact h0
    have k2 := a.2.1 ((.elemOut, 2), .buffer (e.mem out)) (by simp [outputArgs, Env.arg])
    have k4 : kArg c' (K .elemOut) 4 = some (.value slot) := by
      rw [a.keep h (by simp [outputArgs])]
      exact h4
    simp only at k2
    simp only [arity, Bool.false_eq_true, if_false, List.range, List.range.loop, List.map_cons, List.map_nil, k0, k2, k4]
  have hw : withValues (argsOf c' (K .elemOut)) [(1, j.t.config), (3, base.ebeOffset)] = [some (.buffer cfg),
      some (.value j.t.config), some (.buffer (e.mem out)), some (.value base.ebeOffset), some (.value slot)] := by
    rw [hargs]
    rfl
  obtain ⟨-, hh2⟩ := Ran.handed (r := r) s1 hd' (by decide) (by decide) (by decide) (by
    simp only [hw]
    exact ⟨hr, by simp, hl⟩) hran
  refine ⟨r.2, hres, ?_, a.trans h.inj hh2.has (by simp [outputArgs]), fun i => hh2.groups i⟩
  rw [hh2.rest]
  simp only [hw]
  rfl

/-- handing out the output of monitors -/
theorem handMonitors_handed {e : ClJob.Env} {base : ClJob.Base} {j : ClJob.Job} {K : Task → Nat} (h : Staffed j.t K)
    (hd : j.t.ctx.debug = false) {be out slot : Nat} (hm : base.hasMon = true) (he : j.elements = some ⟨e.arg be, be⟩)
    (hmb : e.made be = true) (ho : j.output = some ⟨e.arg out, out⟩) (hmade : e.made out = true)
    (h0 : kArg j.t.ctx (K .monOut) 0 = some (.buffer (e.mem be))) (h4 : kArg j.t.ctx (K .monOut) 4 = some (.value slot))
    (hr : e.dev.run.ok = true) (hl : 0 < launchItems (lastGroup j.t (K .monOut)) 1) :
    ∃ t', handMonitors e base j be out = .ok (e.reads be, { j with t := t' }) ∧
      Handed K j.t t' (outputArgs (e.mem out) ++
          [((.monOut, 2), .value (turnArg base.minTurn)), ((.monOut, 3), .value base.monOffset)])
        [⟨K .monOut, [some (.buffer (e.mem be)), some (.buffer (e.mem out)), some (.value (turnArg base.minTurn)),
          some (.value base.monOffset), some (.value slot)], launchOf (lastGroup j.t (K .monOut)) 1⟩] := by
  have hh : Held.has j.output out = true := by
    rw [ho]
    simp only [Held.has, arg_cobj, hmade, Bool.and_eq_true, decide_eq_true_eq, and_true]
    rfl
  have hhe : Held.has j.elements be = true := by
    rw [he]
    simp only [Held.has, arg_cobj, hmb, Bool.and_eq_true, decide_eq_true_eq, and_true]
    rfl
  obtain ⟨c', r, a, hran, hres⟩ := C97_monitors (e := e) (base := base) h (fun q => by rw [hd] at q; cases q) hm hhe ho hh
  have s1 : Staffed { j.t with ctx := c' } K := h.update a.1 rfl
  have hd' : c'.debug = false := by rw [a.1.debug]; exact hd
  have hargs : argsOf c' (K .monOut) = [some (.buffer (e.mem be)), some (.buffer (e.mem out)), kArg c' (K .monOut) 2,
      kArg c' (K .monOut) 3, some (.value slot)] := by
    have := s1.argsOf .monOut
    simp only [hd'] at this
    rw [this]
    have k0 : kArg c' (K .monOut) 0 = some (.buffer (e.mem be)) := by
      rw [a.keep h (by simp [outputArgs])]
      exact h0
    have k1 := a.2.1 ((.monOut, 1), .buffer (e.mem out)) (by simp [outputArgs, Env.arg])
    have k4 : kArg c' (K .monOut) 4 = some (.value slot) := by
      rw [a.keep h (by simp [outputArgs])]
      exact h4
    simp only at k1
    simp only [arity, Bool.false_eq_true, if_false, List.range, List.range.loop, List.map_cons, List.map_nil, k0, k1, k4]
  have hw : withValues (argsOf c' (K .monOut)) [(2, turnArg base.minTurn), (3, base.monOffset)] = [some (.buffer (e.mem be)),
      some (.buffer (e.mem out)), some (.value (turnArg base.minTurn)), some (.value base.monOffset), some (.value slot)] := by
    rw [hargs]
    rfl
  obtain ⟨hz, hh2⟩ := Ran.handed (r := r) s1 hd' (by decide) (by decide) (by decide) (by
    simp only [hw]
    exact ⟨hr, by simp, hl⟩) hran
  refine ⟨r.2, by rw [hres, hz]; simp, ?_, a.trans h.inj hh2.has (by simp [outputArgs]), fun i => hh2.groups i⟩
  rw [hh2.rest]
  simp only [hw]
  rfl

/-- The launches for handing out the output: for tracking element by element and for monitors, if these are needed. -/
def outputCalls (e : ClJob.Env) (base : ClJob.Base) (K : Task → Nat) (t : Tracker) (be out cfg slot : Nat) : List Call :=
  (if base.needsEbe then [⟨K .elemOut, [some (.buffer (e.mem cfg)), some (.value 0), some (.buffer (e.mem out)),
    some (.value base.ebeOffset), some (.value slot)], launchOf (lastGroup t (K .elemOut)) 1⟩] else []) ++
  (if base.needsMon then [⟨K .monOut, [some (.buffer (e.mem be)), some (.buffer (e.mem out)),
    some (.value (turnArg base.minTurn)), some (.value base.monOffset), some (.value slot)],
    launchOf (lastGroup t (K .monOut)) 1⟩] else [])

/-- What the kernels for tracking have after the output has been prepared. -/
structure StillTracks (K : Task → Nat) (t t' : Tracker) : Prop where
  staffed : Staffed t' K
  debug : t'.ctx.debug = t.ctx.debug
  groups : ∀ i, lastGroup t' i = lastGroup t i
  set : t'.pset = t.pset ∧ t'.particles = t.particles
  turn : ∀ i, kArg t'.ctx (K .turn) i = kArg t.ctx (K .turn) i
  line : ∀ i, kArg t'.ctx (K .line) i = kArg t.ctx (K .line) i
  elem : ∀ i, i ≠ 3 → i ≠ 4 → kArg t'.ctx (K .elem) i = kArg t.ctx (K .elem) i

theorem StillTracks.of {K : Task → Nat} {t t' : Tracker} {l : List ((Task × Nat) × ClVal)} (h : Staffed t K)
    (ha : NowHas K t.ctx t'.ctx l) (hk : t'.kernel = t.kernel) (hg : ∀ i, lastGroup t' i = lastGroup t i)
    (hs : t'.pset = t.pset ∧ t'.particles = t.particles)
    (hl : ∀ x ∈ l, x.1.1 ≠ .turn ∧ x.1.1 ≠ .line ∧ (x.1.1 = .elem → x.1.2 = 3 ∨ x.1.2 = 4)) : StillTracks K t t' where
  staffed := h.update ha.1 hk
  debug := ha.1.debug
  groups := hg
  set := hs
  turn i := ha.keep h fun x hx e => (hl x hx).1 (by rw [e])
  line i := ha.keep h fun x hx e => (hl x hx).2.1 (by rw [e])
  elem i h3 h4 := ha.keep h fun x hx e => by
    have := (hl x hx).2.2 (by rw [e])
    rw [e] at this
    rcases this with q | q
    · exact h3 q
    · exact h4 q

theorem StillTracks.trans {K : Task → Nat} {a b c : Tracker} (h : StillTracks K a b) (h' : StillTracks K b c) :
    StillTracks K a c where
  staffed := h'.staffed
  debug := h'.debug.trans h.debug
  groups i := (h'.groups i).trans (h.groups i)
  set := ⟨h'.set.1.trans h.set.1, h'.set.2.trans h.set.2⟩
  turn i := (h'.turn i).trans (h.turn i)
  line i := (h'.line i).trans (h.line i)
  elem i h3 h4 := (h'.elem i h3 h4).trans (h.elem i h3 h4)

/-- Preparing and handing out the output, not in debug mode, if the buffers reach the device and OpenCL takes the launches:
the launches that are needed, in order, have the buffers, turn and offsets of the job.  The result is a success unless the
elements, which monitors are among, can not be read back. -/
theorem C97_output_part {e : ClJob.Env} {base : ClJob.Base} {j : ClJob.Job} {K : Task → Nat} (h : Staffed j.t K)
    (hd : j.t.ctx.debug = false) {be out cfg slot : Nat} (he : j.elements = some ⟨e.arg be, be⟩) (hmb : e.made be = true)
    (hbe : kArg j.t.ctx (K .monOut) 0 = some (.buffer (e.mem be)))
    (hs1 : kArg j.t.ctx (K .elemOut) 4 = some (.value slot)) (hs2 : kArg j.t.ctx (K .monOut) 4 = some (.value slot))
    (hr : e.dev.run.ok = true) (hl1 : 0 < launchItems (lastGroup j.t (K .elemOut)) 1)
    (hl2 : 0 < launchItems (lastGroup j.t (K .monOut)) 1) (hbo : base.output = true) (hout : base.out = some out)
    (hmo : e.made out = true)
    (hcfg : (base.config = some cfg ∧ e.writes cfg = true) ∨ (base.config = none ∧ base.needsEbe = false))
    (hE : base.needsEbe = true → base.ebe = true ∧ base.hasEbe = true)
    (hM : base.needsMon = true → base.mon = true ∧ base.hasMon = true) {given : Option Nat}
    (hneed : base.needsEbe = true ∨ base.needsMon = true ∨ given.isSome = true) (strict : Bool) :
    ∃ j', outputPart e base j be given strict = .ok (!base.needsMon || e.reads be, j') ∧
      j'.t.calls = j.t.calls ++ outputCalls e base K j.t be out cfg slot ∧ StillTracks K j.t j'.t ∧ j'.sets = j.sets ∧
      j'.output = some ⟨e.arg out, out⟩ ∧
      (base.config = some cfg → kArg j'.t.ctx (K .elem) 3 = some (.buffer (e.mem cfg)) ∧
        kArg j'.t.ctx (K .elem) 4 = some (.value 0)) := by
  obtain ⟨-, o2, o3, -⟩ := C97_output (e := e) (base := base) h out
  -- the output and the configuration
  obtain ⟨j1, p1, still1, calls1, sets1, out1, el1, cf1, cfb⟩ : ∃ j1, prepareOutput e base j out = .ok (true, j1) ∧
      StillTracks K j.t j1.t ∧ j1.t.calls = j.t.calls ∧ j1.sets = j.sets ∧ j1.output = some ⟨e.arg out, out⟩ ∧
      j1.elements = j.elements ∧
      (kArg j1.t.ctx (K .monOut) 0 = kArg j.t.ctx (K .monOut) 0 ∧ kArg j1.t.ctx (K .monOut) 4 = kArg j.t.ctx (K .monOut) 4 ∧
        kArg j1.t.ctx (K .elemOut) 4 = kArg j.t.ctx (K .elemOut) 4) ∧
      (base.config = some cfg → j1.config.isSome = true ∧ j1.t.config = 0 ∧
        kArg j1.t.ctx (K .elemOut) 0 = some (.buffer (e.mem cfg)) ∧ kArg j1.t.ctx (K .elem) 3 = some (.buffer (e.mem cfg)) ∧
        kArg j1.t.ctx (K .elem) 4 = some (.value 0)) := by
    rcases hcfg with ⟨hc, hw⟩ | ⟨hc, -⟩
    · obtain ⟨c', r, a⟩ := o3 cfg hmo hc hw
      refine ⟨_, r, StillTracks.of h a rfl (fun _ => rfl) ⟨rfl, rfl⟩ (by simp [outputArgs, configValues]), rfl, rfl, rfl, rfl,
        ⟨?_, ?_, ?_⟩, fun _ => ⟨rfl, rfl, ?_, ?_, ?_⟩⟩
      · exact a.keep h (by simp [outputArgs, configValues])
      · exact a.keep h (by simp [outputArgs, configValues])
      · exact a.keep h (by simp [outputArgs, configValues])
      · exact a.2.1 ((.elemOut, 0), .buffer (e.mem cfg)) (by simp [configValues])
      · exact a.2.1 ((.elem, 3), .buffer (e.mem cfg)) (by simp [configValues])
      · exact a.2.1 ((.elem, 4), .value 0) (by simp [configValues])
    · obtain ⟨c', r, a⟩ := o2 hmo hc
      refine ⟨_, r, StillTracks.of h a rfl (fun _ => rfl) ⟨rfl, rfl⟩ (by simp [outputArgs]), rfl, rfl, rfl, rfl,
        ⟨?_, ?_, ?_⟩, fun q => by rw [hc] at q; cases q⟩
      all_goals exact a.keep h (by simp [outputArgs])
  -- element by element
  obtain ⟨j2, p2, still2, calls2, sets2, out2, el2, mon2, cfb2⟩ : ∃ j2, stepEbe e base j1 out = .ok (true, j2) ∧
      StillTracks K j.t j2.t ∧ j2.t.calls = j.t.calls ++ (if base.needsEbe then [⟨K .elemOut, [some (.buffer (e.mem cfg)),
        some (.value 0), some (.buffer (e.mem out)), some (.value base.ebeOffset), some (.value slot)],
        launchOf (lastGroup j.t (K .elemOut)) 1⟩] else []) ∧ j2.sets = j.sets ∧ j2.output = some ⟨e.arg out, out⟩ ∧
      j2.elements = j.elements ∧
      (kArg j2.t.ctx (K .monOut) 0 = kArg j.t.ctx (K .monOut) 0 ∧ kArg j2.t.ctx (K .monOut) 4 = kArg j.t.ctx (K .monOut) 4) ∧
      (base.config = some cfg → kArg j2.t.ctx (K .elem) 3 = some (.buffer (e.mem cfg)) ∧
        kArg j2.t.ctx (K .elem) 4 = some (.value 0)) := by
    unfold stepEbe
    cases hn : base.needsEbe with
    | false =>
      exact ⟨j1, rfl, still1, by simpa using calls1, sets1, out1, el1, ⟨cf1.1, cf1.2.1⟩, fun q => (cfb q).2.2.2⟩
    | true =>
      have hc : base.config = some cfg := by
        rcases hcfg with q | q
        · exact q.1
        · rw [hn] at q; cases q.2
      obtain ⟨b1, b2, b3, b4, b5⟩ := cfb hc
      obtain ⟨t', r, hh⟩ := handEbe_handed (e := e) (base := base) still1.staffed (by rw [still1.debug]; exact hd) (hE hn).2 b1
        (by rw [hc]; rfl) (by rw [el1, he]; rfl) out1 hmo b3 (by rw [cf1.2.2]; exact hs1) hr
        (by rw [still1.groups]; exact hl1)
      have st : StillTracks K j1.t t' := StillTracks.of still1.staffed hh.has (by rw [hh.rest]) hh.groups
        (by rw [hh.rest]; exact ⟨rfl, rfl⟩) (by simp [outputArgs])
      refine ⟨{ j1 with t := t' }, ?_, still1.trans st, ?_, sets1, out1, el1, ⟨?_, ?_⟩, fun _ => ⟨?_, ?_⟩⟩
      · rw [if_pos rfl, if_pos (hE hn).1]
        exact r
      · simp only [if_true]
        rw [hh.rest]
        simp only
        rw [calls1, b2, still1.groups]
      · exact (hh.has.keep still1.staffed (by simp [outputArgs])).trans cf1.1
      · exact (hh.has.keep still1.staffed (by simp [outputArgs])).trans cf1.2.1
      · exact (hh.has.keep still1.staffed (by simp [outputArgs])).trans b4
      · exact (hh.has.keep still1.staffed (by simp [outputArgs])).trans b5
  -- monitors
  obtain ⟨j3, p3, still3, calls3, sets3, out3, cfb3⟩ : ∃ j3, stepMonitors e base j2 be out =
        .ok (!base.needsMon || e.reads be, j3) ∧ StillTracks K j.t j3.t ∧
      j3.t.calls = j.t.calls ++ outputCalls e base K j.t be out cfg slot ∧ j3.sets = j.sets ∧
      j3.output = some ⟨e.arg out, out⟩ ∧
      (base.config = some cfg → kArg j3.t.ctx (K .elem) 3 = some (.buffer (e.mem cfg)) ∧
        kArg j3.t.ctx (K .elem) 4 = some (.value 0)) := by
    unfold stepMonitors outputCalls
    cases hn : base.needsMon with
    | false => exact ⟨j2, rfl, still2, by simpa using calls2, sets2, out2, cfb2⟩
    | true =>
      obtain ⟨t', r, hh⟩ := handMonitors_handed (e := e) (base := base) still2.staffed (by rw [still2.debug]; exact hd) (hM hn).2
        (el2.trans he) hmb out2 hmo (mon2.1.trans hbe) (mon2.2.trans hs2) hr (by rw [still2.groups]; exact hl2)
      have st : StillTracks K j2.t t' := StillTracks.of still2.staffed hh.has (by rw [hh.rest]) hh.groups
        (by rw [hh.rest]; exact ⟨rfl, rfl⟩) (by simp [outputArgs])
      refine ⟨{ j2 with t := t' }, ?_, still2.trans st, ?_, sets2, out2, fun q => ⟨?_, ?_⟩⟩
      · rw [if_pos rfl, if_pos (hM hn).1]
        simpa using r
      · simp only [if_true]
        rw [hh.rest]
        simp only
        rw [calls2, still2.groups, List.append_assoc]
      · exact (hh.has.keep still2.staffed (by simp [outputArgs])).trans (cfb2 q).1
      · exact (hh.has.keep still2.staffed (by simp [outputArgs])).trans (cfb2 q).2
  refine ⟨j3, ?_, calls3, still3, sets3, out3, cfb3⟩
  unfold outputPart
  rw [if_pos hneed, if_pos hbo, hout]
  simp only
  rw [p1, Res.ok_bind]
  simp only [if_true]
  unfold handOut
  by_cases hq : base.needsEbe = true ∨ base.needsMon = true
  · rw [if_pos hq, hout]
    simp only
    rw [p2, Res.ok_bind]
    simp only [if_true]
    exact p3
  · rw [if_neg hq]
    have n1 : base.needsEbe = false := by simpa using fun q => hq (Or.inl q)
    have n2 : base.needsMon = false := by simpa using fun q => hq (Or.inr q)
    have e2 : j2 = j1 := by
      unfold stepEbe at p2
      rw [n1] at p2
      exact (congrArg Prod.snd (Res.ok.inj p2)).symm
    have e3 : j3 = j2 := by
      unfold stepMonitors at p3
      rw [n2] at p3
      exact (congrArg Prod.snd (Res.ok.inj p3)).symm
    rw [e3, e2, n2]
    rfl

/-- A reset with output, not in debug mode, if all buffers reach the device and OpenCL takes the launches: the output is handed
out with the new buffers, the job is ready for tracking with the new particles and elements, and it is a success unless
there are monitors and the elements can not be read back.  Making a job does the same. -/
theorem C97_reset_output {e : ClJob.Env} {base : ClJob.Base} {j : ClJob.Job} {K : Task → Nat} (h : Staffed j.t K)
    (hd : j.t.ctx.debug = false) {pb be out cfg slot p n : Nat} {rest : List (Nat × Nat)} (hs : j.sets = (p, n) :: rest)
    (hu : ∀ x ∈ rest, x.1 ≠ p) (hb : base.particles = true ∧ base.elements = true ∧ base.output = true)
    (hp : e.made pb = true) (ha : e.made j.addr = true) (hn : 0 < base.total) (he : e.made be = true ∧ 0 < (e.content be).1)
    (hs1 : kArg j.t.ctx (K .elemOut) 4 = some (.value slot)) (hs2 : kArg j.t.ctx (K .monOut) 4 = some (.value slot))
    (hr : e.dev.run.ok = true) (hl1 : 0 < launchItems (lastGroup j.t (K .elemOut)) 1)
    (hl2 : 0 < launchItems (lastGroup j.t (K .monOut)) 1) (hout : base.out = some out) (hmo : e.made out = true)
    (hcfg : (base.config = some cfg ∧ e.writes cfg = true) ∨ (base.config = none ∧ base.needsEbe = false))
    (hE : base.needsEbe = true → base.ebe = true ∧ base.hasEbe = true)
    (hM : base.needsMon = true → base.mon = true ∧ base.hasMon = true) {given : Option Nat}
    (hneed : base.needsEbe = true ∨ base.needsMon = true ∨ given.isSome = true) :
    ∃ j', resetJob e base j (some pb) (some be) given = .ok (!base.needsMon || e.reads be, j') ∧
      initJob e base j (some pb) (some be) given = .ok (!base.needsMon || e.reads be, j') ∧
      j'.t.calls = j.t.calls ++ outputCalls e base K j.t be out cfg slot ∧ Staffed j'.t K ∧ InStep j' ∧ j'.sets = j.sets ∧
      (∀ w ∈ [Task.turn, .line, .elem], SetSelected j'.t K w ∧ kArg j'.t.ctx (K w) 0 = some (.buffer (e.mem pb)) ∧
        kArg j'.t.ctx (K w) 2 = some (.buffer (e.mem be))) ∧
      (base.config = some cfg → kArg j'.t.ctx (K .elem) 3 = some (.buffer (e.mem cfg)) ∧
        kArg j'.t.ctx (K .elem) 4 = some (.value 0)) := by
  obtain ⟨c1, r1, a1⟩ := C97_particles_partial (base := base) h hs hp ha hn
  have s1 : Staffed { j.t with ctx := c1, pset := p, particles := n } K := h.update a1.1 rfl
  obtain ⟨c2, r2, a2⟩ := (C97_elements (e := e) (j := { j with
    particles := some ⟨e.arg pb, pb⟩, addresses := some ⟨e.arg j.addr, j.addr⟩
    t := { j.t with ctx := c1, pset := p, particles := n } }) s1 be).1 he
  have a := a1.trans h.inj a2 (by simp [particleArgs, elementArgs])
  have part := fun strict => C97_output_part (e := e) (base := base) (cfg := cfg) (slot := slot) (out := out) (given := given)
    (j := { j with
      particles := some ⟨e.arg pb, pb⟩, addresses := some ⟨e.arg j.addr, j.addr⟩, elements := some ⟨e.arg be, be⟩
      t := { j.t with ctx := c2, pset := p, particles := n } }) (be := be) (K := K)
    (h.update a.1 rfl) (by rw [← hd]; exact a.1.debug) rfl he.1
    (a.2.1 ((.monOut, 0), .buffer (e.mem be)) (by simp [elementArgs]))
    ((a.keep h (by simp [particleArgs, elementArgs])).trans hs1) ((a.keep h (by simp [particleArgs, elementArgs])).trans hs2)
    hr hl1 hl2 hb.2.2 hout hmo hcfg hE hM hneed strict
  obtain ⟨j', p1, p2, p3, p4, -, p6⟩ := part true
  refine ⟨j', ?_, ?_, p2, p3.staffed, ?_, p4, ?_, p6⟩
  · unfold resetJob
    rw [if_pos ⟨hb.1, hb.2.1⟩, r1, Res.ok_bind]
    simp only [if_true]
    rw [r2, Res.ok_bind]
    exact p1
  · have hst : ∀ x, outputPart e base x be given false = outputPart e base x be given true := by
      intro x
      unfold outputPart handOut
      rw [hout]
    unfold initJob
    rw [if_pos hb.1, r1, Res.ok_bind]
    simp only [hb.2.1, and_self, if_true]
    rw [r2, Res.ok_bind]
    exact (hst _).trans p1
  · exact ⟨n, rest, by rw [p4, p3.set.1]; exact hs, p3.set.2, fun x hx => by rw [p3.set.1]; exact hu x hx⟩
  · have hset : j'.t.pset = p := p3.set.1
    intro w hw
    simp only [List.mem_cons, List.not_mem_nil, or_false] at hw
    unfold SetSelected
    rw [hset]
    rcases hw with rfl | rfl | rfl
    · rw [p3.turn, p3.turn, p3.turn]
      exact ⟨a.2.1 ((.turn, 1), .value p) (by simp [particleArgs]),
        a.2.1 ((.turn, 0), .buffer (e.mem pb)) (by simp [particleArgs]),
        a.2.1 ((.turn, 2), .buffer (e.mem be)) (by simp [elementArgs])⟩
    · rw [p3.line, p3.line, p3.line]
      exact ⟨a.2.1 ((.line, 1), .value p) (by simp [particleArgs]),
        a.2.1 ((.line, 0), .buffer (e.mem pb)) (by simp [particleArgs]),
        a.2.1 ((.line, 2), .buffer (e.mem be)) (by simp [elementArgs])⟩
    · rw [p3.elem 1 (by decide) (by decide), p3.elem 0 (by decide) (by decide), p3.elem 2 (by decide) (by decide)]
      exact ⟨a.2.1 ((.elem, 1), .value p) (by simp [particleArgs]),
        a.2.1 ((.elem, 0), .buffer (e.mem pb)) (by simp [particleArgs]),
        a.2.1 ((.elem, 2), .buffer (e.mem be)) (by simp [elementArgs])⟩

example : ∃ (e : ClJob.Env) (base : ClJob.Base) (j : ClJob.Job), Staffed j.t clTrackIds ∧ j.t.ctx.debug = false ∧
    j.sets = (0, 10) :: [(2, 20)] ∧ base.needsEbe = true ∧ base.needsMon = true ∧ base.out = some 7 ∧ base.config = some 8 ∧
    e.made 7 = true ∧ e.writes 8 = true ∧ kArg j.t.ctx (clTrackIds .elemOut) 4 = some (.value 0) ∧
    kArg j.t.ctx (clTrackIds .monOut) 4 = some (.value 0) ∧ 0 < launchItems (lastGroup j.t (clTrackIds .elemOut)) 1 ∧
    0 < launchItems (lastGroup j.t (clTrackIds .monOut)) 1 :=
  ⟨jobEnv (fun _ => true) true, jobBaseOut, clJob (clReady false) [(0, 10), (2, 20)], clReady_staffed false, rfl, rfl, rfl, rfl,
    rfl, rfl, rfl, rfl, by decide +kernel, by decide +kernel, by decide +kernel, by decide +kernel⟩

/-- With output, a reset fails if the base can not prepare or hand out what is needed, or if the output buffer or the
configuration does not reach the device. -/
theorem C97_output_fails {e : ClJob.Env} {base : ClJob.Base} {j : ClJob.Job} {K : Task → Nat} (h : Staffed j.t K)
    {be : Nat} {given : Option Nat}
    (hneed : base.needsEbe = true ∨ base.needsMon = true ∨ given.isSome = true) (strict : Bool)
    (hbad : base.output = false ∨ (∃ out, base.out = some out ∧ e.made out = false) ∨
      (∃ out c, base.out = some out ∧ base.config = some c ∧ e.writes c = false) ∨
      (base.out.isSome = true ∧ base.needsEbe = true ∧ (base.ebe = false ∨ base.hasEbe = false ∨
        base.config = none)) ∨
      (base.out.isSome = true ∧ base.needsEbe = false ∧ base.needsMon = true ∧ (base.mon = false ∨ base.hasMon = false))) :
    ∃ j', outputPart e base j be given strict = .ok (false, j') ∧ j'.t.calls = j.t.calls := by
  unfold outputPart
  rw [if_pos hneed]
  by_cases hbo : base.output = true
  swap
  · rw [if_neg hbo]
    exact ⟨j, rfl, rfl⟩
  rw [if_pos hbo]
  cases hout : base.out with
  | none =>
    simp [hbo, hout] at hbad
  | some out =>
    simp only
    obtain ⟨o1, o2, o3, o4⟩ := C97_output (e := e) (base := base) h out
    cases hmo : e.made out with
    | false =>
      rw [o1 hmo, Res.ok_bind]
      exact ⟨_, rfl, rfl⟩
    | true =>
      -- what preparing leaves, if it is a success
      have key : ∀ j1 : ClJob.Job, Staffed j1.t K → j1.t.calls = j.t.calls →
          ((base.needsEbe = true ∧ (base.ebe = false ∨ base.hasEbe = false ∨ base.config = none)) ∨
            (base.needsEbe = false ∧ base.needsMon = true ∧ (base.mon = false ∨ base.hasMon = false))) →
          ∃ j', handOut e base j1 be strict = .ok (false, j') ∧ j'.t.calls = j.t.calls := by
        intro j1 s1 c1 hb
        unfold handOut
        rw [if_pos (by rcases hb with q | q <;> simp [q.1, q.2]), hout]
        simp only
        rcases hb with ⟨n1, hb⟩ | ⟨n1, n2, hb⟩
        · have : stepEbe e base j1 out = .ok (false, j1) := by
            unfold stepEbe handEbe
            rw [if_pos n1]
            by_cases hbe : base.ebe = true
            · rw [if_pos hbe, if_pos s1.node, s1.has, Res.ok_bind, if_neg]
              · rfl
              · rintro ⟨-, q1, -, q2, -⟩
                rcases hb with hb | hb | hb
                · rw [hb] at hbe; cases hbe
                · rw [hb] at q1; cases q1
                · rw [hb] at q2; cases q2
            · rw [if_neg hbe]
          rw [this]
          exact ⟨j1, rfl, c1⟩
        · have e1 : stepEbe e base j1 out = .ok (true, j1) := by
            unfold stepEbe
            rw [if_neg (by simp [n1])]
          have e2 : stepMonitors e base j1 be out = .ok (false, j1) := by
            unfold stepMonitors
            rw [if_pos n2]
            by_cases hbe : base.mon = true
            · rw [if_pos hbe]
              refine (C97_monitors_refused (e := e) (base := base)).2 K s1 (Or.inl ?_)
              rcases hb with hb | hb
              · rw [hb] at hbe; cases hbe
              · exact hb
            · rw [if_neg hbe]
          rw [e1, Res.ok_bind]
          simp only [if_true]
          exact ⟨j1, e2, c1⟩
      cases hcf : base.config with
      | none =>
        obtain ⟨c', r, a⟩ := o2 hmo hcf
        rw [r, Res.ok_bind]
        simp only [if_true]
        refine key _ (h.update a.1 rfl) rfl ?_
        rcases hbad with q | ⟨o, q, q'⟩ | ⟨o, c, q, q', -⟩ | ⟨-, q, q'⟩ | ⟨-, q, q', q''⟩
        · rw [hbo] at q; cases q
        · rw [hout] at q; cases q; rw [hmo] at q'; cases q'
        · rw [hcf] at q'; cases q'
        · exact Or.inl ⟨q, Or.inr (Or.inr hcf)⟩
        · exact Or.inr ⟨q, q', q''⟩
      | some c =>
        cases hw : e.writes c with
        | false =>
          obtain ⟨c', r, a⟩ := o4 c hmo hcf hw
          rw [r, Res.ok_bind]
          exact ⟨_, rfl, rfl⟩
        | true =>
          obtain ⟨c', r, a⟩ := o3 c hmo hcf hw
          rw [r, Res.ok_bind]
          simp only [if_true]
          refine key _ (h.update a.1 rfl) rfl ?_
          rcases hbad with q | ⟨o, q, q'⟩ | ⟨o, c, q, q', q''⟩ | ⟨-, q, q'⟩ | ⟨-, q, q', q''⟩
          · rw [hbo] at q; cases q
          · rw [hout] at q; cases q; rw [hmo] at q'; cases q'
          · rw [hcf] at q'; cases q'; rw [hw] at q''; cases q''
          · rcases q' with q' | q' | q'
            · exact Or.inl ⟨q, Or.inl q'⟩
            · exact Or.inl ⟨q, Or.inr (Or.inl q')⟩
            · rw [hcf] at q'; cases q'
          · exact Or.inr ⟨q, q', q''⟩

example : ∃ (base : ClJob.Base), base.needsEbe = true ∧ base.out.isSome = true ∧ base.ebe = false :=
  ⟨{ jobBaseOut with ebe := false }, rfl, rfl, rfl⟩

/-- Without output that is needed or given, nothing is done for it. -/
theorem C97_no_output (e : ClJob.Env) (base : ClJob.Base) (j : ClJob.Job) (be : Nat) (strict : Bool)
    (h : base.needsEbe = false ∧ base.needsMon = false) : outputPart e base j be none strict = .ok (true, j) := by
  unfold outputPart
  rw [if_neg (by simp [h.1, h.2])]

/-- A reset fails if the buffer of addresses or the elements do not reach the device, or if there are no elements. -/
theorem C97_reset_fails {e : ClJob.Env} {base : ClJob.Base} {j : ClJob.Job} {K : Task → Nat} (h : Staffed j.t K)
    (hs : j.sets ≠ []) {pb be : Nat} (given : Option Nat)
    (hbad : e.made j.addr = false ∨ e.made be = false ∨ (e.content be).1 = 0) :
    (∃ j', resetJob e base j (some pb) (some be) given = .ok (false, j')) ∧
      ∃ j', initJob e base j (some pb) (some be) given = .ok (false, j') := by
  obtain ⟨j1, r1, s1⟩ : ∃ j1, prepareParticles e base j (some pb) = .ok (e.made j.addr, j1) ∧
      (e.made j.addr = true → Staffed j1.t K) := by
    cases ha : e.made j.addr with
    | false =>
      obtain ⟨j1, r1⟩ := C97_particles_status (e := e) (base := base) h hs pb
      exact ⟨j1, by rw [r1, ha], fun q => by cases q⟩
    | true =>
      by_cases hp : e.made pb = true ∧ 0 < base.total
      · match hj : j.sets with
        | [] => exact absurd hj hs
        | (p, n) :: rest =>
          obtain ⟨c1, r1, a1⟩ := C97_particles_partial (base := base) h hj hp.1 ha hp.2
          exact ⟨_, r1, fun _ => h.update a1.1 rfl⟩
      · obtain ⟨c1, r1, a1⟩ := C97_particles_violated (base := base) (pb := pb) h (by
          by_cases hm : e.made pb = true
          · exact Or.inr (Nat.eq_zero_of_not_pos fun q => hp ⟨hm, q⟩)
          · exact Or.inl (by simpa using hm)) ha
        exact ⟨_, r1, fun _ => h.update a1.1 rfl⟩
  cases ha : e.made j.addr with
  | false =>
    rw [ha] at r1
    unfold resetJob initJob
    rw [r1]
    simp only [Res.ok_bind, Bool.false_eq_true, false_and, if_false]
    constructor
    · by_cases hb : base.particles = true ∧ base.elements = true
      · rw [if_pos hb]; exact ⟨_, rfl⟩
      · rw [if_neg hb]; exact ⟨_, rfl⟩
    · by_cases hb : base.particles = true
      · rw [if_pos hb]; exact ⟨_, rfl⟩
      · rw [if_neg hb]; exact ⟨_, rfl⟩
  | true =>
    rw [ha] at r1
    have hel := (C97_elements (e := e) (s1 ha) be).2.1 (by
      rintro ⟨q1, q2⟩
      rcases hbad with q | q | q
      · rw [ha] at q; cases q
      · rw [q] at q1; cases q1
      · omega)
    unfold resetJob initJob
    rw [r1]
    simp only [Res.ok_bind, true_and, if_true, hel]
    constructor
    · by_cases hb : base.particles = true ∧ base.elements = true
      · rw [if_pos hb]; exact ⟨_, rfl⟩
      · rw [if_neg hb]; exact ⟨_, rfl⟩
    · by_cases hb : base.particles = true
      · rw [if_pos hb]
        by_cases hb' : base.elements = true
        · rw [if_pos hb']; exact ⟨_, rfl⟩
        · rw [if_neg hb']; exact ⟨_, rfl⟩
      · rw [if_neg hb]; exact ⟨_, rfl⟩

end SixTrack
