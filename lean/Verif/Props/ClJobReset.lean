import Verif.Props.ClJobPrepare

/-! # C97: handing out the output, and resetting the OpenCL job as a whole -/

namespace SixTrack
open ClContext ClRun ClTrack ClJob

/-! ## Handing out the output -/

theorem again_spec {j : ClJob.Job} {K : Task → Nat} (h : Staffed j.t K) {o : Held} (ho : j.output = some o)
    (hc : o.buf.cobj.isSome = true) : ∃ c', again j = .ok (true, { j with t := { j.t with ctx := c' } }) ∧
      NowHas K j.t.ctx c' (outputArgs o.buf.mem) := by
  obtain ⟨⟨n, s⟩, hx⟩ := Option.isSome_iff_exists.1 hc
  obtain ⟨c', h1, h2⟩ := C95_output h (b := o.buf) ⟨s, hx⟩
  refine ⟨c', ?_, h2.nowHas⟩
  have he : again j = (j.t.assignOutput o.buf >>= fun r => .ok (j.after r)) := by
    unfold again
    rw [ho]
    rfl
  rw [he, h1]
  rfl

theorem Held.has_some {h : Option Held} {c : Nat} (hh : Held.has h c = true) :
    ∃ o, h = some o ∧ o.buf.cobj.isSome = true ∧ o.buf.mine = true ∧ o.of = c := by
  cases h with
  | none => simp [Held.has] at hh
  | some o =>
    simp only [Held.has, Bool.and_eq_true, decide_eq_true_eq] at hh
    exact ⟨o, rfl, hh.1.2, hh.1.1, hh.2⟩

/-- Handing out the output to monitors: the kernels get the output buffer, and the kernel for it is launched with the first
turn and the offset of the job.  It is a success if and only if that is one and the elements can be read back. -/
theorem C97_monitors {e : ClJob.Env} {base : ClJob.Base} {j : ClJob.Job} {K : Task → Nat} (h : Staffed j.t K)
    (ht : Tells e.dev j.t K .monOut) {be out : Nat} {o : Held} (hm : base.hasMon = true)
    (he : Held.has j.elements be = true) (ho : j.output = some o) (hh : Held.has j.output out = true) :
    ∃ c' r, NowHas K j.t.ctx c' (outputArgs o.buf.mem) ∧
      Ran e.dev { j.t with ctx := c' } (K .monOut)
        (withValues (argsOf c' (K .monOut)) [(2, turnArg base.minTurn), (3, base.monOffset)]) 1
        (withValues (argsOf c' (K .monOut)) [(2, turnArg base.minTurn), (3, base.monOffset)]) (.ok r) ∧
      handMonitors e base j be out = .ok (decide (r.1 = 0#32) && e.reads be, { j with t := r.2 }) := by
  obtain ⟨o', ho', hc, -, -⟩ := Held.has_some hh
  have : o' = o := by rw [ho] at ho'; exact (Option.some.inj ho').symm
  subst this
  obtain ⟨c', h1, h2⟩ := again_spec h ho hc
  have s1 : Staffed { j.t with ctx := c' } K := h.update h2.1 rfl
  have t1 : Tells e.dev { j.t with ctx := c' } K .monOut := by
    intro hd
    obtain ⟨q1, q2, q3, q4⟩ := ht (by rw [← h2.1.debug]; exact hd)
    refine ⟨q1, q2, q3, ?_⟩
    rw [h2.keep h (by simp [outputArgs, arity])]
    exact q4
  have hran := C95_monitors s1 t1 base.minTurn base.monOffset
  obtain ⟨r, hr⟩ : ∃ r, ({ j.t with ctx := c' } : Tracker).assignMonitors e.dev base.minTurn base.monOffset = .ok r := by
    obtain ⟨_, _, _, _, _, -, -, -, -, hr, -⟩ := hran
    exact ⟨_, hr⟩
  refine ⟨c', r, h2, by rw [← hr]; exact hran, ?_⟩
  unfold handMonitors
  rw [if_pos h.node, h.has, Res.ok_bind, if_pos ⟨rfl, hm, he, hh⟩, h1, Res.ok_bind]
  simp only [if_true]
  rw [hr]
  rfl

/-- Without a node, an output of monitors or arguments for these very buffers it fails without effect. -/
theorem C97_monitors_refused {e : ClJob.Env} {base : ClJob.Base} {j : ClJob.Job} {be out : Nat} :
    (j.t.ctx.hasNode = false → handMonitors e base j be out = .ok (false, j)) ∧
    (∀ K, Staffed j.t K → (base.hasMon = false ∨ Held.has j.elements be = false ∨ Held.has j.output out = false) →
      handMonitors e base j be out = .ok (false, j)) := by
  unfold handMonitors
  refine ⟨fun hn => by rw [if_neg (by simp [hn])], fun K h hb => ?_⟩
  rw [if_pos h.node, h.has, Res.ok_bind, if_neg]
  · rfl
  · rintro ⟨-, h1, h2, h3⟩
    rcases hb with hb | hb | hb
    · rw [hb] at h1; simp at h1
    · rw [hb] at h2; simp at h2
    · rw [hb] at h3; simp at h3

/-- Handing out the output of tracking element by element: the kernels get the output buffer, and the kernel for it is
launched with the offset of the job.  What it gives is not looked at: see `C97_ebe_violated`. -/
theorem C97_ebe_partial {e : ClJob.Env} {base : ClJob.Base} {j : ClJob.Job} {K : Task → Nat} (h : Staffed j.t K)
    (ht : Tells e.dev j.t K .elemOut) {out : Nat} {o : Held} (hm : base.hasEbe = true) (hc : j.config.isSome = true)
    (hb : base.config.isSome = true) (he : j.elements.isSome = true) (ho : j.output = some o)
    (hh : Held.has j.output out = true) :
    ∃ c' r, NowHas K j.t.ctx c' (outputArgs o.buf.mem) ∧
      Ran e.dev { j.t with ctx := c' } (K .elemOut)
        (withValues (argsOf c' (K .elemOut)) [(1, j.t.config), (3, base.ebeOffset)]) 1
        (withValues (argsOf c' (K .elemOut)) [(1, j.t.config), (3, base.ebeOffset)]) (.ok r) ∧
      handEbe e base j out = .ok (true, { j with t := r.2 }) := by
  obtain ⟨o', ho', hcobj, -, -⟩ := Held.has_some hh
  have : o' = o := by rw [ho] at ho'; exact (Option.some.inj ho').symm
  subst this
  obtain ⟨c', h1, h2⟩ := again_spec h ho hcobj
  have s1 : Staffed { j.t with ctx := c' } K := h.update h2.1 rfl
  have t1 : Tells e.dev { j.t with ctx := c' } K .elemOut := by
    intro hd
    obtain ⟨q1, q2, q3, q4⟩ := ht (by rw [← h2.1.debug]; exact hd)
    refine ⟨q1, q2, q3, ?_⟩
    rw [h2.keep h (by simp [outputArgs, arity])]
    exact q4
  have hran := C95_elem_out s1 t1 base.ebeOffset
  obtain ⟨r, hr⟩ : ∃ r, ({ j.t with ctx := c' } : Tracker).assignElemOut e.dev base.ebeOffset = .ok r := by
    obtain ⟨_, _, _, _, _, -, -, -, -, hr, -⟩ := hran
    exact ⟨_, hr⟩
  refine ⟨c', r, h2, by rw [← hr]; exact hran, ?_⟩
  unfold handEbe
  rw [if_pos h.node, h.has, Res.ok_bind, if_pos ⟨rfl, hm, hc, hb, he, hh⟩, h1, Res.ok_bind]
  simp only [if_true]
  rw [hr]
  rfl

/-! ## Resetting -/

/-- Resetting a job that needs no output, with particles and elements that have been written to the device: the kernels have
them and the first of the particle sets, which is selected. -/
theorem C97_reset_partial {e : ClJob.Env} {base : ClJob.Base} {j : ClJob.Job} {K : Task → Nat} (h : Staffed j.t K)
    {pb be p n : Nat} {rest : List (Nat × Nat)} (hs : j.sets = (p, n) :: rest) (hu : ∀ x ∈ rest, x.1 ≠ p)
    (hb : base.particles = true ∧ base.elements = true) (hp : e.made pb = true) (ha : e.made j.addr = true)
    (hn : 0 < base.total) (he : e.made be = true ∧ 0 < (e.content be).1)
    (ho : base.needsEbe = false ∧ base.needsMon = false) :
    ∃ c', let j' : ClJob.Job := { j with
        particles := some ⟨e.arg pb, pb⟩, addresses := some ⟨e.arg j.addr, j.addr⟩, elements := some ⟨e.arg be, be⟩
        t := { j.t with ctx := c', pset := p, particles := n } }
      resetJob e base j (some pb) (some be) none = .ok (true, j') ∧
      initJob e base j (some pb) (some be) none = .ok (true, j') ∧
      NowHas K j.t.ctx c' (particleArgs (e.mem pb) (e.mem j.addr) p ++ elementArgs (e.mem be)) ∧ Staffed j'.t K ∧ InStep j' ∧
      SetSelected j'.t K .turn ∧ SetSelected j'.t K .line ∧ SetSelected j'.t K .elem := by
  obtain ⟨c1, r1, a1⟩ := C97_particles_partial (base := base) h hs hp ha hn
  have s1 : Staffed { j.t with ctx := c1, pset := p, particles := n } K := h.update a1.1 rfl
  obtain ⟨c2, r2, a2⟩ := (C97_elements (e := e) (j := { j with
    particles := some ⟨e.arg pb, pb⟩, addresses := some ⟨e.arg j.addr, j.addr⟩
    t := { j.t with ctx := c1, pset := p, particles := n } }) s1 be).1 he
  have a12 := a1.trans h.inj a2 (by simp [particleArgs, elementArgs])
  have hout : ∀ j' strict, outputPart e base j' be none strict = .ok (true, j') := by
    intro j' strict
    unfold outputPart
    rw [if_neg (by simp [ho.1, ho.2])]
  refine ⟨c2, ?_, ?_, a12, h.update a12.1 rfl, ⟨n, rest, hs, rfl, hu⟩, ?_, ?_, ?_⟩
  · unfold resetJob
    rw [if_pos hb, r1, Res.ok_bind]
    simp only [if_true]
    rw [r2, Res.ok_bind]
    exact hout _ _
  · unfold initJob
    rw [if_pos hb.1, r1, Res.ok_bind]
    simp only [hb.2, and_self, if_true]
    rw [r2, Res.ok_bind]
    exact hout _ _
  · exact a12.2.1 ((.turn, 1), .value p) (by simp [particleArgs])
  · exact a12.2.1 ((.line, 1), .value p) (by simp [particleArgs])
  · exact a12.2.1 ((.elem, 1), .value p) (by simp [particleArgs])

/-- After that, tracking until a turn launches the kernel once for each particle set with just these particles and elements,
whatever the job had before. -/
theorem C97_reset_track {e : ClJob.Env} {base : ClJob.Base} {j : ClJob.Job} {K : Task → Nat} (h : Staffed j.t K)
    {pb be p n slot : Nat} {rest : List (Nat × Nat)} (hs : j.sets = (p, n) :: rest) (hu : ∀ x ∈ rest, x.1 ≠ p)
    (hb : base.particles = true ∧ base.elements = true) (hp : e.made pb = true) (ha : e.made j.addr = true)
    (hn : 0 < base.total) (he : e.made be = true ∧ 0 < (e.content be).1)
    (ho : base.needsEbe = false ∧ base.needsMon = false) (hd : j.t.ctx.debug = false)
    (hslot : kArg j.t.ctx (K .turn) 4 = some (.value slot)) {d : Dev} (hr : d.run.ok = true)
    (hl : ∀ x ∈ j.sets, 0 < launchItems (lastGroup j.t (K .turn)) x.2) (turn : BitVec 64) :
    ∃ j', (resetJob e base j (some pb) (some be) none >>= fun r => track d r.2 turn) = .ok (0#32, j') ∧
      j'.t.calls = j.t.calls ++ j.sets.map fun x => ⟨K .turn, [some (.buffer (e.mem pb)), some (.value x.1),
        some (.buffer (e.mem be)), some (.value turn.toNat), some (.value slot)], launchOf (lastGroup j.t (K .turn)) x.2⟩ := by
  obtain ⟨c', r1, -, a, s, i, sel, -⟩ := C97_reset_partial h hs hu hb hp ha hn he ho
  simp only at r1 s i sel
  have hd' : c'.debug = false := by rw [a.1.debug]; exact hd
  have hall := C97_track (d := d) s (fun hh => by simp only [hd'] at hh; simp at hh) sel i turn
  have hargs : argsOf c' (K .turn) = [some (.buffer (e.mem pb)), some (.value p), some (.buffer (e.mem be)),
      kArg c' (K .turn) 3, some (.value slot)] := by
    have := s.argsOf .turn
    simp only [hd'] at this
    rw [this]
    have k0 := a.2.1 ((.turn, 0), .buffer (e.mem pb)) (by simp [particleArgs])
    have k1 := a.2.1 ((.turn, 1), .value p) (by simp [particleArgs])
    have k2 := a.2.1 ((.turn, 2), .buffer (e.mem be)) (by simp [elementArgs])
    have k4 : kArg c' (K .turn) 4 = some (.value slot) := by
      rw [a.keep h (by simp [particleArgs, elementArgs])]
      exact hslot
    simp only at k0 k1 k2
    simp only [arity, Bool.false_eq_true, if_false, List.range, List.range.loop, List.map_cons, List.map_nil, k0, k1, k2, k4]
  have hw : ∀ q, withValues (argsOf c' (K .turn)) [(1, q), (3, turn.toNat)] = [some (.buffer (e.mem pb)), some (.value q),
      some (.buffer (e.mem be)), some (.value turn.toNat), some (.value slot)] := by
    intro q
    rw [hargs]
    rfl
  obtain ⟨st, c2, xs, f, e1, -, -, -, -, -, z⟩ := hall
  have hT : ∀ x ∈ j.sets, Taken d (withValues (argsOf c' (K .turn)) [(1, x.1), (3, turn.toNat)])
      (lastGroup j.t (K .turn)) x.2 := by
    intro x hx
    rw [hw]
    refine ⟨hr, ?_⟩
    simp [hl x hx]
  have hst : st = 0#32 := z.2 ⟨hT, fun hh => by simp only [hd'] at hh; simp at hh⟩
  subst hst
  refine ⟨_, by rw [r1, Res.ok_bind]; exact e1, ?_⟩
  simp only
  congr 1
  unfold setCalls
  refine (congrArg _ (List.filter_eq_self.2 fun x hx => decide_eq_true (hT x hx))).trans ?_
  exact List.map_congr_left fun x _ => by rw [hw]; rfl

/-- A reset with a required output buffer that is not there fails, but making a job with it does not. -/
theorem C97_required {e : ClJob.Env} {base : ClJob.Base} {j : ClJob.Job} {be : Nat} (given : Option Nat)
    (hn : base.needsEbe = true ∨ base.needsMon = true) (ho : base.output = true) (hb : base.out = none) (strict : Bool) :
    outputPart e base j be given strict = .ok (!strict, j) := by
  unfold outputPart handOut
  rw [if_pos (by rcases hn with hn | hn <;> simp [hn]), if_pos ho, hb]
  simp only
  rw [if_pos hn]

/-- If the base refuses particles or elements, a reset has no effect on the context. -/
theorem C97_refused (e : ClJob.Env) (base : ClJob.Base) (j : ClJob.Job) (pb be given : Option Nat)
    (h : base.particles = false ∨ base.elements = false) : resetJob e base j pb be given = .ok (false, j) := by
  unfold resetJob
  rw [if_neg]
  rintro ⟨h1, h2⟩
  rcases h with h | h
  · rw [h] at h1; simp at h1
  · rw [h] at h2; simp at h2

/-! ## Examples -/

/-- OpenCL that takes everything; buffers with two objects -/
def jobEnv (made : Nat → Bool) (ok : Bool) : ClJob.Env :=
  ⟨{ clTakes 0 with run := ⟨ok, none⟩ }, fun c => 100 + c, fun c => 200 + c, fun _ => (2, 8), made, fun _ => true, fun _ => true⟩

/-- what the base gives for a job without output -/
def jobBase : ClJob.Base := ⟨true, true, true, true, true, false, false, none, none, false, false, 30, 0, 0, 0⟩

/-- what the base gives for a job with output -/
def jobBaseOut : ClJob.Base := ⟨true, true, true, true, true, true, true, some 7, some 8, true, true, 30, 3, 5, 6⟩

example : ∃ j : ClJob.Job, Staffed j.t clTrackIds ∧ j.sets = (0, 10) :: [(2, 20)] ∧ (∀ x ∈ [(2, 20)], x.1 ≠ 0) ∧
    j.t.ctx.debug = false ∧ kArg j.t.ctx (clTrackIds .turn) 4 = some (.value 0) ∧
    (∀ x ∈ j.sets, 0 < launchItems (lastGroup j.t (clTrackIds .turn)) x.2) ∧
    (jobEnv (fun _ => true) true).made j.addr = true ∧ 0 < jobBase.total :=
  ⟨clJob (clReady false) [(0, 10), (2, 20)], clReady_staffed false, rfl, by decide, rfl, by decide +kernel, by decide +kernel,
    rfl, by decide⟩

example : jobLaunched (resetJob (jobEnv (fun _ => true) true) jobBase (clJob (clReady false) [(0, 10), (2, 20)]) (some 1)
      (some 2) none >>= fun r => track (clTakes 0) r.2 7) = .ok (0#32,
    [([some (.buffer 201), some (.value 0), some (.buffer 202), some (.value 7), some (.value 0)], 10),
     ([some (.buffer 201), some (.value 2), some (.buffer 202), some (.value 7), some (.value 0)], 20)]) := by decide +kernel

example : (resetJob (jobEnv (fun _ => true) true) jobBaseOut (clJob (clReady false) [(0, 10)]) (some 1) (some 2) none >>=
      fun r => .ok (r.1, r.2.t.calls.map fun c => (c.kernel, c.args))) = .ok (true,
    [(clTrackIds .elemOut, [some (.buffer 208), some (.value 0), some (.buffer 207), some (.value 5), some (.value 0)]),
     (clTrackIds .monOut, [some (.buffer 202), some (.buffer 207), some (.value 3), some (.value 6), some (.value 0)])]) := by
  decide +kernel

/-- a job with elements, an output buffer and a configuration -/
def jobWithOut : ClJob.Job :=
  { clJob (clReady false) [(0, 10)] with
    elements := some ⟨⟨102, 202, true, some (2, 8)⟩, 2⟩, output := some ⟨⟨107, 207, true, some (2, 8)⟩, 7⟩
    config := some ⟨⟨108, 208, true, some (2, 8)⟩, 8⟩ }

example : Staffed jobWithOut.t clTrackIds ∧ Held.has jobWithOut.elements 2 = true ∧ Held.has jobWithOut.output 7 = true ∧
    Tells (clTakes 0) jobWithOut.t clTrackIds .monOut ∧ Tells (clTakes 0) jobWithOut.t clTrackIds .elemOut :=
  ⟨clReady_staffed false, by decide, by decide, fun h => (by cases h), fun h => (by cases h)⟩

/-! ## What goes wrong -/

/-- If OpenCL refuses the launch, handing out the output of tracking element by element still succeeds, and so does a reset
which needs no other output, though nothing has been launched. -/
theorem C97_ebe_violated : ∃ (e : ClJob.Env) (base : ClJob.Base) (j : ClJob.Job) (K : Task → Nat), Staffed j.t K ∧
    base.needsEbe = true ∧ j.t.calls = [] ∧
    (resetJob e base j (some 1) (some 2) none >>= fun r => .ok (r.1, r.2.t.calls.length)) = .ok (true, 0) :=
  ⟨jobEnv (fun _ => true) false, { jobBaseOut with needsMon := false }, clJob (clReady false) [(0, 10)], clTrackIds,
    clReady_staffed false, rfl, by decide +kernel, by decide +kernel⟩

/-- If new particles can not be written to the device, a reset succeeds, and tracking then succeeds with the particles of
before. -/
theorem C97_stale_violated : ∃ (e : ClJob.Env) (base : ClJob.Base) (j : ClJob.Job) (K : Task → Nat) (d : Dev), Staffed j.t K ∧
    e.made 1 = false ∧ e.mem 1 = 201 ∧ j.sets = [(0, 10)] ∧
    (∃ j', resetJob e base j (some 1) (some 2) none = .ok (true, j')) ∧
    jobLaunched (resetJob e base j (some 1) (some 2) none >>= fun r => track d r.2 7) = .ok (0#32,
      [([some (.buffer 10), some (.value 0), some (.buffer 202), some (.value 7), some (.value 0)], 10)]) :=
  ⟨jobEnv (fun c => c ≠ 1) true, jobBase, clJob (clReady false) [(0, 10)], clTrackIds, clTakes 0, clReady_staffed false,
    by decide, rfl, rfl, ⟨_, rfl⟩, by decide +kernel⟩

end SixTrack
