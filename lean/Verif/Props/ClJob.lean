import Verif.ClJobLemmas

/-!
# C97: what the OpenCL job launches for its particle sets

`setCalls` (Verif/ClJobLemmas.lean) is the list of launches, one for each particle set, that OpenCL takes.
-/

namespace SixTrack
open ClContext ClRun ClTrack ClJob

/-- The first particle set of the job is the one selected in the context, and the others are other sets. -/
def InStep (j : ClJob.Job) : Prop :=
  ∃ n rest, j.sets = (j.t.pset, n) :: rest ∧ j.t.particles = n ∧ ∀ x ∈ rest, x.1 ≠ j.t.pset

/-- For every particle set of the job, in order, exactly one launch of the kernel has been asked for, with the set as second
argument, the values `vs` and a work item for every particle of the set; those OpenCL takes are recorded.  The status is a
success if and only if it took all of them and, in debug mode, the kernels reported nothing.  After that the second argument
is that of the selected set again, and nothing else has changed but the values `vs`. -/
def AllRan (d : Dev) (j : ClJob.Job) (k : Nat) (vs : List (Nat × Nat)) (r : Res (BitVec 32 × ClJob.Job)) : Prop :=
  ∃ s c' xs f, r = .ok (s, { j with t := { j.t with
      ctx := c', execs := xs, flags := f,
      calls := j.t.calls ++ setCalls d k (argsOf j.t.ctx k) vs (lastGroup j.t k) (fun n => n) j.sets } }) ∧
    OnlyArgs j.t.ctx c' ∧ argsOf c' k = withValues (argsOf j.t.ctx k) vs ∧
    (∀ i, i ≠ k → argsOf c' i = argsOf j.t.ctx i) ∧ (∀ i, (execOf xs i).lastGroup = lastGroup j.t i) ∧
    (j.t.ctx.debug = false → f = j.t.flags) ∧
    (s = 0#32 ↔ (∀ x ∈ j.sets, Taken d (withValues (argsOf j.t.ctx k) ((1, x.1) :: vs)) (lastGroup j.t k) x.2) ∧
      (j.t.ctx.debug = true → d.flags = 0#64))

theorem overSets_ran {d : Dev} {j : ClJob.Job} {K : Task → Nat} (h : Staffed j.t K) {w : Task} (ht : Tells d j.t K w)
    (hs : SetSelected j.t K w) (hj : InStep j) {min : Nat} (hm : ∀ b, min ≤ arity b w) {vs : List (Nat × Nat)}
    (hv : ∀ p ∈ vs, p.1 ≠ arity true w - 1 ∧ p.1 ≠ 1) (ha : arity true w - 1 ≠ 1) (hset : Settles vs)
    {one : Tracker → Res (BitVec 32 × Tracker)} {call : Tracker → Nat → Nat → Res (BitVec 32 × Tracker)}
    (hone : one j.t = j.t.call d w min vs j.t.particles)
    (hcall : ∀ x ∈ j.sets, ∀ t : Tracker, t.particles = j.t.particles → call t x.1 x.2 = t.callSet d w min vs x.1 x.2 false) :
    AllRan d j (K w) vs (overSets w one call j) := by
  obtain ⟨n, rest, hsets, hn, hrest⟩ := hj
  have hv1 : ∀ q ∈ vs, q.1 ≠ 1 := fun q hq => (hv q hq).2
  have hself : withValues (argsOf j.t.ctx (K w)) ((1, j.t.pset) :: vs) = withValues (argsOf j.t.ctx (K w)) vs := by
    rw [withValues, hs.set]
  cases rest with
  | nil =>
    obtain ⟨c', xs, s, f, f', r1, r2, r3, r4, r5, r6, r7⟩ :=
      call_ran h ht (hm _) (fun q hq => (hv q hq).1) j.t.particles
    rw [hn] at r5
    have hov : overSets w one call j = (j.t.call d w min vs n >>= fun r => .ok (r.1, { j with t := r.2 })) := by
      unfold overSets
      rw [hsets]
      simp only
      rw [hone, hn]
      rfl
    rw [hov, r5, Res.ok_bind]
    by_cases hT : Taken d (withValues (argsOf j.t.ctx (K w)) vs) (lastGroup j.t (K w)) n
    · refine ⟨s, c', xs, f, ?_, r1, r2, r3, r4, fun hd => (r6 hd).2.1, ?_⟩
      · rw [if_pos hT, hsets]
        unfold setCalls
        simp only [hself, hT, decide_true, List.filter_cons, List.filter_nil, if_true, List.map_cons, List.map_nil,
          hn]
      · rw [hsets]
        simp only [List.mem_singleton, forall_eq, hself, hT, true_and]
        cases hd : j.t.ctx.debug with
        | false => simp [(r6 hd).1]
        | true => simp [(r7 hd).1]
    · refine ⟨-1#32, c', xs, f', ?_, r1, r2, r3, r4, fun hd => (r6 hd).2.2, ?_⟩
      · rw [if_neg hT, hsets]
        unfold setCalls
        simp only [hself, hT, decide_false, List.filter_cons, List.filter_nil, List.map_nil, List.append_nil,
          Bool.false_eq_true, if_false, hn]
      · rw [hsets]
        simp only [List.mem_singleton, forall_eq, hself, hT, false_and, iff_false]
        decide
  | cons y ys =>
    obtain ⟨s1, t1, e1, b1, a1, c1, z1⟩ := between_step h ht hm hv ha hset (Between.refl K w vs j.t) j.t.pset n
      (fun _ => hs)
    obtain ⟨s2, t2, e2, b2, ⟨p, a2⟩, c2, z2⟩ := trackSets_spec h ht hm hv ha hset call (y :: ys) t1 (0#32 ||| s1) hrest
      (fun x hx => hcall x (by rw [hsets]; simp [hx])) b1 ⟨_, a1⟩
    have hloop : trackSets call j.t 0#32 j.sets = .ok (s2, t2) := by
      rw [hsets]
      unfold trackSets
      rw [hcall (j.t.pset, n) (by rw [hsets]; simp) j.t rfl, e1, Res.ok_bind]
      exact e2
    have hid : t2.id w = .ok (K w) := (h.update b2.only (by rw [b2.rest])).id w
    have hlt : K w < t2.ctx.kernels.length := by rw [b2.only.length]; exact h.lt w
    have hov : overSets w one call j = .ok (s2, { j with t := { t2 with
        ctx := t2.ctx.assign (K w) 1 ⟨.value, none⟩ (.value j.t.pset) } }) := by
      unfold overSets
      rw [hsets] at hloop ⊢
      simp only
      rw [hloop, Res.ok_bind]
      simp only
      unfold putBack put
      rw [hid, Res.ok_bind, if_pos hlt]
      rfl
    have hoa := OnlyArgs.assign t2.ctx (K w) 1 ⟨.value, none⟩ (.value j.t.pset)
    refine ⟨s2, t2.ctx.assign (K w) 1 ⟨.value, none⟩ (.value j.t.pset), t2.execs, t2.flags, ?_, b2.only.trans hoa, ?_, ?_,
      b2.groups, b2.flags, ?_⟩
    · rw [hov]
      have hc : t2.calls = j.t.calls ++ setCalls d (K w) (argsOf j.t.ctx (K w)) vs (lastGroup j.t (K w)) (fun n => n) j.sets := by
        rw [c2, c1, List.append_assoc, hsets, ← setCalls_cons]
      rw [← hc]
      have hr := b2.rest
      generalize t2.ctx.assign (K w) 1 ⟨.value, none⟩ (.value j.t.pset) = c'
      rw [show ({ t2 with ctx := c' } : Tracker) = { j.t with ctx := c', execs := t2.execs, flags := t2.flags
                                                              calls := t2.calls } from by rw [hr]]
    · rw [argsOf_assign, if_pos rfl, a2, withValues, withValues_set hv1, List.set_set, hs.set]
    · intro i hi
      rw [argsOf_assign, if_neg hi]
      exact b2.others i hi
    · rw [z2, BitVec.zero_or, z1, hsets]
      constructor
      · rintro ⟨⟨u1, u2⟩, u3⟩
        refine ⟨fun x hx => ?_, u2⟩
        rcases List.mem_cons.1 hx with rfl | hx
        · exact u1
        · exact (u3 x hx).1
      · rintro ⟨u1, u2⟩
        exact ⟨⟨u1 (j.t.pset, n) (by simp), u2⟩, fun x hx => ⟨u1 x (by simp [hx]), u2⟩⟩

/-! ## Tracking -/

/-- Tracking until a turn: one launch for each particle set with the turn as fourth argument. -/
theorem C97_track {d : Dev} {j : ClJob.Job} {K : Task → Nat} (h : Staffed j.t K) (ht : Tells d j.t K .turn)
    (hs : SetSelected j.t K .turn) (hj : InStep j) (turn : BitVec 64) :
    AllRan d j (K .turn) [(3, turn.toNat)] (track d j turn) := by
  have ht' : turnArg turn.toInt = turn.toNat := by
    unfold turnArg
    rw [BitVec.ofInt_toInt]
  refine overSets_ran (min := UNTIL_ARGS) h ht hs hj (by decide) (by simp [arity]) (by decide) (settles_one (by decide)) ?_ ?_
  · simp only [Tracker.trackUntil, ht']
  · intro x _ t _
    simp only [Tracker.trackUntilSet, ht']

/-- Tracking along a part of the beam line: one launch for each particle set with the elements and whether it is the end of
the turn. -/
theorem C97_line {d : Dev} {j : ClJob.Job} {K : Task → Nat} (h : Staffed j.t K) (ht : Tells d j.t K .line)
    (hs : SetSelected j.t K .line) (hj : InStep j) (first last : Nat) (finish : Bool) :
    AllRan d j (K .line) [(3, first), (4, last), (5, if finish then 1 else 0)] (trackLine d j first last finish) :=
  overSets_ran (min := LINE_ARGS) h ht hs hj (by decide) (by simp [arity]) (by decide)
    (settles_three (by decide) (by decide) (by decide) (by decide) (by decide) (by decide)) rfl (fun _ _ _ _ => rfl)

/-- Tracking element by element, if all particle sets have as many particles as the selected one: see `C97_elem_violated`. -/
theorem C97_elem_partial {d : Dev} {j : ClJob.Job} {K : Task → Nat} (h : Staffed j.t K) (ht : Tells d j.t K .elem)
    (hs : SetSelected j.t K .elem) (hj : InStep j) (hn : ∀ x ∈ j.sets, x.2 = j.t.particles) (turn : BitVec 64) :
    AllRan d j (K .elem) [(5, turn.toNat)] (trackElem d j turn) :=
  overSets_ran (min := ELEM_ARGS) h ht hs hj (by decide) (by simp [arity]) (by decide) (settles_one (by decide)) rfl
    (fun x hx t e => by
      rw [hn x hx, ← e]
      rfl)

/-- After that the job is ready for the next call. -/
theorem C97_again {d : Dev} {j j' : ClJob.Job} {K : Task → Nat} {w : Task} {vs : List (Nat × Nat)} {s : BitVec 32}
    (h : Staffed j.t K) (hj : InStep j) (hv : ∀ q ∈ vs, q.1 ≠ 1) (hr : AllRan d j (K w) vs (.ok (s, j'))) :
    Staffed j'.t K ∧ InStep j' ∧ j'.sets = j.sets ∧ (∀ w', SetSelected j.t K w' → SetSelected j'.t K w') := by
  obtain ⟨s', c', xs, f, e, h1, h2, h3, -, -, -⟩ := hr
  have e := congrArg Prod.snd (Res.ok.inj e)
  simp only at e
  subst e
  refine ⟨h.update h1 rfl, hj, rfl, fun w' hw' => ?_⟩
  unfold SetSelected at hw' ⊢
  simp only
  rw [kArg_eq] at hw' ⊢
  by_cases hk : K w' = K w
  · rw [hk] at hw' ⊢
    rw [h2, withValues_get hv]
    exact hw'
  · rw [h3 _ hk]
    exact hw'

/-- A job without particle sets does nothing and reports a failure. -/
theorem C97_no_sets (d : Dev) (j : ClJob.Job) (h : j.sets = []) :
    (∀ turn, track d j turn = .ok (-1#32, j)) ∧ (∀ turn, trackElem d j turn = .ok (-1#32, j)) ∧
      ∀ a b f, trackLine d j a b f = .ok (-1#32, j) := by
  unfold track trackElem trackLine overSets
  rw [h]
  exact ⟨fun _ => rfl, fun _ => rfl, fun _ _ _ => rfl⟩

/-! ## Jobs for the examples -/

/-- a job with this context and these sets -/
def clJob (t : Tracker) (sets : List (Nat × Nat)) : ClJob.Job := ⟨t, sets, 90, none, none, none, none, none⟩

example : InStep (clJob (clReady true) [(0, 10), (2, 20), (3, 5)]) := ⟨10, [(2, 20), (3, 5)], rfl, rfl, by decide⟩

example : InStep (clJob (clReady true) [(0, 10)]) := ⟨10, [], rfl, rfl, by decide⟩

example : InStep (clJob (clReady false) [(0, 10), (2, 10)]) ∧ ∀ x ∈ (clJob (clReady false) [(0, 10), (2, 10)]).sets, x.2 = 10 :=
  ⟨⟨10, [(2, 10)], rfl, rfl, by decide⟩, by decide⟩

/-- what a job has launched: the arguments and the numbers of work items -/
def jobLaunched (r : Res (BitVec 32 × ClJob.Job)) : Res (BitVec 32 × List (List (Option ClVal) × Nat)) :=
  r >>= fun x => .ok (x.1, x.2.t.calls.map fun c => (c.args, c.launch.items))

example : jobLaunched (track (clTakes 0) (clJob (clReady false) [(0, 10), (2, 20)]) 7) = .ok (0#32,
    [([some (.buffer 10), some (.value 0), some (.buffer 12), some (.value 7), some (.value 0)], 10),
     ([some (.buffer 10), some (.value 2), some (.buffer 12), some (.value 7), some (.value 0)], 20)]) := by decide +kernel

/-! ## What goes wrong -/

/-- Tracking several sets element by element takes the number of particles of the selected set for all of them. -/
theorem C97_elem_violated : ∃ (d : Dev) (j : ClJob.Job) (K : Task → Nat), Staffed j.t K ∧ SetSelected j.t K .elem ∧ InStep j ∧
    j.sets = [(0, 10), (2, 20)] ∧ jobLaunched (trackElem d j 7) = .ok (0#32,
      [([some (.buffer 10), some (.value 0), some (.buffer 12), some (.value 0), some (.value 0), some (.value 7),
        some (.value 0)], 10),
       ([some (.buffer 10), some (.value 2), some (.buffer 12), some (.value 0), some (.value 0), some (.value 7),
        some (.value 0)], 10)]) :=
  ⟨clTakes 0, clJob (clReady false) [(0, 10), (2, 20)], clTrackIds, clReady_staffed false,
    by unfold SetSelected; decide +kernel, ⟨10, [(2, 20)], rfl, rfl, by decide⟩, rfl, by decide +kernel⟩

/-- If the selected set is not the first one, the set before it is tracked twice and it is not tracked at all. -/
theorem C97_order_violated : ∃ (d : Dev) (j : ClJob.Job) (K : Task → Nat), Staffed j.t K ∧ SetSelected j.t K .turn ∧
    j.t.pset = 0 ∧ j.t.particles = 10 ∧ j.sets = [(2, 20), (0, 10)] ∧ jobLaunched (track d j 7) = .ok (0#32,
      [([some (.buffer 10), some (.value 2), some (.buffer 12), some (.value 7), some (.value 0)], 20),
       ([some (.buffer 10), some (.value 2), some (.buffer 12), some (.value 7), some (.value 0)], 10)]) :=
  ⟨clTakes 0, clJob (clReady false) [(2, 20), (0, 10)], clTrackIds, clReady_staffed false,
    by unfold SetSelected; decide +kernel, rfl, rfl, rfl, by decide +kernel⟩

/-- A job with several sets whose context has no node uses a kernel that is not there. -/
theorem C97_no_node_violated (d : Dev) (j : ClJob.Job) (hn : j.t.ctx.hasNode = false) (hk : j.t.ctx.kernels.length ≤ ILLEGAL)
    (hs : 2 ≤ j.sets.length) (turn : BitVec 64) : track d j turn = .ub := by
  obtain ⟨a1, a2, -⟩ := C95_no_node d j.t hn
  have hloop : ∀ (l : List (Nat × Nat)) s, ∃ s', trackSets (fun t p n => t.trackUntilSet d turn.toInt p n false) j.t s l =
      .ok (s', j.t) := by
    intro l
    induction l with
    | nil => exact fun s => ⟨s, rfl⟩
    | cons x l ih =>
      intro s
      unfold trackSets
      rw [a2, Res.ok_bind]
      exact ih _
  obtain ⟨s', hl⟩ := hloop j.sets 0#32
  have hid : j.t.id .turn = .ok ILLEGAL := by
    unfold Tracker.id Tracker.idIf Tracker.has
    rw [hn]
    rfl
  unfold track overSets
  match hsets : j.sets with
  | [] => rw [hsets] at hs; simp at hs
  | [_] => rw [hsets] at hs; simp at hs
  | a :: b :: l =>
    simp only
    rw [← hsets, hl, Res.ok_bind]
    simp only
    unfold putBack put
    rw [hid, Res.ok_bind, if_neg (by omega)]
    rfl

example : ∃ j : ClJob.Job, j.t.ctx.hasNode = false ∧ j.t.ctx.kernels.length ≤ ILLEGAL ∧ 2 ≤ j.sets.length :=
  ⟨clJob { clTracker false with ctx := { (clTracker false).ctx with selected := -1 } } [(0, 10), (1, 10)], rfl, by decide +kernel,
    by decide⟩

end SixTrack
