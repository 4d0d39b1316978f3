import Verif.ClJobAddr
import Verif.Props.ClTrackMore
import Verif.Props.AssignList
import Verif.Props.StoredBuffers

/-!
# C99: address assignments of the OpenCL job
-/

namespace SixTrack
open SixTrack.ClContext SixTrack.ClRun SixTrack.ClTrack
open SixTrack.ClJob (Held)
open SixTrack.AssignList (Key Lists)

/-- There are items for the pair of buffers, and both have arguments: these have been made with the buffers which the job
has, have them still, and their slots have the same size. -/
structure Linked (j : ClAddr.Job) (k : Key) (da sa : Held) (slot : Nat) : Prop where
  items : 0 < j.lists.num k
  dest : j.argument k.dest = some da ∧ j.buffer k.dest = some da.of
  src : j.argument k.src = some sa ∧ j.buffer k.src = some sa.of
  mine : da.buf.mine = true ∧ sa.buf.mine = true
  cobj : (∃ m, da.buf.cobj = some (m, slot)) ∧ ∃ m, sa.buf.cobj = some (m, slot)
  slot : 0 < slot
  /-- The register of the debug mode has its own memory. -/
  flags : j.t.ctx.debug = true → da.buf.mem ≠ j.t.flagsId ∧ sa.buf.mem ≠ j.t.flagsId

/-- The argument made of the items gets their buffer. -/
structure ItemsSent (e : ClAddr.Env) (j : ClAddr.Job) (k : Key) : Prop where
  made : e.made k = true
  flags : j.t.ctx.debug = true → e.mem k ≠ j.t.flagsId

/-- What the kernel gets for a pair of buffers. -/
def pairArgs (e : ClAddr.Env) (k : Key) (da sa : Held) (slot : Nat) : List (Option ClVal) :=
  [some (.buffer (e.mem k)), some (.value 8), some (.buffer da.buf.mem), some (.value slot), some (.value k.dest),
    some (.buffer sa.buf.mem), some (.value slot), some (.value k.src)]

theorem OnlyArgs.groupSize {c c' : Ctx} (h : OnlyArgs c c') (k : Nat) : groupSize c' k = groupSize c k := by
  unfold ClRun.groupSize
  rw [h.hasNode]
  cases hx : c.kernels[k]? with
  | none =>
    have := h.2 k
    rw [hx] at this
    have h' : c'.kernels[k]? = none := by simpa using this
    rw [h']
  | some x =>
    obtain ⟨y, hy, -, -, -, -, h1, h2, -⟩ := h.kernel hx
    rw [hy]
    simp only [h1, h2]

/-- Buffers and arguments by their ids: there are none for 0 and for 6 to 1023; an id from 1024 on leads to the stored buffer
and to the argument of its slot, which has been made with that buffer. -/
theorem C99_lookup {j : ClAddr.Job} (h : StoredBuf.DevReached j.stored) (id : Nat) :
    (1 ≤ id → id ≤ 5 → j.buffer id = j.own id ∧ j.argument id = j.held id) ∧
    (id = 0 ∨ 5 < id ∧ id < 1024 → j.buffer id = none ∧ j.argument id = none) ∧
    (1024 ≤ id → id < 2^64 - 1 → j.buffer id = j.stored.job.ptr id ∧
      j.argument id = (j.buffer id).map fun b => ⟨j.slot (id - 1024), b⟩) := by
  have harg := (C87_device h id).1
  refine ⟨fun h1 h5 => ?_, fun h0 => ?_, fun h1 h2 => ?_⟩
  · unfold ClAddr.Job.buffer ClAddr.Job.argument
    rw [if_pos ⟨h1, h5⟩, if_pos ⟨h1, h5⟩]
    exact ⟨rfl, rfl⟩
  · have hn : ¬(1 ≤ id ∧ id ≤ 5) := by omega
    have hm : ¬(AssignList.MIN_USER_ID ≤ id ∧ id ≤ AssignList.MAX_USER_ID) := by
      unfold AssignList.MIN_USER_ID
      omega
    have hp : j.stored.job.ptr id = none := by
      unfold StoredBuf.Job.ptr StoredBuf.Job.store
      rw [if_neg]
      intro hr
      obtain ⟨-, hr, -⟩ := (StoredBuf.inRange_iff _ _).1 hr
      unfold AssignList.MIN_USER_ID at hr
      omega
    unfold ClAddr.Job.buffer ClAddr.Job.argument
    rw [if_neg hn, if_neg hm, if_neg hn, harg, hp]
    exact ⟨rfl, rfl⟩
  · have hn : ¬(1 ≤ id ∧ id ≤ 5) := by omega
    have hm : AssignList.MIN_USER_ID ≤ id ∧ id ≤ AssignList.MAX_USER_ID := by
      unfold AssignList.MIN_USER_ID AssignList.MAX_USER_ID
      omega
    have hb : j.buffer id = j.stored.job.ptr id := by
      unfold ClAddr.Job.buffer
      rw [if_neg hn, if_pos hm]
    refine ⟨hb, ?_⟩
    unfold ClAddr.Job.argument
    rw [if_neg hn, harg, hb]
    cases hp : j.stored.job.ptr id with
    | none => rw [Option.map_none, Option.map_none]
    | some b =>
      have : j.stored.job.minId = 1024 := by
        by_contra hne
        have hz : j.stored.job.minId = AssignList.ILLEGAL_ID := by
          unfold StoredBuf.Job.minId at hne ⊢
          by_cases hh : j.stored.job.has = true
          · rw [if_pos hh] at hne
            exact absurd rfl hne
          · rw [if_neg hh]
        unfold StoredBuf.Job.ptr StoredBuf.Job.store StoredBuf.Job.inRange at hp
        rw [hz] at hp
        simp at hp
      rw [this]

/-- Assigning addresses for a pair of buffers: one launch with one work item for each item, with the items, the memory of the
two buffers, and their ids.  Nothing else of the job changes. -/
theorem C99_perform {e : ClAddr.Env} {j : ClAddr.Job} {K : Task → Nat} (h : Staffed j.t K) {k : Key} {da sa : Held} {slot : Nat}
    (hl : Linked j k da sa slot) (hi : ItemsSent e j k) (hd : k.dest ≠ 0) (hs : k.src ≠ 0) :
    ∃ c' xs, OnlyArgs j.t.ctx c' ∧ (∀ i, i ≠ K .addr → argsOf c' i = argsOf j.t.ctx i) ∧
      argsOf c' (K .addr) = pairArgs e k da sa slot ∧
      j.perform e k = .ok (
        if e.dev.run.ok = true ∧ 0 < launchItems (groupSize j.t.ctx (K .addr)) (j.lists.items k).length then
          (true, { j with t := { j.t with ctx := c', execs := xs, calls := j.t.calls ++
            [⟨K .addr, pairArgs e k da sa slot, launchOf (groupSize j.t.ctx (K .addr)) (j.lists.items k).length⟩] } })
        else (false, { j with t := { j.t with ctx := c', execs := xs } })) := by
  obtain ⟨m, hm⟩ := hl.cobj.1
  obtain ⟨n, hn⟩ := hl.cobj.2
  have hitems : (e.items j.lists k).cobj = some (j.lists.num k, 8) := by
    unfold ClAddr.Env.items
    rw [if_pos hi.made]
    rfl
  obtain ⟨-, hrun⟩ := C95_addresses_partial (d := e.dev) h hitems hm hn ⟨rfl, hl.mine.1, hl.mine.2⟩ ⟨hd, hs⟩
    ⟨by decide, hl.slot⟩ (fun hdb b hb => by
      simp only [List.mem_cons, List.not_mem_nil, or_false] at hb
      rcases hb with rfl | rfl | rfl
      · exact hi.flags hdb
      · exact (hl.flags hdb).1
      · exact (hl.flags hdb).2)
  obtain ⟨c', xs, args, h1, h2, h3, h4, h5⟩ := hrun hl.items
  have hargs : args = pairArgs e k da sa slot := h3
  subst hargs
  refine ⟨c', xs, h1, h2, h4, ?_⟩
  have hd1 : Held.has (some da) da.of = true := by simp [Held.has, hl.mine.1, hm]
  have hs1 : Held.has (some sa) sa.of = true := by simp [Held.has, hl.mine.2, hn]
  unfold ClAddr.Job.perform
  rw [hl.dest.1, hl.dest.2, hl.src.1, hl.src.2]
  simp only
  rw [if_pos ⟨hl.items, hs1, hd1⟩, h5, AssignList.items_length]
  by_cases hc : e.dev.run.ok = true ∧ 0 < launchItems (groupSize j.t.ctx (K .addr)) (j.lists.num k)
  · rw [if_pos hc, if_pos hc]
    rfl
  · rw [if_neg hc, if_neg hc]
    rfl

/-- Without items, or if one of the two buffers or its argument is missing, if an argument has been made with another buffer
than the one the job has, has no buffer or belongs to another context, or if no argument of the items can be made: that is a
failure, and nothing happens. -/
theorem C99_refused {e : ClAddr.Env} {j : ClAddr.Job} {K : Task → Nat} (h : Staffed j.t K) {k : Key}
    (hbad : j.lists.items k = [] ∨ j.buffer k.dest = none ∨ j.buffer k.src = none ∨ j.argument k.dest = none ∨
      j.argument k.src = none ∨ (∃ id ∈ [k.dest, k.src], ∃ a, j.argument id = some a ∧
        (j.buffer id ≠ some a.of ∨ a.buf.cobj = none ∨ a.buf.mine = false)) ∨ e.made k = false) :
    j.perform e k = .ok (false, j) := by
  unfold ClAddr.Job.perform
  cases hd : j.buffer k.dest with
  | none => rfl
  | some d =>
    cases hda : j.argument k.dest with
    | none => rfl
    | some da =>
      cases hs : j.buffer k.src with
      | none => rfl
      | some s =>
        cases hsa : j.argument k.src with
        | none => rfl
        | some sa =>
          simp only
          by_cases hc : 0 < j.lists.num k ∧ Held.has (some sa) s = true ∧ Held.has (some da) d = true
          · rw [if_pos hc]
            obtain ⟨h1, h2, h3⟩ := hc
            simp only [Held.has, Bool.and_eq_true, decide_eq_true_eq] at h2 h3
            have hm : e.made k = false := by
              rcases hbad with hb | hb | hb | hb | hb | ⟨id, hid, a, ha, hb⟩ | hb
              · rw [← AssignList.items_length, hb] at h1
                exact absurd h1 (by decide)
              · rw [hd] at hb; cases hb
              · rw [hs] at hb; cases hb
              · rw [hda] at hb; cases hb
              · rw [hsa] at hb; cases hb
              · exfalso
                simp only [List.mem_cons, List.not_mem_nil, or_false] at hid
                rcases hid with rfl | rfl
                · rw [hda] at ha
                  obtain rfl := Option.some.inj ha
                  rcases hb with hb | hb | hb
                  · exact hb (by rw [hd, h3.2])
                  · rw [hb] at h3; simp at h3
                  · rw [hb] at h3; simp at h3
                · rw [hsa] at ha
                  obtain rfl := Option.some.inj ha
                  rcases hb with hb | hb | hb
                  · exact hb (by rw [hs, h2.2])
                  · rw [hb] at h2; simp at h2
                  · rw [hb] at h2; simp at h2
              · exact hb
            have hit : (e.items j.lists k).cobj = none := by
              unfold ClAddr.Env.items
              rw [hm]
              rfl
            rw [C95_addresses_refused h (.inl hit)]
            rfl
          · rw [if_neg hc]

/-! ## All pairs -/

/-- The job differs only in what a launch changes. -/
structure Launched (j j' : ClAddr.Job) : Prop where
  rest : j' = { j with t := j'.t }
  ctx : OnlyArgs j.t.ctx j'.t.ctx
  tracker : j'.t = { j.t with ctx := j'.t.ctx, execs := j'.t.execs, calls := j'.t.calls }

theorem Launched.refl (j : ClAddr.Job) : Launched j j := ⟨rfl, OnlyArgs.refl _, rfl⟩

theorem Launched.trans {a b c : ClAddr.Job} (h : Launched a b) (h' : Launched b c) : Launched a c := by
  refine ⟨?_, h.ctx.trans h'.ctx, ?_⟩
  · rw [h'.rest, h.rest]
  · rw [h'.tracker, h.tracker]

theorem Launched.staffed {j j' : ClAddr.Job} {K : Task → Nat} (h : Launched j j') (hs : Staffed j.t K) : Staffed j'.t K :=
  hs.update h.ctx (by rw [h.tracker])

theorem Launched.lookup {j j' : ClAddr.Job} (h : Launched j j') :
    j'.lists = j.lists ∧ j'.buffer = j.buffer ∧ j'.argument = j.argument := by
  rw [h.rest]
  exact ⟨rfl, rfl, rfl⟩

theorem Launched.linked {j j' : ClAddr.Job} (h : Launched j j') {k : Key} {da sa : Held} {slot : Nat}
    (hl : Linked j k da sa slot) : Linked j' k da sa slot := by
  obtain ⟨e1, e2, e3⟩ := h.lookup
  have hf : j'.t.flagsId = j.t.flagsId := by rw [h.tracker]
  exact ⟨by rw [e1]; exact hl.items, by rw [e2, e3]; exact hl.dest, by rw [e2, e3]; exact hl.src, hl.mine, hl.cobj, hl.slot,
    by rw [h.ctx.debug, hf]; exact hl.flags⟩

theorem Launched.sent {j j' : ClAddr.Job} (h : Launched j j') {e : ClAddr.Env} {k : Key}
    (hl : ItemsSent e j k) : ItemsSent e j' k := by
  have hf : j'.t.flagsId = j.t.flagsId := by rw [h.tracker]
  exact ⟨hl.made, by rw [h.ctx.debug, hf]; exact hl.flags⟩

/-- The call for a pair of buffers. -/
def pairCall (e : ClAddr.Env) (j : ClAddr.Job) (K : Task → Nat) (da sa : Key → Held) (slot : Key → Nat) (k : Key) : Call :=
  ⟨K .addr, pairArgs e k (da k) (sa k) (slot k), launchOf (groupSize j.t.ctx (K .addr)) (j.lists.items k).length⟩

/-- A pair for which everything is there. -/
structure PairReady (e : ClAddr.Env) (j : ClAddr.Job) (K : Task → Nat) (da sa : Held) (slot : Nat) (k : Key) : Prop where
  linked : Linked j k da sa slot
  sent : ItemsSent e j k
  ids : k.dest ≠ 0 ∧ k.src ≠ 0
  /-- The number of work items does not wrap around to 0. -/
  size : 0 < launchItems (groupSize j.t.ctx (K .addr)) (j.lists.items k).length

theorem performAll_append {e : ClAddr.Env} {K : Task → Nat} (hok : e.dev.run.ok = true) {da sa : Key → Held} {slot : Key → Nat} :
    ∀ (ks rest : List Key) (j : ClAddr.Job), Staffed j.t K → (∀ k ∈ ks, PairReady e j K (da k) (sa k) (slot k) k) →
      ∃ j', Launched j j' ∧ (∀ i, i ≠ K .addr → argsOf j'.t.ctx i = argsOf j.t.ctx i) ∧
        j'.t.calls = j.t.calls ++ ks.map (pairCall e j K da sa slot) ∧
        j.performAll e (ks ++ rest) = j'.performAll e rest
  | [], rest, j, _, _ => ⟨j, Launched.refl j, fun _ _ => rfl, (List.append_nil _).symm, rfl⟩
  | k :: ks, rest, j, h, hr => by
    obtain ⟨hl, hi, hid, hsz⟩ := hr k List.mem_cons_self
    obtain ⟨c', xs, h1, h2, -, h4⟩ := C99_perform h hl hi hid.1 hid.2
    rw [if_pos ⟨hok, hsz⟩] at h4
    generalize hj1 : ({ j with t := { j.t with ctx := c', execs := xs, calls := j.t.calls ++
            [⟨K .addr, pairArgs e k (da k) (sa k) (slot k),
              launchOf (groupSize j.t.ctx (K .addr)) (j.lists.items k).length⟩] } } : ClAddr.Job) = j1 at h4
    have hL : Launched j j1 := by
      subst hj1
      exact ⟨rfl, h1, rfl⟩
    have hg : groupSize j1.t.ctx (K .addr) = groupSize j.t.ctx (K .addr) := hL.ctx.groupSize _
    have hli := hL.lookup.1
    obtain ⟨j', a1, a2, a3, a4⟩ := performAll_append hok (da := da) (sa := sa) (slot := slot) ks rest j1 (hL.staffed h)
      (fun k' hk' => by
        obtain ⟨b1, b2, b3, b4⟩ := hr k' (List.mem_cons_of_mem _ hk')
        exact ⟨hL.linked b1, hL.sent b2, b3, by rw [hg, hli]; exact b4⟩)
    refine ⟨j', hL.trans a1, fun i hi' => ?_, ?_, ?_⟩
    · rw [a2 i hi']
      subst hj1
      exact h2 i hi'
    · rw [a3]
      have hc : pairCall e j1 K da sa slot = pairCall e j K da sa slot := by
        funext k'
        unfold pairCall
        rw [hg, hli]
      rw [hc, List.map_cons]
      subst hj1
      show (j.t.calls ++ [_]) ++ _ = _
      rw [List.append_assoc]
      rfl
    · show (j.perform e k >>= _) = _
      rw [h4, Res.ok_bind]
      exact a4

/-- Assigning all addresses, if everything is there for all pairs of buffers: one launch for each pair that has items, in the
order of their ids.  The arguments of the other kernels and the rest of the job remain. -/
theorem C99_assign_all {e : ClAddr.Env} {j : ClAddr.Job} {K : Task → Nat} (hok : e.dev.run.ok = true) (h : Staffed j.t K)
    {r : Nat} (hr : AssignList.Reached r j.lists) {da sa : Key → Held} {slot : Key → Nat}
    (hp : ∀ k, j.lists.items k ≠ [] → PairReady e j K (da k) (sa k) (slot k) k) :
    ∃ j', j.assignAll e = .ok (true, j') ∧ Launched j j' ∧
      (∀ i, i ≠ K .addr → argsOf j'.t.ctx i = argsOf j.t.ctx i) ∧
      j'.t.calls = j.t.calls ++ j.lists.keys.map (pairCall e j K da sa slot) := by
  have hk := (C86_lists hr).2.1
  obtain ⟨j', h1, h2, h3, h4⟩ := performAll_append hok (da := da) (sa := sa) (slot := slot) j.lists.keys [] j h
    (fun k hm => hp k ((hk k).1 hm))
  refine ⟨j', ?_, h1, h2, h3⟩
  unfold ClAddr.Job.assignAll
  rw [← hr.good.keys, ← List.append_nil j.lists.keys, h4]
  rfl

/-- The first pair that is refused ends it: the pairs before it have been launched, it and those after it have not, and that
is a failure. -/
theorem C99_stops {e : ClAddr.Env} {j : ClAddr.Job} {K : Task → Nat} (hok : e.dev.run.ok = true) (h : Staffed j.t K)
    {r : Nat} (hr : AssignList.Reached r j.lists) {ks rest : List Key} {k : Key} (hkeys : j.lists.keys = ks ++ k :: rest)
    {da sa : Key → Held} {slot : Key → Nat} (hp : ∀ x ∈ ks, PairReady e j K (da x) (sa x) (slot x) x)
    (hbad : j.buffer k.dest = none ∨ j.buffer k.src = none ∨ j.argument k.dest = none ∨ j.argument k.src = none ∨
      (∃ id ∈ [k.dest, k.src], ∃ a, j.argument id = some a ∧
        (j.buffer id ≠ some a.of ∨ a.buf.cobj = none ∨ a.buf.mine = false)) ∨ e.made k = false) :
    ∃ j', j.assignAll e = .ok (false, j') ∧ Launched j j' ∧
      (∀ i, i ≠ K .addr → argsOf j'.t.ctx i = argsOf j.t.ctx i) ∧
      j'.t.calls = j.t.calls ++ ks.map (pairCall e j K da sa slot) := by
  obtain ⟨j', h1, h2, h3, h4⟩ := performAll_append hok (da := da) (sa := sa) (slot := slot) ks (k :: rest) j h hp
  refine ⟨j', ?_, h1, h2, h3⟩
  obtain ⟨-, e2, e3⟩ := h1.lookup
  unfold ClAddr.Job.assignAll
  rw [← hr.good.keys, hkeys, h4]
  show (j'.perform e k >>= _) = _
  rw [C99_refused (h1.staffed h) (.inr (by rw [e2, e3]; exact hbad)), Res.ok_bind]
  rfl

/-- If the first launch fails, that is a failure, and no other pair is launched. -/
theorem C99_fails {e : ClAddr.Env} {j : ClAddr.Job} {K : Task → Nat} (hok : e.dev.run.ok = false) (h : Staffed j.t K)
    {r : Nat} (hr : AssignList.Reached r j.lists) {k : Key} {rest : List Key} (hkeys : j.lists.keys = k :: rest)
    {da sa : Held} {slot : Nat} (hl : Linked j k da sa slot) (hi : ItemsSent e j k) (hd : k.dest ≠ 0) (hs : k.src ≠ 0) :
    ∃ j', j.assignAll e = .ok (false, j') ∧ Launched j j' ∧ j'.t.calls = j.t.calls := by
  obtain ⟨c', xs, h1, -, -, h4⟩ := C99_perform h hl hi hd hs
  rw [if_neg (by rw [hok]; rintro ⟨h, -⟩; cases h)] at h4
  refine ⟨{ j with t := { j.t with ctx := c', execs := xs } }, ?_, ⟨rfl, h1, rfl⟩, rfl⟩
  unfold ClAddr.Job.assignAll
  rw [← hr.good.keys, hkeys]
  show (j.perform e k >>= _) = _
  rw [h4, Res.ok_bind]
  rfl

/-- Without items nothing happens, and that is a success. -/
theorem C99_empty (e : ClAddr.Env) (j : ClAddr.Job) {r : Nat} (hr : AssignList.Reached r j.lists)
    (h : ∀ k, j.lists.items k = []) : j.assignAll e = .ok (true, j) := by
  have : j.lists.keys = [] := by
    rw [List.eq_nil_iff_forall_not_mem]
    intro k hk
    exact ((C86_lists hr).2.1 k).1 hk (h k)
  unfold ClAddr.Job.assignAll
  rw [← hr.good.keys, this]
  rfl

/-- **C99 (the addresses of buffers get assigned), violated**: an item about an id which is no buffer is taken into the lists
like any other, and from then on no pair after it gets its addresses, whatever the job has. -/
theorem C99_raw_violated : ∃ (it ok : SixTrack.Assign.Item) (l : Lists), AssignList.Reached 4 l ∧
    l.items (AssignList.keyOf it) = [it] ∧ l.items (AssignList.keyOf ok) = [ok] ∧
    (∀ i ∈ [ok.destBuffer, ok.srcBuffer], 1 ≤ i ∧ i ≤ 5) ∧
    ∀ (e : ClAddr.Env) (j : ClAddr.Job) (K : Task → Nat), j.lists = l → StoredBuf.DevReached j.stored → Staffed j.t K →
      j.assignAll e = .ok (false, j) := by
  refine ⟨⟨1, 6, 7, 3, 0, 0, 16, 8⟩, ⟨2, 3, 7, 3, 0, 0, 16, 8⟩, _, ⟨[.add ⟨2, 3, 7, 3, 0, 0, 16, 8⟩,
    .add ⟨1, 6, 7, 3, 0, 0, 16, 8⟩], rfl⟩, by decide, by decide, by decide, fun e j K hl hd h => ?_⟩
  unfold ClAddr.Job.assignAll
  have hk : j.lists.map.map Prod.fst = [⟨1, 6⟩, ⟨2, 3⟩] := by
    rw [hl]
    decide
  rw [hk]
  show (j.perform e _ >>= _) = _
  rw [C99_refused h (.inr (.inr (.inl ((C99_lookup hd 6).2.1 (.inr (by decide))).1))), Res.ok_bind]
  rfl

/-! ## A job with two pairs of buffers -/

/-- The items `exA` and `exB` are about the buffers 1 and 2, `exC` about 1 and 3. -/
def addrLists : Lists :=
  ⟨[(⟨1, 2⟩, ⟨[AssignList.exA, AssignList.exB], 2⟩), (⟨1, 3⟩, ⟨[AssignList.exC], 3⟩)], [⟨1, 2⟩, ⟨1, 3⟩]⟩

def addrHeld (i : Nat) : Held := ⟨⟨i, 20 + i, true, some (3, 8)⟩, 100 + i⟩

/-- Buffer 3 is there, its argument has been made with the buffer `out`. -/
def addrJob (debug : Bool) (out : Nat) : ClAddr.Job :=
  ⟨clReady debug, addrLists, fun i => some (100 + i),
    fun i => some (if i = 3 then { addrHeld 3 with of := out } else addrHeld i), StoredBuf.Dev.new 0, fun _ => ⟨0, 0, true, none⟩⟩

def addrEnv (ok : Bool) : ClAddr.Env :=
  ⟨{ clTakes 0 with run := ⟨ok, none⟩ }, fun k => 10 * k.dest + k.src, fun k => 30 + 10 * k.dest + k.src, fun _ => true⟩

theorem addrLists_reached : AssignList.Reached 4 addrLists :=
  ⟨[.add AssignList.exC, .add AssignList.exA, .add AssignList.exB, .add AssignList.exC], by decide +kernel⟩

theorem addr_ready (debug ok : Bool) {k : Key} (hk : k = ⟨1, 2⟩ ∨ k = ⟨1, 3⟩) :
    PairReady (addrEnv ok) (addrJob debug 103) clTrackIds (addrHeld k.dest) (addrHeld k.src) 8 k := by
  have hf : (addrJob debug 103).t.flagsId = (addrJob true 103).t.flagsId := rfl
  rcases hk with rfl | rfl
  · exact ⟨⟨show 0 < addrLists.num ⟨1, 2⟩ by decide, ⟨rfl, rfl⟩, ⟨rfl, rfl⟩, ⟨rfl, rfl⟩, ⟨⟨3, rfl⟩, 3, rfl⟩, by decide,
      fun _ => by rw [hf]; decide +kernel⟩, ⟨rfl, fun _ => by rw [hf]; cases ok <;> decide +kernel⟩, by decide,
      by cases debug <;> decide +kernel⟩
  · exact ⟨⟨show 0 < addrLists.num ⟨1, 3⟩ by decide, ⟨rfl, rfl⟩, ⟨rfl, rfl⟩, ⟨rfl, rfl⟩, ⟨⟨3, rfl⟩, 3, rfl⟩, by decide,
      fun _ => by rw [hf]; decide +kernel⟩, ⟨rfl, fun _ => by rw [hf]; cases ok <;> decide +kernel⟩, by decide,
      by cases debug <;> decide +kernel⟩

theorem addr_items {k : Key} (h : addrLists.items k ≠ []) : k = ⟨1, 2⟩ ∨ k = ⟨1, 3⟩ := by
  have := ((C86_lists addrLists_reached).2.1 k).2 h
  simpa [addrLists] using this

/-- what has been launched: the arguments and the number of work items -/
def addrCalls (r : Res (Bool × ClAddr.Job)) : Res (Bool × List (List (Option ClVal) × Nat)) :=
  match r with
  | .ok (b, j) => .ok (b, j.t.calls.map fun c => (c.args, c.launch.items))
  | .ub => .ub

/-- The hypotheses of `C99_perform`, `C99_assign_all` and `C99_fails` hold for this job, in debug mode and without. -/
example (debug ok : Bool) : Staffed (addrJob debug 103).t clTrackIds ∧ AssignList.Reached 4 (addrJob debug 103).lists ∧
    (∀ k, (addrJob debug 103).lists.items k ≠ [] →
      PairReady (addrEnv ok) (addrJob debug 103) clTrackIds (addrHeld k.dest) (addrHeld k.src) 8 k) ∧
    (addrJob debug 103).lists.keys = [⟨1, 2⟩, ⟨1, 3⟩] :=
  ⟨clReady_staffed debug, addrLists_reached, fun _ h => addr_ready debug ok (addr_items h), rfl⟩

/-- Two launches, of two items and of one. -/
example : addrCalls ((addrJob true 103).assignAll (addrEnv true)) = .ok (true,
    [([some (.buffer 42), some (.value 8), some (.buffer 21), some (.value 8), some (.value 1), some (.buffer 22),
        some (.value 8), some (.value 2)], 2),
      ([some (.buffer 43), some (.value 8), some (.buffer 21), some (.value 8), some (.value 1), some (.buffer 23),
        some (.value 8), some (.value 3)], 1)]) := by decide +kernel

example : addrCalls ((addrJob true 103).assignAll (addrEnv false)) = .ok (false, []) := by decide +kernel

/-- The argument of the output has been made with another buffer: the second pair is refused (`C99_refused`, `C99_stops`). -/
example : (addrJob true 99).argument 3 = some { addrHeld 3 with of := 99 } ∧ (addrJob true 99).buffer 3 = some 103 ∧
    (addrJob true 99).lists.keys = [⟨1, 2⟩] ++ ⟨1, 3⟩ :: [] ∧
    addrCalls ((addrJob true 99).assignAll (addrEnv true)) = .ok (false,
      [([some (.buffer 42), some (.value 8), some (.buffer 21), some (.value 8), some (.value 1), some (.buffer 22),
        some (.value 8), some (.value 2)], 2)]) :=
  ⟨rfl, rfl, rfl, by decide +kernel⟩

/-- The hypothesis of `C99_lookup` for a job with a stored buffer. -/
example : ∃ d, StoredBuf.DevReached d ∧ ({ addrJob false 103 with stored := d }).buffer 1024 = some 1 ∧
    ({ addrJob false 103 with stored := d }).argument 1024 = some ⟨⟨0, 0, true, none⟩, 1⟩ ∧
    ({ addrJob false 103 with stored := d }).argument 1025 = none :=
  ⟨_, ⟨2, [.add (.c99 (some 1) false true)], rfl⟩, by decide, by decide, by decide⟩

/-- `C99_empty` for a new job; items for the other pairs have no part in `C99_refused`. -/
example : (∀ k, Lists.new.items k = []) ∧ AssignList.Reached 4 Lists.new ∧ (addrJob true 103).lists.items ⟨2, 1⟩ = [] :=
  ⟨fun _ => rfl, ⟨[], rfl⟩, by decide⟩

end SixTrack
