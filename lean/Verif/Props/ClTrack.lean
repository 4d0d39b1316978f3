import Verif.Props.ClTrackAssign
import Verif.Props.ClRun

/-!
# C95: what the OpenCL context for tracking launches

`withValues l vs` is the list of arguments `l` with the values `vs` at their places.  `Taken d args g n`: OpenCL takes a launch
of `n` work items in groups of `g` with these arguments, all of which have been set.
-/

namespace SixTrack
open ClContext ClRun ClTrack

/-- The call asked for exactly one launch of the kernel `k` with the arguments `args` and `n` work items in groups as before.
If OpenCL takes it, it is recorded, and the status is a success, or, in debug mode, what the status flags say after it;
otherwise the status is a failure and nothing has been launched.  Then the arguments of the kernel are `after`, and those of
all other kernels, the sizes of groups and all other members are as before. -/
def Ran (d : Dev) (t : Tracker) (k : Nat) (args : List (Option ClVal)) (n : Nat) (after : List (Option ClVal))
    (r : Res (BitVec 32 × Tracker)) : Prop :=
  ∃ c' xs s f f', OnlyArgs t.ctx c' ∧ argsOf c' k = after ∧ (∀ j, j ≠ k → argsOf c' j = argsOf t.ctx j) ∧
    (∀ j, (execOf xs j).lastGroup = lastGroup t j) ∧
    r = .ok (if Taken d args (lastGroup t k) n then
        (s, { t with ctx := c', execs := xs, flags := f, calls := t.calls ++ [⟨k, args, launchOf (lastGroup t k) n⟩] })
      else (-1#32, { t with ctx := c', execs := xs, flags := f' })) ∧
    (t.ctx.debug = false → s = 0#32 ∧ f = t.flags ∧ f' = t.flags) ∧
    (t.ctx.debug = true → (s = 0#32 ↔ d.flags = 0#64) ∧ (statusPart d.flags ≠ 0#32 → s = statusPart d.flags) ∧
      f = ⟨d.flags, d.flags⟩ ∧ f' = ⟨0#64, 0#64⟩)

/-- If the kernel is one for debugging, its last argument is the buffer of the status flags, and that can be written and
read. -/
def Tells (d : Dev) (t : Tracker) (K : Task → Nat) (w : Task) : Prop :=
  t.ctx.debug = true → d.writes = true ∧ d.reads = true ∧ statusPart d.flags ≠ 0x80000000#32 ∧
    kArg t.ctx (K w) (arity true w - 1) = some (.buffer t.flagsId)

theorem withValues_get {vs : List (Nat × Nat)} {i : Nat} (h : ∀ p ∈ vs, p.1 ≠ i) : ∀ l, (withValues l vs)[i]? = l[i]? := by
  induction vs with
  | nil => exact fun l => rfl
  | cons p vs ih =>
    obtain ⟨k, v⟩ := p
    intro l
    have hk : k ≠ i := h (k, v) (by simp)
    rw [withValues, ih (fun p hp => h p (by simp [hp])), List.getElem?_set, if_neg hk]

theorem withValues_set {vs : List (Nat × Nat)} {i : Nat} (h : ∀ p ∈ vs, p.1 ≠ i) (x : Option ClVal) :
    ∀ l, (withValues l vs).set i x = withValues (l.set i x) vs := by
  induction vs with
  | nil => exact fun l => rfl
  | cons p vs ih =>
    obtain ⟨k, v⟩ := p
    intro l
    have hk : k ≠ i := h (k, v) (by simp)
    rw [withValues, withValues, ih (fun p hp => h p (by simp [hp])), List.set_comm _ _ hk]

private theorem mem_of_join {l : List (Option ClVal)} {i : Nat} {v : ClVal} (h : (l[i]?).join = some v) : some v ∈ l := by
  cases hx : l[i]? with
  | none => rw [hx] at h; simp at h
  | some x =>
    rw [hx] at h
    obtain rfl : x = some v := h
    exact List.mem_of_getElem? hx

/-- a launch in both modes -/
theorem perform_ran {d : Dev} {t : Tracker} {k : Nat} (n : Nat) (hk : k < t.ctx.kernels.length)
    (ht : t.ctx.debug = true → d.writes = true ∧ d.reads = true ∧ statusPart d.flags ≠ 0x80000000#32 ∧
      some (.buffer t.flagsId) ∈ argsOf t.ctx k) :
    ∃ xs s f f', (∀ j, (execOf xs j).lastGroup = lastGroup t j) ∧
      t.perform d k n = .ok (if Taken d (argsOf t.ctx k) (lastGroup t k) n then
        (s, { t with execs := xs, flags := f
                     calls := t.calls ++ [⟨k, argsOf t.ctx k, launchOf (lastGroup t k) n⟩] })
      else (-1#32, { t with execs := xs, flags := f' })) ∧
      (t.ctx.debug = false → s = 0#32 ∧ f = t.flags ∧ f' = t.flags) ∧
      (t.ctx.debug = true → (s = 0#32 ↔ d.flags = 0#64) ∧ (statusPart d.flags ≠ 0#32 → s = statusPart d.flags) ∧
        f = ⟨d.flags, d.flags⟩ ∧ f' = ⟨0#64, 0#64⟩) := by
  cases hd : t.ctx.debug with
  | false =>
    exact ⟨execsAfter d t k n, 0#32, t.flags, t.flags, groups_kept _ _ _ _ _, perform_plain d t n hk hd,
      fun _ => ⟨rfl, rfl, rfl⟩, fun h => absurd h (by simp)⟩
  | true =>
    obtain ⟨hw, hr, hs, hm⟩ := ht hd
    obtain ⟨s, he, h0, h1, -⟩ := C91_evaluate ⟨0#64, d.flags⟩ hs
    refine ⟨execsAfter d t k n, s, ⟨d.flags, d.flags⟩, ⟨0#64, 0#64⟩, groups_kept _ _ _ _ _, ?_, fun h => absurd h (by simp),
      fun _ => ⟨h0, h1, rfl, rfl⟩⟩
    unfold Tracker.perform Tracker.again
    rw [if_neg (by simp [hd]), hw]
    have hp : prepare true t.flags = (0#32, ⟨0#64, 0#64⟩) := rfl
    simp only [hp, if_true]
    rw [launch_spec d { t with flags := ⟨0#64, 0#64⟩ } n _ hk]
    have hfl : flagsAfter d { t with flags := ⟨0#64, 0#64⟩ } k = ⟨0#64, d.flags⟩ := by
      unfold flagsAfter
      rw [if_pos ⟨hd, hm⟩]
    unfold lastGroup execsAfter lastGroup
    simp only
    by_cases hT : Taken d (argsOf t.ctx k) (execOf t.execs k).lastGroup n
    · rw [if_pos hT, if_pos hT]
      simp only [if_true]
      rw [hfl, hr, he, Res.ok_bind]
      rfl
    · rw [if_neg hT, if_neg hT]
      rfl

/-- a call that sets some arguments -/
theorem call_ran {d : Dev} {t : Tracker} {K : Task → Nat} (h : Staffed t K) {w : Task} (ht : Tells d t K w) {min : Nat}
    (hm : min ≤ arity t.ctx.debug w) {vs : List (Nat × Nat)} (hv : ∀ p ∈ vs, p.1 ≠ arity true w - 1) (n : Nat) :
    Ran d t (K w) (withValues (argsOf t.ctx (K w)) vs) n (withValues (argsOf t.ctx (K w)) vs) (t.call d w min vs n) := by
  obtain ⟨c', h1, h2, h3, h4⟩ := call_eq h d w vs n hm
  obtain ⟨xs, s, f, f', g1, g2, g3, g4⟩ := perform_ran (d := d) (t := { t with ctx := c' }) (k := K w) n
    (by rw [h1.length]; exact h.lt w) (fun hd => by
      obtain ⟨a, b, c, e⟩ := ht (by rw [← h1.debug]; exact hd)
      refine ⟨a, b, c, mem_of_join (i := arity true w - 1) ?_⟩
      simp only
      rw [h2, withValues_get hv, ← kArg_eq]
      exact e)
  simp only at g1 g2 g3 g4
  rw [h1.debug] at g3 g4
  refine ⟨c', xs, s, f, f', h1, h2, h3, g1, ?_, g3, g4⟩
  rw [h4, g2, h2]
  rfl

/-- The second argument of the kernel is the selected set. -/
def SetSelected (t : Tracker) (K : Task → Nat) (w : Task) : Prop := kArg t.ctx (K w) 1 = some (.value t.pset)

theorem SetSelected.get {t : Tracker} {K : Task → Nat} {w : Task} (h : SetSelected t K w) :
    (argsOf t.ctx (K w))[1]? = some (some (.value t.pset)) := by
  unfold SetSelected at h
  rw [kArg_eq] at h
  cases hx : (argsOf t.ctx (K w))[1]? with
  | none => rw [hx] at h; simp at h
  | some x =>
    rw [hx] at h
    exact congrArg some h

theorem SetSelected.set {t : Tracker} {K : Task → Nat} {w : Task} (h : SetSelected t K w) :
    (argsOf t.ctx (K w)).set 1 (some (.value t.pset)) = argsOf t.ctx (K w) := by
  apply List.ext_getElem?
  intro i
  rw [List.getElem?_set]
  by_cases hi : 1 = i
  · subst hi
    have := h.get
    have hl : 1 < (argsOf t.ctx (K w)).length := (List.getElem?_eq_some_iff.1 this).1
    rw [if_pos rfl, if_pos hl, this]
  · rw [if_neg hi]

/-- a call for a set of particles -/
theorem callSet_ran {d : Dev} {t : Tracker} {K : Task → Nat} (h : Staffed t K) {w : Task} (ht : Tells d t K w)
    (hsel : SetSelected t K w) {min : Nat} (hm : min ≤ arity t.ctx.debug w) {vs : List (Nat × Nat)}
    (hv : ∀ p ∈ vs, p.1 ≠ arity true w - 1 ∧ p.1 ≠ 1) (ha : arity true w - 1 ≠ 1) (p n : Nat) (restore : Bool) :
    Ran d t (K w) (withValues (argsOf t.ctx (K w)) ((1, p) :: vs)) n
      (withValues (argsOf t.ctx (K w)) (if restore then vs else (1, p) :: vs)) (t.callSet d w min vs p n restore) := by
  obtain ⟨c', h1, h2, h3, h4⟩ := putValues_eq (K w) ((if t.pset ≠ p then [(1, p)] else []) ++ vs) t.ctx (h.lt w)
  have hargs : argsOf c' (K w) = withValues (argsOf t.ctx (K w)) ((1, p) :: vs) := by
    rw [h3]
    by_cases hp : t.pset = p
    · subst hp
      rw [if_neg (by simp), List.nil_append, withValues, hsel.set]
    · rw [if_pos hp, List.singleton_append]
  have hlt : K w < c'.kernels.length := by rw [h2.length]; exact h.lt w
  obtain ⟨xs, s, f, f', g1, g2, g3, g4⟩ := perform_ran (d := d) (t := { t with ctx := c' }) (k := K w) n
    hlt (fun hd => by
      obtain ⟨a, b, c, e⟩ := ht (by rw [← h2.debug]; exact hd)
      refine ⟨a, b, c, mem_of_join (i := arity true w - 1) ?_⟩
      simp only
      rw [hargs, withValues_get, ← kArg_eq]
      · exact e
      · intro q hq
        rcases List.mem_cons.1 hq with rfl | hq
        · exact Ne.symm ha
        · exact (hv q hq).1)
  simp only at g1 g2 g3 g4
  rw [h2.debug] at g3 g4
  obtain ⟨c'', k1, k2, k3, k4⟩ := putValues_eq (K w) (if t.pset ≠ p ∧ restore = true then [(1, t.pset)] else []) c' hlt
  refine ⟨c'', xs, s, f, f', h2.trans k2, ?_, fun j hj => (k4 j hj).trans (h4 j hj), g1, ?_, g3, g4⟩
  · rw [k3, hargs]
    have hv1 : ∀ q ∈ vs, q.1 ≠ 1 := fun q hq => (hv q hq).2
    cases restore with
    | false =>
      rw [if_neg (by simp)]
      rfl
    | true =>
      by_cases hp : t.pset = p
      · subst hp
        rw [if_neg (by simp), if_pos rfl, withValues, withValues, hsel.set]
      · rw [if_pos ⟨hp, rfl⟩, if_pos rfl]
        simp only [withValues]
        rw [withValues_set hv1, List.set_set, hsel.set]
  · rw [callSet_eq h d w vs p n restore hm h1, g2, Res.ok_bind, ← hargs]
    generalize (if t.pset ≠ p ∧ restore = true then [(1, t.pset)] else []) = back at k1 ⊢
    by_cases hT : Taken d (argsOf c' (K w)) (lastGroup t (K w)) n
    · rw [if_pos (show Taken d _ (lastGroup { t with ctx := c' } (K w)) n from hT), if_pos hT]
      simp only
      rw [k1, Res.ok_bind]
      rfl
    · rw [if_neg (show ¬ Taken d _ (lastGroup { t with ctx := c' } (K w)) n from hT), if_neg hT]
      simp only
      rw [k1, Res.ok_bind]

/-! ## The calls -/

/-- Tracking until a turn: one launch for the selected set with the turn as fourth argument. -/
theorem C95_until {d : Dev} {t : Tracker} {K : Task → Nat} (h : Staffed t K) (ht : Tells d t K .turn) (turn : Int) :
    Ran d t (K .turn) (withValues (argsOf t.ctx (K .turn)) [(3, turnArg turn)]) t.particles
      (withValues (argsOf t.ctx (K .turn)) [(3, turnArg turn)]) (t.trackUntil d turn) :=
  call_ran h ht (by cases t.ctx.debug <;> decide) (by simp [arity]) _

/-- Tracking a set until a turn: the second argument is the set for this launch; if it is to be restored, it is the
selected set again after that. -/
theorem C95_until_set {d : Dev} {t : Tracker} {K : Task → Nat} (h : Staffed t K) (ht : Tells d t K .turn)
    (hs : SetSelected t K .turn) (turn : Int) (p n : Nat) (restore : Bool) :
    Ran d t (K .turn) (withValues (argsOf t.ctx (K .turn)) [(1, p), (3, turnArg turn)]) n
      (withValues (argsOf t.ctx (K .turn)) (if restore then [(3, turnArg turn)] else [(1, p), (3, turnArg turn)]))
      (t.trackUntilSet d turn p n restore) :=
  callSet_ran h ht hs (by cases t.ctx.debug <;> decide) (by simp [arity]) (by decide) _ _ _

/-- Tracking along a part of the beam line: one launch with the elements and whether it is the end of the turn. -/
theorem C95_line {d : Dev} {t : Tracker} {K : Task → Nat} (h : Staffed t K) (ht : Tells d t K .line) (first last : Nat)
    (finish : Bool) :
    Ran d t (K .line) (withValues (argsOf t.ctx (K .line)) [(3, first), (4, last), (5, if finish then 1 else 0)]) t.particles
      (withValues (argsOf t.ctx (K .line)) [(3, first), (4, last), (5, if finish then 1 else 0)])
      (t.trackLine d first last finish) :=
  call_ran h ht (by cases t.ctx.debug <;> decide) (by simp [arity]) _

/-- The same for a set. -/
theorem C95_line_set {d : Dev} {t : Tracker} {K : Task → Nat} (h : Staffed t K) (ht : Tells d t K .line)
    (hs : SetSelected t K .line) (first last : Nat) (finish : Bool) (p n : Nat) (restore : Bool) :
    Ran d t (K .line) (withValues (argsOf t.ctx (K .line)) [(1, p), (3, first), (4, last), (5, if finish then 1 else 0)]) n
      (withValues (argsOf t.ctx (K .line)) (if restore then [(3, first), (4, last), (5, if finish then 1 else 0)]
        else [(1, p), (3, first), (4, last), (5, if finish then 1 else 0)]))
      (t.trackLineSet d first last finish p n restore) :=
  callSet_ran h ht hs (by cases t.ctx.debug <;> decide) (by simp [arity]) (by decide) _ _ _

/-- Tracking element by element: one launch for the selected set with the turn as sixth argument. -/
theorem C95_elem {d : Dev} {t : Tracker} {K : Task → Nat} (h : Staffed t K) (ht : Tells d t K .elem) (turn : Nat) :
    Ran d t (K .elem) (withValues (argsOf t.ctx (K .elem)) [(5, turn)]) t.particles
      (withValues (argsOf t.ctx (K .elem)) [(5, turn)]) (t.trackElem d turn) :=
  call_ran h ht (by cases t.ctx.debug <;> decide) (by simp [arity]) _

/-- Tracking a set element by element, if it has as many particles as the selected set: see `C95_items_violated`. -/
theorem C95_elem_set_partial {d : Dev} {t : Tracker} {K : Task → Nat} (h : Staffed t K) (ht : Tells d t K .elem)
    (hs : SetSelected t K .elem) (turn p n : Nat) (hn : n = t.particles) (restore : Bool) :
    Ran d t (K .elem) (withValues (argsOf t.ctx (K .elem)) [(1, p), (5, turn)]) n
      (withValues (argsOf t.ctx (K .elem)) (if restore then [(5, turn)] else [(1, p), (5, turn)]))
      (t.trackElemSet d turn p n restore) := by
  subst hn
  exact callSet_ran h ht hs (by cases t.ctx.debug <;> decide) (by simp [arity]) (by decide) _ _ _

/-- Handing out the output to monitors, for one work item. -/
theorem C95_monitors {d : Dev} {t : Tracker} {K : Task → Nat} (h : Staffed t K) (ht : Tells d t K .monOut) (turn : Int)
    (offset : Nat) :
    Ran d t (K .monOut) (withValues (argsOf t.ctx (K .monOut)) [(2, turnArg turn), (3, offset)]) 1
      (withValues (argsOf t.ctx (K .monOut)) [(2, turnArg turn), (3, offset)]) (t.assignMonitors d turn offset) :=
  call_ran h ht (by cases t.ctx.debug <;> decide) (by simp [arity]) _

/-- Handing out the output of tracking element by element, for the configuration that has been assigned. -/
theorem C95_elem_out {d : Dev} {t : Tracker} {K : Task → Nat} (h : Staffed t K) (ht : Tells d t K .elemOut) (offset : Nat) :
    Ran d t (K .elemOut) (withValues (argsOf t.ctx (K .elemOut)) [(1, t.config), (3, offset)]) 1
      (withValues (argsOf t.ctx (K .elemOut)) [(1, t.config), (3, offset)]) (t.assignElemOut d offset) :=
  call_ran h ht (by cases t.ctx.debug <;> decide) (by simp [arity]) _

/-- Clearing the output of monitors. -/
theorem C95_clear {d : Dev} {t : Tracker} {K : Task → Nat} (h : Staffed t K) (ht : Tells d t K .clear) :
    Ran d t (K .clear) (argsOf t.ctx (K .clear)) 1 (argsOf t.ctx (K .clear)) (t.clearMonitors d) :=
  call_ran (vs := []) h ht (by cases t.ctx.debug <;> decide) (by simp) _

/-- Fetching the addresses of particles: one launch, in which the status flags play no part. -/
theorem C95_fetch {d : Dev} {t : Tracker} {K : Task → Nat} (h : Staffed t K)
    (hf : some (.buffer t.flagsId) ∉ argsOf t.ctx (K .fetch)) :
    ∃ xs, (∀ j, (execOf xs j).lastGroup = lastGroup t j) ∧
      t.fetchAddr d = .ok (if Taken d (argsOf t.ctx (K .fetch)) (lastGroup t (K .fetch)) 1 then
        (0#32, { t with execs := xs, calls := t.calls ++
          [⟨K .fetch, argsOf t.ctx (K .fetch), launchOf (lastGroup t (K .fetch)) 1⟩] })
      else (-1#32, { t with execs := xs })) := by
  refine ⟨execsAfter d t (K .fetch) 1, groups_kept _ _ _ _ _, ?_⟩
  unfold Tracker.fetchAddr Tracker.again
  have hfl : flagsAfter d t (K .fetch) = t.flags := by simp [flagsAfter, hf]
  rw [h.id, Res.ok_bind, if_pos h.node, launch_spec d t 1 _ (h.lt _), hfl]
  unfold lastGroup execsAfter lastGroup
  by_cases hT : Taken d (argsOf t.ctx (K .fetch)) (execOf t.execs (K .fetch)).lastGroup 1
  · rw [if_pos hT, if_pos hT]
    rfl
  · rw [if_neg hT, if_neg hT]
    rfl

/-! ## Assigning addresses -/

theorem argsOf_putArgs (k : Nat) (l : List (Arg × ClVal)) : ∀ (c : Ctx) (i : Nat), k < c.kernels.length →
    i + l.length = (argsOf c k).length →
    ∃ c', putArgs c k i l = .ok c' ∧ OnlyArgs c c' ∧ argsOf c' k = (argsOf c k).take i ++ l.map (fun p => some p.2) ∧
      ∀ j, j ≠ k → argsOf c' j = argsOf c j := by
  induction l with
  | nil =>
    intro c i _ hi
    refine ⟨c, rfl, OnlyArgs.refl c, ?_, fun _ _ => rfl⟩
    rw [List.map_nil, List.append_nil, List.take_of_length_le (by simp at hi; omega)]
  | cons p l ih =>
    obtain ⟨a, v⟩ := p
    intro c i hk hi
    have hoa := OnlyArgs.assign c k i a v
    have e : argsOf (c.assign k i a v) k = (argsOf c k).set i (some v) := by rw [argsOf_assign, if_pos rfl]
    obtain ⟨c', h1, h2, h3, h4⟩ := ih (c.assign k i a v) (i + 1) (by rw [hoa.length]; exact hk)
      (by rw [e, List.length_set, ← hi, List.length_cons]; omega)
    refine ⟨c', ?_, hoa.trans h2, ?_, fun j hj => ?_⟩
    · unfold putArgs put
      rw [if_pos hk, Res.ok_bind, h1]
    · rw [h3, e, List.map_cons]
      have hl : i < (argsOf c k).length := by rw [← hi, List.length_cons]; omega
      rw [List.take_add_one, List.take_set_of_le (by omega), List.getElem?_set, if_pos rfl, if_pos hl]
      simp
    · rw [h4 j hj, argsOf_assign, if_neg hj]

/-- Assigning addresses, if source and destination have slots of the same size (see `C95_slots_violated`): one launch of a
work item for every address, with the buffers, their slot sizes and their numbers; nothing is launched if there are no
addresses. -/
theorem C95_addresses_partial {d : Dev} {t : Tracker} {K : Task → Nat} (h : Staffed t K) {items dest src : Buf}
    {n m k itemSlot slot destId srcId : Nat} (hi : items.cobj = some (n, itemSlot)) (hd : dest.cobj = some (m, slot))
    (hs : src.cobj = some (k, slot)) (hmine : items.mine = true ∧ dest.mine = true ∧ src.mine = true)
    (hid : destId ≠ 0 ∧ srcId ≠ 0) (hslot : 0 < itemSlot ∧ 0 < slot)
    (hf : t.ctx.debug = true → ∀ b ∈ [items, dest, src], b.mem ≠ t.flagsId) :
    (n = 0 → t.assignAddresses d items dest destId src srcId = .ok (0#32, t)) ∧
    (0 < n → ∃ c' xs args, OnlyArgs t.ctx c' ∧ (∀ j, j ≠ K .addr → argsOf c' j = argsOf t.ctx j) ∧
      args = [some (.buffer items.mem), some (.value itemSlot), some (.buffer dest.mem), some (.value slot),
        some (.value destId), some (.buffer src.mem), some (.value slot), some (.value srcId)] ∧
      argsOf c' (K .addr) = args ∧
      t.assignAddresses d items dest destId src srcId = .ok (
        if d.run.ok = true ∧ 0 < launchItems (groupSize t.ctx (K .addr)) n then
          (0#32, { t with ctx := c', execs := xs, calls := t.calls ++
            [⟨K .addr, args, launchOf (groupSize t.ctx (K .addr)) n⟩] })
        else (-1#32, { t with ctx := c', execs := xs }))) := by
  have hcond : K .addr ≠ ILLEGAL ∧ destId ≠ ILLEGAL_BUFFER ∧ srcId ≠ ILLEGAL_BUFFER ∧ items.mine = true ∧
      dest.mine = true ∧ src.mine = true := ⟨h.ne_illegal _, hid.1, hid.2, hmine.1, hmine.2.1, hmine.2.2⟩
  have hunf : t.assignAddresses d items dest destId src srcId =
      if n = 0 then .ok (0#32, t) else
        (putArgs t.ctx (K .addr) 0 (addrArgs items dest src itemSlot slot slot destId srcId) >>= fun c =>
          .ok (if (Tracker.launch d { t with ctx := c } (K .addr) n (groupSize c (K .addr))).1 then 0#32 else -1#32,
            (Tracker.launch d { t with ctx := c } (K .addr) n (groupSize c (K .addr))).2)) := by
    unfold Tracker.assignAddresses
    rw [h.id, Res.ok_bind, hi, hd, hs]
    simp only
    rw [if_pos hcond]
    by_cases hn : n = 0
    · rw [if_pos hn, if_pos hn]
      rfl
    · rw [if_neg hn, if_neg hn, if_pos ⟨hslot.1, hslot.2, by rw [h.numArgs]; cases t.ctx.debug <;> decide⟩]
      rfl
  refine ⟨fun hn => by rw [hunf, if_pos hn], fun hn => ?_⟩
  obtain ⟨x, hx, hxn⟩ := h.args .addr
  have hlen : (argsOf t.ctx (K .addr)).length = 8 := by
    rw [argsOf_length h.tidy hx, hxn]
    cases t.ctx.debug <;> rfl
  obtain ⟨c', h1, h2, h3, h4⟩ := argsOf_putArgs (K .addr) (addrArgs items dest src itemSlot slot slot destId srcId) t.ctx 0
    (h.lt _) (by rw [hlen]; rfl)
  have hargs : argsOf c' (K .addr) = [some (.buffer items.mem), some (.value itemSlot), some (.buffer dest.mem),
      some (.value slot), some (.value destId), some (.buffer src.mem), some (.value slot), some (.value srcId)] := by
    rw [h3]
    rfl
  have hgroup : groupSize c' (K .addr) = groupSize t.ctx (K .addr) := by
    obtain ⟨y, hy, -, -, -, -, e1, e2, -⟩ := h2.kernel hx
    unfold groupSize
    rw [h2.hasNode, hx, hy]
    simp only [e1, e2]
  refine ⟨c', (runKernel d.run c' t.execs (K .addr) n (groupSize t.ctx (K .addr))).2.2, _, h2, h4, rfl, hargs, ?_⟩
  rw [hunf, if_neg (by omega), h1, Res.ok_bind, hgroup, launch_spec d { t with ctx := c' } n _ (by rw [h2.length]; exact h.lt _)]
  simp only [hargs]
  have hfl : flagsAfter d { t with ctx := c' } (K .addr) = t.flags := by
    unfold flagsAfter
    simp only [hargs, h2.debug]
    rw [if_neg]
    rintro ⟨hd', hm⟩
    have := hf hd'
    simp only [List.mem_cons, List.not_mem_nil, or_false, forall_eq_or_imp, forall_eq] at this
    simp only [List.mem_cons, Option.some.injEq, ClVal.buffer.injEq, reduceCtorEq, List.not_mem_nil, or_false, false_or] at hm
    rcases hm with hm | hm | hm
    · exact this.1 hm.symm
    · exact this.2.1 hm.symm
    · exact this.2.2 hm.symm
  have hT : Taken d [some (.buffer items.mem), some (.value itemSlot), some (.buffer dest.mem), some (.value slot),
      some (.value destId), some (.buffer src.mem), some (.value slot), some (.value srcId)]
      (groupSize t.ctx (K .addr)) n ↔ d.run.ok = true ∧ 0 < launchItems (groupSize t.ctx (K .addr)) n := by
    unfold Taken
    simp
  by_cases hc : d.run.ok = true ∧ 0 < launchItems (groupSize t.ctx (K .addr)) n
  · rw [if_pos hc, if_pos (hT.2 hc), hfl]
    rfl
  · rw [if_neg hc, if_neg (fun e => hc (hT.1 e))]
    rfl

end SixTrack
