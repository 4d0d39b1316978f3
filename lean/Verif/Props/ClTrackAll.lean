import Verif.Props.ClTrackMore

/-!
# C95: slot size and status flags for all kernels, sets that cannot be assigned, and turns
-/

namespace SixTrack
open ClContext ClRun ClTrack

/-- The kernel `r` for remapping has `n` arguments and does none of the tasks. -/
structure Remaps (t : Tracker) (K : Task → Nat) (r n : Nat) : Prop where
  id : t.ctx.remapKernel = r
  args : ∃ x, t.ctx.kernels[r]? = some x ∧ x.numArgs = n
  other : ∀ w, K w ≠ r

theorem Remaps.lt {t : Tracker} {K : Task → Nat} {r n : Nat} (h : Remaps t K r n) : r < t.ctx.kernels.length := by
  obtain ⟨x, hx, -⟩ := h.args
  exact (List.getElem?_eq_some_iff.1 hx).1

theorem Remaps.has {t : Tracker} {K : Task → Nat} {r n : Nat} (h : Remaps t K r n) (hn : t.ctx.hasNode = true) :
    t.ctx.hasRemapKernel = true := by
  simp [Ctx.hasRemapKernel, hn, h.id, h.lt]

theorem Remaps.numArgs {t : Tracker} {K : Task → Nat} {r n : Nat} (h : Remaps t K r n) (hn : t.ctx.hasNode = true) :
    t.ctx.kernelNumArgs t.ctx.remapKernel = n := by
  obtain ⟨x, hx, hx'⟩ := h.args
  simp [Ctx.kernelNumArgs, hn, h.id, hx, hx']

theorem Remaps.update {t t' : Tracker} {K : Task → Nat} {r n : Nat} (h : Remaps t K r n) (hc : OnlyArgs t.ctx t'.ctx) :
    Remaps t' K r n where
  id := by rw [hc.1]; exact h.id
  args := by
    obtain ⟨x, hx, hn⟩ := h.args
    obtain ⟨y, hy, hm, -⟩ := hc.kernel hx
    exact ⟨y, hy, hm.trans hn⟩
  other := h.other

/-- The size of slots is assigned to the kernel for remapping and to those for the tasks, and nothing else changes. -/
theorem C95_slot_all {t : Tracker} {K : Task → Nat} (h : Staffed t K) {r m : Nat} (hr : Remaps t K r m) (hm : 2 ≤ m) (n : Nat)
    (hn : 0 < n) :
    ∃ c', t.assignSlotAll n = .ok (true, { t with ctx := c' }) ∧ OnlyArgs t.ctx c' ∧ kArg c' r 1 = some (.value n) ∧
      (∀ w j, (w, j) ∈ [(Task.turn, 4), (.line, 6), (.elem, 6), (.monOut, 4), (.clear, 1), (.elemOut, 4), (.fetch, 2)] →
        kArg c' (K w) j = some (.value n)) ∧
      ∀ k j, ¬(k = r ∧ j = 1) → (∀ w, (w, j) ∈ [(Task.turn, 4), (.line, 6), (.elem, 6), (.monOut, 4), (.clear, 1),
        (.elemOut, 4), (.fetch, 2)] → K w ≠ k) → kArg c' k j = kArg t.ctx k j := by
  obtain ⟨x, hx, hxm⟩ := hr.args
  have h1 := OnlyArgs.assign t.ctx r 1 ⟨.value, none⟩ (.value n)
  have ha : t.ctx.assignSlotSize n = (true, t.ctx.assign r 1 ⟨.value, none⟩ (.value n)) := by
    unfold Ctx.assignSlotSize
    rw [if_pos hn, if_pos (hr.has h.node), if_pos (by rw [hr.numArgs h.node]; exact hm), hr.id]
  have hs : Staffed { t with ctx := t.ctx.assign r 1 ⟨.value, none⟩ (.value n) } K := h.update h1 rfl
  obtain ⟨c', e, b1, b2, b3⟩ := C95_slot hs n
  have hk := kArg_assign (c := t.ctx) hx (i := 1) (by rw [h.tidy r x hx, hxm]; omega) ⟨.value, none⟩ (.value n)
  refine ⟨c', ?_, h1.trans b1, ?_, b2, fun k j hkj hw => ?_⟩
  · unfold Tracker.assignSlotAll
    rw [ha]
    simp only [if_true]
    rw [e]
  · rw [b3 r 1 fun w _ => hr.other w]
    exact (hk r 1).trans (if_pos ⟨rfl, rfl⟩)
  · rw [b3 k j hw]
    exact (hk k j).trans (if_neg hkj)

/-- A slot size of 0 is refused, and so is every one if the kernel for remapping has fewer than two arguments: then those for
the tasks do not get it either. -/
theorem C95_slot_all_refused {t : Tracker} (n : Nat) (hbad : n = 0 ∨ ∃ K r m, Remaps t K r m ∧ m < 2 ∧ t.ctx.hasNode = true) :
    t.assignSlotAll n = .ok (false, t) := by
  have : t.ctx.assignSlotSize n = (false, t.ctx) := by
    unfold Ctx.assignSlotSize
    rcases hbad with rfl | ⟨K, r, m, hr, hm, hn⟩
    · rfl
    · by_cases h0 : 0 < n
      · rw [if_pos h0, if_pos (hr.has hn), if_neg]
        rw [hr.numArgs hn, MIN_REMAP_ARGS]
        omega
      · rw [if_neg h0]
  unfold Tracker.assignSlotAll
  rw [this]
  rfl

/-- In debug mode the buffer of the status flags becomes the last argument of the kernel for remapping and of those for all
tasks but the two for addresses.  Otherwise nothing changes. -/
theorem C95_flags_all {t : Tracker} {K : Task → Nat} (h : Staffed t K) {r m : Nat} (hr : Remaps t K r m) (hm : 2 ≤ m) (b : Nat) :
    (t.ctx.debug = false → t.assignFlagsAll b = .ok (true, t)) ∧
    (t.ctx.debug = true → m = 2 → t.assignFlagsAll b = .ok (false, t)) ∧
    (t.ctx.debug = true → 2 < m → ∃ c', t.assignFlagsAll b = .ok (true, { t with ctx := c' }) ∧ OnlyArgs t.ctx c' ∧
      kArg c' r (m - 1) = some (.buffer b) ∧
      (∀ w j, w ≠ .fetch → w ≠ .addr → j + 1 = arity true w → kArg c' (K w) j = some (.buffer b)) ∧
      ∀ k j, ¬(k = r ∧ j = m - 1) → (∀ w, w ≠ .fetch ∧ w ≠ .addr ∧ j + 1 = arity true w → K w ≠ k) →
        kArg c' k j = kArg t.ctx k j) := by
  have hb : t.ctx.assignStatusFlags b = if t.ctx.debug then if 2 < m then
      (true, t.ctx.assign r (m - 1) ⟨.clBuffer, some b⟩ (.buffer b)) else (false, t.ctx) else (true, t.ctx) := by
    unfold Ctx.assignStatusFlags
    rw [if_pos (hr.has h.node), hr.numArgs h.node, if_pos (show MIN_REMAP_ARGS ≤ m from hm), hr.id]
    rfl
  refine ⟨fun hd => ?_, fun hd h2 => ?_, fun hd h2 => ?_⟩
  · unfold Tracker.assignFlagsAll
    rw [hb, hd]
    simp only [Bool.false_eq_true, if_false, if_true]
    exact (C95_flags h b).1 hd
  · rw [if_pos hd, if_neg (by omega)] at hb
    unfold Tracker.assignFlagsAll
    rw [hb]
    rfl
  · rw [if_pos hd, if_pos h2] at hb
    obtain ⟨x, hx, hxm⟩ := hr.args
    have h1 := OnlyArgs.assign t.ctx r (m - 1) ⟨.clBuffer, some b⟩ (.buffer b)
    have hs : Staffed { t with ctx := t.ctx.assign r (m - 1) ⟨.clBuffer, some b⟩ (.buffer b) } K := h.update h1 rfl
    obtain ⟨c', e, b1, b2, b3⟩ := (C95_flags hs b).2 (h1.debug.trans hd)
    have hk := kArg_assign (c := t.ctx) hx (i := m - 1) (by rw [h.tidy r x hx, hxm]; omega) ⟨.clBuffer, some b⟩ (.buffer b)
    refine ⟨c', ?_, h1.trans b1, ?_, fun w j hw hw' hj => b2 w j ⟨hw, hw', hj⟩, fun k j hkj hw => ?_⟩
    · unfold Tracker.assignFlagsAll
      rw [hb]
      simp only [if_true]
      rw [e]
    · rw [b3 r (m - 1) fun w _ => hr.other w]
      exact (hk r (m - 1)).trans (if_pos ⟨rfl, rfl⟩)
    · rw [b3 k j hw]
      exact (hk k j).trans (if_neg hkj)

/-- Without a kernel for remapping, the slot size and the flags are those of the kernels for the tasks alone. -/
theorem C95_all_without_remap {t : Tracker} (h : t.ctx.hasRemapKernel = false) (n b : Nat) (hn : 0 < n) :
    t.assignSlotAll n = t.assignSlot n ∧ t.assignFlagsAll b = t.assignFlags b := by
  unfold Tracker.assignSlotAll Tracker.assignFlagsAll Ctx.assignSlotSize Ctx.assignStatusFlags
  simp [h, hn]

/-- A set that cannot be assigned to every kernel is not selected. -/
theorem C95_set_failed {t t' : Tracker} {p n : Nat} (h : t.assignSet p n = .ok (false, t')) :
    t'.pset = t.pset ∧ t'.particles = t.particles ∧ t' = { t with ctx := t'.ctx } := by
  unfold Tracker.assignSet Tracker.putRows at h
  obtain ⟨x, h1, h2⟩ := Res.bind_eq_ok.1 h
  obtain ⟨ks, -, h4⟩ := Res.bind_eq_ok.1 h1
  obtain ⟨r, -, h6⟩ := Res.bind_eq_ok.1 h4
  rw [Res.pure_eq] at h6 h2
  obtain rfl := Res.ok.inj h6
  simp only [Res.ok.injEq, Prod.mk.injEq] at h2
  obtain ⟨ha, hb⟩ := h2
  rw [ha] at hb
  simp only [Bool.false_eq_true, if_false] at hb
  rw [← hb]
  exact ⟨rfl, rfl, rfl⟩

/-- The kernel gets the turn as it is if it is not negative, and otherwise that number of 64 bits which is read as this turn
where a number with a sign is expected. -/
theorem C95_turn (turn : Int) (h : -2 ^ 63 ≤ turn) (h' : turn < 2 ^ 63) :
    (0 ≤ turn → (turnArg turn : Int) = turn) ∧ (turn < 0 → (turnArg turn : Int) = 2 ^ 64 + turn) ∧
      (BitVec.ofNat 64 (turnArg turn)).toInt = turn := by
  have hv : (turnArg turn : Int) = turn % 2 ^ 64 := by
    unfold turnArg
    rw [BitVec.toNat_ofInt, Int.toNat_of_nonneg]
    · rfl
    · exact Int.emod_nonneg _ (by norm_num)
  refine ⟨fun h0 => ?_, fun h0 => ?_, ?_⟩
  · omega
  · omega
  · unfold turnArg
    rw [BitVec.ofNat_toNat, BitVec.setWidth_eq, BitVec.toInt_ofInt]
    unfold Int.bmod
    simp only [Nat.reducePow, Nat.cast_ofNat]
    split_ifs <;> omega

/-! ## A context with all kernels -/

example : Remaps (clReady false) clTrackIds 0 2 := ⟨rfl, ⟨_, rfl, rfl⟩, by intro w; cases w <;> decide⟩

/-- a context in debug mode whose kernel for remapping has an argument for the status flags -/
def clReadyDebug : Tracker :=
  { clReady true with
    ctx := { (clReady true).ctx with kernels := (clReadyKernels true).set 0 (newKernel ⟨3, 256, 32, 0⟩ "remap" 0) } }

example : Staffed clReadyDebug clTrackIds ∧ Remaps clReadyDebug clTrackIds 0 3 ∧ clReadyDebug.ctx.debug = true := by
  refine ⟨⟨rfl, ?_, by decide +kernel, fun _ => rfl, (clTracker_staffed true).inj, fun w => by cases w <;> exact ⟨_, rfl, rfl⟩⟩,
    ⟨rfl, ⟨_, rfl, rfl⟩, by intro w; cases w <;> decide⟩, rfl⟩
  intro k x hx
  have : ∀ x ∈ clReadyDebug.ctx.kernels, x.cl.length = x.numArgs := by decide +kernel
  exact this x (List.mem_of_getElem? hx)

example : Remaps (clReady true) clTrackIds 0 2 ∧ Staffed (clReady true) clTrackIds :=
  ⟨⟨rfl, ⟨_, rfl, rfl⟩, by intro w; cases w <;> decide⟩, clReady_staffed true⟩

example : ({ clReady true with ctx := { (clReady true).ctx with remapKernel := ILLEGAL } } : Tracker).ctx.hasRemapKernel = false := by
  decide +kernel

example : ∃ t', clTrackerShort.assignSet 3 20 = .ok (false, t') := by
  refine ⟨_, rfl⟩

example : turnArg (-1) = 2 ^ 64 - 1 ∧ turnArg 7 = 7 := by decide

end SixTrack
