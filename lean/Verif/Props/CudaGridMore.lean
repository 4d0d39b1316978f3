import Verif.Props.CudaGrid
import Verif.Props.KernelConfig

/-!
# C101: sequences of operations on CUDA configurations, and what goes wrong
-/

namespace SixTrack
open SixTrack.KConf SixTrack.WorkItems SixTrack.CudaGrid

/-- There are at most three directions, and the flag is not set. -/
def GridOk (c : Conf) : Prop := c.items.dim ≤ 3 ∧ c.groups.dim ≤ 3 ∧ c.needsUpdate = false

theorem gridOk_new (a b s l w : Nat) : GridOk (CudaGrid.new a b s l w) := by
  unfold CudaGrid.new Conf.setWarp
  split_ifs <;> exact ⟨reset_dim a, reset_dim b, rfl⟩

theorem setArray_dim {s : Sizes} (h : s.dim ≤ 3) (xs : List Nat) : ∃ r, s.setArray xs = .ok r ∧ r.1.dim = s.dim := by
  obtain ⟨r, h1, h2, h3, h4⟩ := C45_array_partial s h xs
  refine ⟨r, h1, ?_⟩
  cases hr : r.2 with
  | true => rw [(h3 hr).1, h2.1 hr]
  | false => rw [h4 hr]

theorem update_ok {c : Conf} (h : GridOk c) : ∃ r, c.update = .ok r ∧ GridOk r.2 ∧ r.2.items = c.items ∧ r.2.groups = c.groups := by
  by_cases hc : (0 < c.items.dim ∧ c.groups.dim = c.items.dim) ∧ ∀ i < c.items.dim, sizeIn c.groups i ≠ 0 ∧ sizeIn c.items i ≠ 0
  · have hl := gridLoop_all c ⟨hc.1.1, h.1⟩ hc.1.2 hc.2
    have : ∃ s b t, c.doUpdate = .ok (s, { c with blocks := b, threads := t }) := by
      unfold Conf.doUpdate
      rw [if_pos hc.1, hl, Res.ok_bind]
      exact ⟨_, _, _, rfl⟩
    obtain ⟨s, b, t, hs⟩ := this
    unfold Conf.update
    rw [hs, Res.ok_bind]
    refine ⟨_, rfl, ?_⟩
    cases s
    · exact ⟨h, rfl, rfl⟩
    · exact ⟨⟨h.1, h.2.1, rfl⟩, rfl, rfl⟩
  · refine ⟨(false, c), C101_refused c h.1 ?_, h, rfl, rfl⟩
    by_contra hn
    apply hc
    obtain ⟨n1, n2⟩ := not_or.1 hn
    obtain ⟨n2, n3⟩ := not_or.1 n2
    refine ⟨⟨Nat.pos_of_ne_zero n1, not_not.1 n2⟩, fun i hi => ?_⟩
    exact not_or.1 (fun x => n3 ⟨i, hi, x⟩)

theorem gridOk_step {c : Conf} (h : GridOk c) (o : CudaGrid.Op) : ∃ c', c.step o = .ok c' ∧ GridOk c' := by
  unfold Conf.step
  match o with
  | .items xs =>
    obtain ⟨r, e, hr⟩ := setArray_dim h.1 xs
    simp only
    rw [e]
    exact ⟨_, rfl, hr.le.trans h.1, h.2⟩
  | .items1 a =>
    refine ⟨_, rfl, ?_, h.2⟩
    show (c.items.set1 a).1.dim ≤ 3
    unfold Sizes.set1
    split_ifs <;> exact h.1
  | .groups xs =>
    obtain ⟨r, e, hr⟩ := setArray_dim h.2.1 xs
    simp only
    rw [e]
    exact ⟨_, rfl, h.1, hr.le.trans h.2.1, h.2.2⟩
  | .groups1 a =>
    refine ⟨_, rfl, h.1, ?_, h.2.2⟩
    show (c.groups.set1 a).1.dim ≤ 3
    unfold Sizes.set1
    split_ifs <;> exact h.2.1
  | .warp w =>
    refine ⟨_, rfl, ?_⟩
    unfold Conf.setWarp
    split_ifs <;> exact h
  | .limit n => exact ⟨_, rfl, h⟩
  | .shared n => exact ⟨_, rfl, h⟩
  | .reset d e => exact ⟨_, rfl, reset_dim d, reset_dim e, h.2.2⟩
  | .clear => exact ⟨_, rfl, h.1, h.2.1, rfl⟩
  | .update =>
    obtain ⟨r, e, hr, -⟩ := update_ok h
    simp only
    rw [e]
    exact ⟨_, rfl, hr⟩

theorem gridOk_run {c : Conf} (h : GridOk c) (os : List CudaGrid.Op) : ∃ c', c.run os = .ok c' ∧ GridOk c' := by
  induction os generalizing c with
  | nil => exact ⟨c, rfl, h⟩
  | cons o os ih =>
    obtain ⟨c1, e1, h1⟩ := gridOk_step h o
    obtain ⟨c2, e2, h2⟩ := ih h1
    refine ⟨c2, ?_, h2⟩
    unfold Conf.run
    rw [e1, Res.ok_bind]
    exact e2

/-- All sequences of operations on a new configuration are defined; the sizes have at most three directions, and an update at
the end either changes nothing but blocks, threads and the flag or nothing at all. -/
theorem C101_history (a b s l w : Nat) (os : List CudaGrid.Op) : ∃ c, (CudaGrid.new a b s l w).run os = .ok c ∧ c.items.dim ≤ 3 ∧
    c.groups.dim ≤ 3 ∧ ∃ r, c.update = .ok r ∧ r.2.items = c.items ∧ r.2.groups = c.groups := by
  obtain ⟨c, e, h⟩ := gridOk_run (gridOk_new a b s l w) os
  obtain ⟨r, er, -, hr⟩ := update_ok h
  exact ⟨c, e, h.1, h.2.1, r, er, hr⟩

/-- **C101 (a configuration knows when it needs an update), violated**: whatever is done to it, it never needs one. -/
theorem C101_flag_violated (a b s l w : Nat) (os : List CudaGrid.Op) :
    ∃ c, (CudaGrid.new a b s l w).run os = .ok c ∧ c.needsUpdate = false ∧ c.launch = some (c.blocks, c.threads) := by
  obtain ⟨c, e, h⟩ := gridOk_run (gridOk_new a b s l w) os
  refine ⟨c, e, h.2.2, ?_⟩
  unfold Conf.launch
  rw [h.2.2]
  rfl

/-- **C101 (a kernel is launched for its work items), violated**: blocks and threads stay what they are until the next update,
and they are given out as if they were those of the new sizes. -/
theorem C101_stale_violated {c c' : Conf} {o : CudaGrid.Op} (hn : c.needsUpdate = false) (ho : o ≠ .update)
    (h : c.step o = .ok c') : c'.launch = c.launch := by
  have key : c'.needsUpdate = false ∧ c'.blocks = c.blocks ∧ c'.threads = c.threads := by
    unfold Conf.step at h
    match o with
    | .items xs =>
      obtain ⟨r, -, e⟩ := Res.bind_eq_ok.1 h
      cases Res.ok.inj e
      exact ⟨hn, rfl, rfl⟩
    | .groups xs =>
      obtain ⟨r, -, e⟩ := Res.bind_eq_ok.1 h
      cases Res.ok.inj e
      exact ⟨hn, rfl, rfl⟩
    | .warp w =>
      cases Res.ok.inj h
      unfold Conf.setWarp
      split_ifs <;> exact ⟨hn, rfl, rfl⟩
    | .items1 a | .groups1 a | .limit a | .shared a | .reset a b =>
      cases Res.ok.inj h
      exact ⟨hn, rfl, rfl⟩
    | .clear =>
      cases Res.ok.inj h
      exact ⟨rfl, rfl, rfl⟩
    | .update => exact absurd rfl ho
  unfold Conf.launch
  rw [key.1, key.2.1, key.2.2, hn]

/-- a configuration with 32 work items in groups of 32 is updated, and then gets 1000 work items -/
theorem C101_stale_items_violated : ∃ c, (CudaGrid.new 1 1 0 0 32).run [.items1 32, .groups1 32, .update, .items1 1000] = .ok c ∧
    GridSane c.items c.groups ∧ ∃ b t, c.launch = some (b, t) ∧ volume b * volume t = 32 ∧ ¬GridCovers c.items c.groups b t := by
  refine ⟨⟨⟨⟨1000, 0, 0⟩, 1⟩, ⟨⟨32, 0, 0⟩, 1⟩, false, ⟨1, 1, 1⟩, ⟨32, 1, 1⟩, 32, 0, 0⟩, by decide, ⟨by decide, rfl, ?_, ?_⟩,
    _, _, rfl, by decide, fun h => absurd (h.enough 0 (by decide)) (by decide)⟩
  · intro i hi
    have : i = 0 := by simpa using hi
    subst this
    decide
  · intro i hi
    have : i = 0 := by simpa using hi
    subst this
    decide

/-- **C101 (a success covers the items), violated**: for 2^32 blocks an update is a success, but there are no blocks. -/
theorem C101_wide_violated : ∃ c, (CudaGrid.new 1 1 0 0 32).run [.items1 (2 ^ 32), .groups1 1] = .ok c ∧
    ∃ d, c.update = .ok (true, d) ∧ volume d.blocks = 0 := by
  refine ⟨⟨⟨⟨2 ^ 32, 0, 0⟩, 1⟩, ⟨⟨1, 0, 0⟩, 1⟩, false, ⟨1, 1, 1⟩, ⟨1, 1, 1⟩, 32, 0, 0⟩, by decide +kernel,
    ⟨⟨⟨2 ^ 32, 0, 0⟩, 1⟩, ⟨⟨1, 0, 0⟩, 1⟩, false, ⟨0, 1, 1⟩, ⟨1, 1, 1⟩, 32, 0, 0⟩, by decide +kernel, by decide⟩

/-- **C101 (a failure leaves the configuration alone), violated**: if the product of the blocks is too large, an update fails,
though blocks and threads are the new ones. -/
theorem C101_failure_violated : ∃ c d : Conf, GridSane c.items c.groups ∧ c.update = .ok (false, d) ∧ d.needsUpdate = false ∧
    d.blocks ≠ c.blocks ∧ GridCovers d.items d.groups d.blocks d.threads := by
  have hs : GridSane ⟨⟨2 ^ 31, 2 ^ 31, 4⟩, 3⟩ ⟨⟨1, 1, 1⟩, 3⟩ := by
    refine ⟨by decide, rfl, ?_, ?_⟩
    · intro i hi
      have : i < 3 := hi
      match i, this with
      | 0, _ | 1, _ | 2, _ => decide
    · intro i hi
      have : i < 3 := hi
      match i, this with
      | 0, _ | 1, _ | 2, _ => decide
  obtain ⟨s, b, t, e, hc, -⟩ := C101_update
    ⟨⟨⟨2 ^ 31, 2 ^ 31, 4⟩, 3⟩, ⟨⟨1, 1, 1⟩, 3⟩, false, ⟨1, 1, 1⟩, ⟨1, 1, 1⟩, 32, 0, 0⟩ hs
  have e' : Conf.update ⟨⟨⟨2 ^ 31, 2 ^ 31, 4⟩, 3⟩, ⟨⟨1, 1, 1⟩, 3⟩, false, ⟨1, 1, 1⟩, ⟨1, 1, 1⟩, 32, 0, 0⟩ =
      .ok (false, ⟨⟨⟨2 ^ 31, 2 ^ 31, 4⟩, 3⟩, ⟨⟨1, 1, 1⟩, 3⟩, false, ⟨BitVec.ofNat 32 (2 ^ 31), BitVec.ofNat 32 (2 ^ 31), 4⟩,
        ⟨1, 1, 1⟩, 32, 0, 0⟩) := by decide +kernel
  rw [e] at e'
  obtain ⟨h1, h2⟩ := Prod.mk.inj (Res.ok.inj e')
  have hb : b = ⟨BitVec.ofNat 32 (2 ^ 31), BitVec.ofNat 32 (2 ^ 31), 4⟩ := (Conf.mk.inj h2).2.2.2.1
  refine ⟨_, _, hs, by rw [e, h1], rfl, ?_, hc⟩
  show b ≠ ⟨1, 1, 1⟩
  rw [hb]
  decide

/-- **C101 (the totals are those of the launch), violated**: with 2^16 blocks in each of two directions the total is zero. -/
theorem C101_total_violated : ∃ c : Conf, GridOk c ∧ GridCovers c.items c.groups c.blocks c.threads ∧
    volume c.blocks = 2 ^ 32 ∧ c.totalBlocks = 0 ∧ c.totalThreads = 0 := by
  refine ⟨⟨⟨⟨65536, 65536, 0⟩, 2⟩, ⟨⟨1, 1, 0⟩, 2⟩, false, ⟨65536, 65536, 1⟩, ⟨1, 1, 1⟩, 32, 0, 0⟩, ⟨by decide, by decide, rfl⟩,
    ⟨?_, ?_, ?_, ?_⟩, by decide +kernel, by decide +kernel, by decide +kernel⟩
  all_goals intro i hi
  · have : i < 2 := hi
    match i, this with
    | 0, _ | 1, _ => rfl
  · have : i < 2 := hi
    match i, this with
    | 0, _ | 1, _ => decide
  · have : i < 2 := hi
    match i, this with
    | 0, _ | 1, _ => decide
  · intro h3
    have : i = 2 := by have : 2 ≤ i := hi; omega
    subst this
    decide

/-- **C101 (blocks respect the limit), violated**: neither the size of a warp nor the limit of the size of a block nor the shared
memory have an influence on an update. -/
theorem C101_limit_violated (c : Conf) (w l s : Nat) : ({ c with warp := w, limit := l, shared := s } : Conf).update =
    (do
      let r ← c.update
      pure (r.1, { r.2 with warp := w, limit := l, shared := s })) := by
  have hl : ∀ n i b t, gridLoop { c with warp := w, limit := l, shared := s } n i b t = gridLoop c n i b t := by
    intro n
    induction n with
    | zero => intro i b t; rfl
    | succ n ih =>
      intro i b t
      unfold gridLoop
      simp only [ih]
  unfold Conf.update Conf.doUpdate
  simp only [hl]
  split_ifs
  · cases gridLoop c c.items.dim 0 ⟨1, 1, 1⟩ ⟨1, 1, 1⟩ with
    | ub => rfl
    | ok r =>
      simp only [Res.ok_bind]
      match r with
      | none => rfl
      | some (b, t) =>
        simp only [Res.pure_eq, Res.ok_bind]
        split_ifs <;> rfl
  · rfl

/-! ## Examples -/

/-- 100 × 7 items in groups of 32 × 2: 4 × 4 blocks -/
example : ∃ c, (CudaGrid.new 2 2 0 0 32).run [.items [100, 7], .groups [32, 2], .update] = .ok c ∧ c.blocks = ⟨4, 4, 1⟩ ∧
    c.threads = ⟨32, 2, 1⟩ ∧ c.totalThreads = 1024 ∧ Fits c.blocks c.threads :=
  ⟨⟨⟨⟨100, 7, 0⟩, 2⟩, ⟨⟨32, 2, 0⟩, 2⟩, false, ⟨4, 4, 1⟩, ⟨32, 2, 1⟩, 32, 0, 0⟩, by decide, rfl, rfl, by decide, by decide, by decide⟩

example : GridSane ⟨⟨100, 7, 0⟩, 2⟩ ⟨⟨32, 2, 0⟩, 2⟩ := by
  refine ⟨by decide, rfl, ?_, ?_⟩
  all_goals
    intro i hi
    have : i < 2 := hi
    match i, this with
    | 0, _ | 1, _ => decide

/-- a group size that is not there -/
example : (reset 1).dim ≤ 3 ∧ ∃ i < (reset 1).dim, sizeIn (reset 1) i = 0 := ⟨by decide, 0, by decide, rfl⟩

end SixTrack
