import Verif.ClTrackLemmas

/-! # Lemmas about the launches of the OpenCL context for tracking -/

namespace SixTrack
open ClContext ClRun ClTrack

/-- a list of arguments with some values replaced, one after another -/
def withValues (l : List (Option ClVal)) : List (Nat × Nat) → List (Option ClVal)
  | [] => l
  | (i, v) :: rest => withValues (l.set i (some (.value v))) rest

theorem withValues_length (vs : List (Nat × Nat)) : ∀ l, (withValues l vs).length = l.length := by
  induction vs with
  | nil => exact fun l => rfl
  | cons p vs ih =>
    intro l
    obtain ⟨i, v⟩ := p
    simp [withValues, ih]

theorem argsOf_length {c : Ctx} (h : TidyArgs c) {k : Nat} {x : Kernel} (hx : c.kernels[k]? = some x) :
    (argsOf c k).length = x.numArgs := by
  simp [argsOf, hx, h k x hx]

theorem argsOf_assign (c : Ctx) (k i : Nat) (a : Arg) (v : ClVal) (j : Nat) :
    argsOf (c.assign k i a v) j = if j = k then (argsOf c j).set i (some v) else argsOf c j := by
  unfold argsOf Ctx.assign
  simp only [List.getElem?_modify]
  cases hx : c.kernels[j]? with
  | none => simp
  | some x =>
    by_cases hj : j = k
    · simp [hj, (setBoth_shape x i a v).2]
    · simp [hj, Ne.symm hj]

theorem kArg_eq (c : Ctx) (k i : Nat) : kArg c k i = ((argsOf c k)[i]?).join := by
  unfold kArg argsOf
  cases c.kernels[k]? <;> simp

theorem putValues_eq (k : Nat) (vs : List (Nat × Nat)) : ∀ (c : Ctx), k < c.kernels.length →
    ∃ c', putValues c k vs = .ok c' ∧ OnlyArgs c c' ∧ argsOf c' k = withValues (argsOf c k) vs ∧
      ∀ j, j ≠ k → argsOf c' j = argsOf c j := by
  induction vs with
  | nil => exact fun c _ => ⟨c, rfl, OnlyArgs.refl c, rfl, fun j _ => rfl⟩
  | cons p vs ih =>
    obtain ⟨i, v⟩ := p
    intro c hk
    have hoa := OnlyArgs.assign c k i ⟨.value, none⟩ (.value v)
    obtain ⟨c', h1, h2, h3, h4⟩ := ih (c.assign k i ⟨.value, none⟩ (.value v)) (by rw [hoa.length]; exact hk)
    refine ⟨c', ?_, hoa.trans h2, ?_, fun j hj => ?_⟩
    · unfold putValues put
      rw [if_pos hk, Res.ok_bind, h1]
    · rw [h3, argsOf_assign, if_pos rfl]
      rfl
    · rw [h4 j hj, argsOf_assign, if_neg hj]

/-- The record of the last launch of a kernel. -/
def lastGroup (t : Tracker) (k : Nat) : Nat := (execOf t.execs k).lastGroup

/-- Whether OpenCL takes a launch of `n` work items with these arguments in groups of this size. -/
def Taken (d : Dev) (args : List (Option ClVal)) (group n : Nat) : Prop :=
  d.run.ok = true ∧ (∀ a ∈ args, a ≠ none) ∧ 0 < launchItems group n

instance (d : Dev) (args : List (Option ClVal)) (group n : Nat) : Decidable (Taken d args group n) := by
  unfold Taken; infer_instance

/-- What OpenCL is asked to launch. -/
def launchOf (group n : Nat) : Launch := ⟨launchItems group n, if group = 0 then none else some group⟩

theorem runKernel_third (d : Device) (b : Bool) (c : Ctx) (xs : List Exec) (k n g : Nat) :
    (runKernel { d with ok := b } c xs k n g).2.2 = (runKernel d c xs k n g).2.2 := by
  unfold runKernel
  by_cases h : k < c.kernels.length
  · rw [if_pos h, if_pos h]
    cases d.times <;> rfl
  · rw [if_neg h, if_neg h]

theorem launch_spec (d : Dev) (t : Tracker) {k : Nat} (n g : Nat) (hk : k < t.ctx.kernels.length) :
    t.launch d k n g =
      if Taken d (argsOf t.ctx k) g n then
        (true, { t with execs := (runKernel d.run t.ctx t.execs k n g).2.2
                        calls := t.calls ++ [⟨k, argsOf t.ctx k, launchOf g n⟩], flags := flagsAfter d t k })
      else (false, { t with execs := (runKernel d.run t.ctx t.execs k n g).2.2 }) := by
  have hall : (argsOf t.ctx k).all Option.isSome = true ↔ ∀ a ∈ argsOf t.ctx k, a ≠ none := by
    rw [List.all_eq_true]
    exact forall₂_congr fun a _ => Option.isSome_iff_ne_none
  have hg : (if g ≠ 0 then some g else none) = (if g = 0 then none else some g) := by split_ifs <;> simp_all
  unfold Tracker.launch
  have h3 := runKernel_third d.run
    (d.run.ok && (argsOf t.ctx k).all Option.isSome && decide (0 < launchItems g n)) t.ctx t.execs k n g
  have h12 : ∀ b, (runKernel { d.run with ok := b } t.ctx t.execs k n g).1 = b ∧
      (runKernel { d.run with ok := b } t.ctx t.execs k n g).2.1 = some (launchOf g n) := fun b => by
    unfold runKernel launchOf
    rw [if_pos hk]
    cases d.run.times <;> simp only [hg] <;> exact ⟨trivial, trivial⟩
  generalize hb : (d.run.ok && (argsOf t.ctx k).all Option.isSome && decide (0 < launchItems g n)) = b at h3 ⊢
  have h12 := h12 b
  rcases hr : runKernel { d.run with ok := b } t.ctx t.execs k n g with ⟨r1, r2, r3⟩
  rw [hr] at h12 h3
  obtain ⟨h1, h2⟩ := h12
  simp only at h1 h2 h3
  rw [h1, h2]
  have hb' : b = true ↔ Taken d (argsOf t.ctx k) g n := by
    rw [← hb]
    simp only [Bool.and_eq_true, decide_eq_true_eq, hall, Taken, and_assoc]
  by_cases hT : Taken d (argsOf t.ctx k) g n
  · rw [if_pos hT, hb'.2 hT, h3]
  · rw [if_neg hT]
    have : b = false := by
      rw [← Bool.not_eq_true, hb']
      exact hT
    rw [this, h3]

/-- The groups of the next launches are those of before. -/
theorem groups_kept (d : Device) (c : Ctx) (xs : List Exec) (k n : Nat) (j : Nat) :
    (execOf (runKernel d c xs k n (execOf xs k).lastGroup).2.2 j).lastGroup = (execOf xs j).lastGroup := by
  unfold runKernel
  by_cases h : k < c.kernels.length
  · rw [if_pos h]
    cases d.times with
    | none => rfl
    | some t =>
      simp only
      unfold record execOf
      rw [List.getElem?_modify]
      by_cases hj : k = j
      · subst hj
        cases hx : xs[k]? <;> simp
      · cases hx : xs[j]? <;> simp [hj]
  · rw [if_neg h]

/-- The records after a launch like the last one. -/
def execsAfter (d : Dev) (t : Tracker) (k n : Nat) : List Exec := (runKernel d.run t.ctx t.execs k n (lastGroup t k)).2.2

/-- A launch outside of debug mode. -/
theorem perform_plain (d : Dev) (t : Tracker) {k : Nat} (n : Nat) (hk : k < t.ctx.kernels.length) (hd : t.ctx.debug = false) :
    t.perform d k n = .ok (
      if Taken d (argsOf t.ctx k) (lastGroup t k) n then
        (0#32, { t with execs := execsAfter d t k n
                        calls := t.calls ++ [⟨k, argsOf t.ctx k, launchOf (lastGroup t k) n⟩] })
      else (-1#32, { t with execs := execsAfter d t k n })) := by
  unfold Tracker.perform Tracker.again
  rw [if_pos hd, launch_spec d t n _ hk]
  have hfl : flagsAfter d t k = t.flags := by simp [flagsAfter, hd]
  unfold lastGroup execsAfter
  by_cases hT : Taken d (argsOf t.ctx k) (execOf t.execs k).lastGroup n
  · rw [if_pos hT, if_pos hT, hfl]
    rfl
  · rw [if_neg hT, if_neg hT]
    rfl

theorem launch_ctx (d : Dev) (t : Tracker) (k n g : Nat) : (t.launch d k n g).2.ctx = t.ctx ∧
    (t.launch d k n g).2.kernel = t.kernel ∧ (t.launch d k n g).2.pset = t.pset ∧
    (t.launch d k n g).2.particles = t.particles ∧ (t.launch d k n g).2.config = t.config ∧
    (t.launch d k n g).2.flagsId = t.flagsId ∧ (t.launch d k n g).2.prog = t.prog := by
  unfold Tracker.launch
  simp only
  split <;> exact ⟨rfl, rfl, rfl, rfl, rfl, rfl, rfl⟩

/-- A launch changes no argument and no member that says what to do. -/
theorem perform_keeps {d : Dev} {t : Tracker} {k n : Nat} {r : BitVec 32 × Tracker} (h : t.perform d k n = .ok r) :
    r.2.ctx = t.ctx ∧ r.2.kernel = t.kernel ∧ r.2.pset = t.pset ∧ r.2.particles = t.particles ∧ r.2.config = t.config ∧
      r.2.flagsId = t.flagsId ∧ r.2.prog = t.prog := by
  unfold Tracker.perform Tracker.again at h
  by_cases hd : t.ctx.debug = false
  · rw [if_pos hd] at h
    rw [← Res.ok.inj h]
    exact launch_ctx d t k n _
  · rw [if_neg hd] at h
    simp only at h
    by_cases hp : (prepare d.writes t.flags).1 = 0#32
    · rw [if_pos hp] at h
      have hl := launch_ctx d { t with flags := (prepare d.writes t.flags).2 } k n
        (execOf t.execs k).lastGroup
      generalize Tracker.launch d { t with flags := (prepare d.writes t.flags).2 } k n (execOf t.execs k).lastGroup = z at h hl
      by_cases hz : z.1 = true
      · rw [if_pos hz] at h
        obtain ⟨s, hs, h⟩ := Res.bind_eq_ok.1 h
        rw [Res.pure_eq] at h
        rw [← Res.ok.inj h]
        exact hl
      · rw [if_neg hz] at h
        rw [← Res.ok.inj h]
        exact hl
    · rw [if_neg hp] at h
      rw [← Res.ok.inj h]
      exact ⟨rfl, rfl, rfl, rfl, rfl, rfl, rfl⟩

/-! ## Calls -/

theorem call_eq {t : Tracker} {K : Task → Nat} (h : Staffed t K) (d : Dev) (w : Task) {min : Nat} (vs : List (Nat × Nat))
    (n : Nat) (hm : min ≤ arity t.ctx.debug w) :
    ∃ c', OnlyArgs t.ctx c' ∧ argsOf c' (K w) = withValues (argsOf t.ctx (K w)) vs ∧
      (∀ j, j ≠ K w → argsOf c' j = argsOf t.ctx j) ∧
      t.call d w min vs n = Tracker.perform d { t with ctx := c' } (K w) n := by
  obtain ⟨c', h1, h2, h3, h4⟩ := putValues_eq (K w) vs t.ctx (h.lt w)
  refine ⟨c', h2, h3, h4, ?_⟩
  unfold Tracker.call
  rw [h.id, Res.ok_bind, if_pos ⟨h.node, by rw [h.numArgs]; exact hm⟩, h1, Res.ok_bind]

theorem callSet_eq {t : Tracker} {K : Task → Nat} (h : Staffed t K) (d : Dev) (w : Task) {min : Nat} (vs : List (Nat × Nat))
    (p n : Nat) (restore : Bool) (hm : min ≤ arity t.ctx.debug w) {c' : Ctx}
    (hp : putValues t.ctx (K w) ((if t.pset ≠ p then [(1, p)] else []) ++ vs) = .ok c') :
    t.callSet d w min vs p n restore = (Tracker.perform d { t with ctx := c' } (K w) n >>= fun r =>
      putValues r.2.ctx (K w) (if t.pset ≠ p ∧ restore = true then [(1, t.pset)] else []) >>= fun c =>
      .ok (r.1, { r.2 with ctx := c })) := by
  unfold Tracker.callSet
  rw [h.id, Res.ok_bind, if_pos ⟨h.node, by rw [h.numArgs]; exact hm⟩, hp, Res.ok_bind]
  rfl

end SixTrack
