import Verif.Props.ClTrack

/-!
# C95: from assigning to launching, and where it goes wrong
-/

namespace SixTrack
open ClContext ClRun ClTrack

theorem argsOf_eq {c : Ctx} (h : TidyArgs c) {k : Nat} {x : Kernel} (hx : c.kernels[k]? = some x) :
    argsOf c k = (List.range x.numArgs).map (kArg c k) := by
  have hl := argsOf_length h hx
  apply List.ext_getElem?
  intro i
  rw [List.getElem?_map]
  by_cases hi : i < x.numArgs
  · rw [List.getElem?_range hi, Option.map_some, kArg_eq, List.getElem?_eq_getElem (by omega)]
    rfl
  · rw [List.getElem?_eq_none (by omega), List.getElem?_eq_none (by simp; omega)]
    rfl

theorem Staffed.argsOf {t : Tracker} {K : Task → Nat} (h : Staffed t K) (w : Task) :
    argsOf t.ctx (K w) = (List.range (arity t.ctx.debug w)).map (kArg t.ctx (K w)) := by
  obtain ⟨x, hx, hn⟩ := h.args w
  rw [argsOf_eq h.tidy hx, hn]

theorem Becomes.keep {t : Tracker} {K : Task → Nat} (h : Staffed t K) {c c' : Ctx} {P : Task → Nat → Prop} {v : ClVal}
    (hb : Becomes K c c' P v) {w : Task} {i : Nat} (hp : ¬ P w i) : kArg c' (K w) i = kArg c (K w) i :=
  hb.2.2 _ _ fun w' hw' e => hp (h.inj w' w e ▸ hw')

/-- After the slot size, the particles, the set, the beam line, the configurations and the index of the configuration have
been assigned, the kernels for tracking are launched with just these, whatever was assigned before. -/
theorem C95_whole {t : Tracker} {K : Task → Nat} (h : Staffed t K) (hd : t.ctx.debug = false) {bp be bc : Buf}
    {np ne nc : Nat} (hp : bp.Holds np) (he : be.Holds ne) (hne : 0 < ne) (hc : bc.Holds nc) (slot p n ci : Nat) :
    ∃ t', (t.assignSlot slot >>= fun r => r.2.assignParticles bp >>= fun r => r.2.assignSet p n >>= fun r =>
        r.2.assignElements be >>= fun r => r.2.assignConfig bc >>= fun r => r.2.assignConfigIndex ci) = .ok (true, t') ∧
      t'.particles = n ∧ t'.pset = p ∧ t'.config = ci ∧ t'.calls = t.calls ∧
      (∀ d turn, Ran d t' (K .turn) [some (.buffer bp.mem), some (.value p), some (.buffer be.mem),
        some (.value (turnArg turn)), some (.value slot)] n [some (.buffer bp.mem), some (.value p), some (.buffer be.mem),
        some (.value (turnArg turn)), some (.value slot)] (t'.trackUntil d turn)) ∧
      (∀ d first last finish, Ran d t' (K .line) [some (.buffer bp.mem), some (.value p), some (.buffer be.mem),
        some (.value first), some (.value last), some (.value (if finish then 1 else 0)), some (.value slot)] n
        [some (.buffer bp.mem), some (.value p), some (.buffer be.mem),
        some (.value first), some (.value last), some (.value (if finish then 1 else 0)), some (.value slot)]
        (t'.trackLine d first last finish)) ∧
      (∀ d turn, Ran d t' (K .elem) [some (.buffer bp.mem), some (.value p), some (.buffer be.mem), some (.buffer bc.mem),
        some (.value ci), some (.value turn), some (.value slot)] n [some (.buffer bp.mem), some (.value p),
        some (.buffer be.mem), some (.buffer bc.mem), some (.value ci), some (.value turn), some (.value slot)]
        (t'.trackElem d turn)) := by
  obtain ⟨c1, e1, b1⟩ := C95_slot h slot
  have h1 : Staffed { t with ctx := c1 } K := h.update b1.1 rfl
  obtain ⟨c2, e2, b2⟩ := C95_particles h1 hp
  have h2 : Staffed { t with ctx := c2 } K := h1.update b2.1 rfl
  obtain ⟨c3, e3, b3⟩ := C95_set h2 p n
  have h3 : Staffed { t with ctx := c3, pset := p, particles := n } K := h2.update b3.1 rfl
  obtain ⟨c4, e4, b4⟩ := C95_elements h3 he hne
  have h4 : Staffed { t with ctx := c4, pset := p, particles := n } K := h3.update b4.1 rfl
  obtain ⟨c5, e5, b5⟩ := C95_config h4 hc
  have h5 : Staffed { t with ctx := c5, pset := p, particles := n } K := h4.update b5.1 rfl
  obtain ⟨c6, e6, b6⟩ := C95_config_index h5 ci
  have h6 : Staffed { t with ctx := c6, pset := p, particles := n, config := ci } K := h5.update b6.1 rfl
  have hd6 : c6.debug = false := by
    rw [b6.1.debug, b5.1.debug, b4.1.debug, b3.1.debug, b2.1.debug, b1.1.debug, hd]
  have tells : ∀ d w, Tells d { t with ctx := c6, pset := p, particles := n, config := ci } K w := fun d w hx => by
    rw [hd6] at hx
    exact absurd hx (by simp)
  -- the arguments
  have keep6 := fun w i (hn : ¬ (w, i) ∈ [(Task.elem, 4), (.elemOut, 1)]) => Becomes.keep h b6 (w := w) (i := i) hn
  have keep5 := fun w i (hn : ¬ (w, i) ∈ [(Task.elem, 3), (.elemOut, 0)]) => Becomes.keep h b5 (w := w) (i := i) hn
  have keep4 := fun w i (hn : ¬ (w, i) ∈ [(Task.turn, 2), (.line, 2), (.elem, 2), (.monOut, 0), (.clear, 0)]) =>
    Becomes.keep h b4 (w := w) (i := i) hn
  have keep3 := fun w i (hn : ¬ (w, i) ∈ [(Task.turn, 1), (.line, 1), (.elem, 1)]) => Becomes.keep h b3 (w := w) (i := i) hn
  have keep2 := fun w i (hn : ¬ (w, i) ∈ [(Task.turn, 0), (.line, 0), (.elem, 0), (.fetch, 0)]) =>
    Becomes.keep h b2 (w := w) (i := i) hn
  simp only at keep6 keep5 keep4 keep3 keep2
  have a0 : ∀ w, (w, 0) ∈ [(Task.turn, 0), (.line, 0), (.elem, 0)] → kArg c6 (K w) 0 = some (.buffer bp.mem) := by
    intro w hw
    have hw' : w = .turn ∨ w = .line ∨ w = .elem := by simpa using hw
    rw [keep6 w 0 (by simp), keep5 w 0 (by rcases hw' with rfl | rfl | rfl <;> decide),
      keep4 w 0 (by rcases hw' with rfl | rfl | rfl <;> decide), keep3 w 0 (by simp)]
    exact b2.2.1 w 0 (by rcases hw' with rfl | rfl | rfl <;> decide)
  have a1 : ∀ w, (w, 0) ∈ [(Task.turn, 0), (.line, 0), (.elem, 0)] → kArg c6 (K w) 1 = some (.value p) := by
    intro w hw
    have hw' : w = .turn ∨ w = .line ∨ w = .elem := by simpa using hw
    rw [keep6 w 1 (by rcases hw' with rfl | rfl | rfl <;> decide), keep5 w 1 (by simp), keep4 w 1 (by simp)]
    exact b3.2.1 w 1 (by rcases hw' with rfl | rfl | rfl <;> decide)
  have a2 : ∀ w, (w, 0) ∈ [(Task.turn, 0), (.line, 0), (.elem, 0)] → kArg c6 (K w) 2 = some (.buffer be.mem) := by
    intro w hw
    have hw' : w = .turn ∨ w = .line ∨ w = .elem := by simpa using hw
    rw [keep6 w 2 (by simp), keep5 w 2 (by simp)]
    exact b4.2.1 w 2 (by rcases hw' with rfl | rfl | rfl <;> decide)
  have aslot : ∀ w i, (w, i) ∈ [(Task.turn, 4), (.line, 6), (.elem, 6)] → kArg c6 (K w) i = some (.value slot) := by
    intro w i hw
    have hw' : (w = .turn ∧ i = 4) ∨ (w = .line ∧ i = 6) ∨ (w = .elem ∧ i = 6) := by simpa using hw
    rw [keep6 w i (by rcases hw' with ⟨rfl, rfl⟩ | ⟨rfl, rfl⟩ | ⟨rfl, rfl⟩ <;> decide),
      keep5 w i (by rcases hw' with ⟨rfl, rfl⟩ | ⟨rfl, rfl⟩ | ⟨rfl, rfl⟩ <;> decide),
      keep4 w i (by rcases hw' with ⟨rfl, rfl⟩ | ⟨rfl, rfl⟩ | ⟨rfl, rfl⟩ <;> decide),
      keep3 w i (by rcases hw' with ⟨rfl, rfl⟩ | ⟨rfl, rfl⟩ | ⟨rfl, rfl⟩ <;> decide),
      keep2 w i (by rcases hw' with ⟨rfl, rfl⟩ | ⟨rfl, rfl⟩ | ⟨rfl, rfl⟩ <;> decide)]
    exact b1.2.1 w i (by rcases hw' with ⟨rfl, rfl⟩ | ⟨rfl, rfl⟩ | ⟨rfl, rfl⟩ <;> decide)
  have a3 : kArg c6 (K .elem) 3 = some (.buffer bc.mem) := by
    rw [keep6 _ _ (by decide)]
    exact b5.2.1 .elem 3 (by decide)
  have a4 : kArg c6 (K .elem) 4 = some (.value ci) := b6.2.1 .elem 4 (by decide)
  have rt := h6.argsOf .turn
  have rl := h6.argsOf .line
  have re := h6.argsOf .elem
  simp only [hd6, arity, List.range, List.range.loop, List.map, a0 .turn (by decide), a1 .turn (by decide),
    a2 .turn (by decide), aslot .turn 4 (by decide), a0 .line (by decide), a1 .line (by decide), a2 .line (by decide),
    aslot .line 6 (by decide), a0 .elem (by decide), a1 .elem (by decide), a2 .elem (by decide), aslot .elem 6 (by decide),
    a3, a4, Bool.false_eq_true, if_false] at rt rl re
  refine ⟨{ t with ctx := c6, pset := p, particles := n, config := ci }, ?_, rfl, rfl, rfl, rfl, ?_, ?_, ?_⟩
  · rw [e1, Res.ok_bind]
    simp only
    rw [e2, Res.ok_bind]
    simp only
    rw [e3, Res.ok_bind]
    simp only
    rw [e4, Res.ok_bind]
    simp only
    rw [e5, Res.ok_bind]
    simp only
    rw [e6]
  · intro d turn
    have := C95_until h6 (tells d .turn) turn
    simp only [rt, withValues] at this
    exact this
  · intro d first last finish
    have := C95_line h6 (tells d .line) first last finish
    simp only [rl, withValues] at this
    exact this
  · intro d turn
    have := C95_elem h6 (tells d .elem) turn
    simp only [re, withValues] at this
    exact this

/-! ## Calls that are refused -/

/-- Without a node nothing is launched and nothing changes, and every call fails. -/
theorem C95_no_node (d : Dev) (t : Tracker) (h : t.ctx.hasNode = false) :
    (∀ turn, t.trackUntil d turn = .ok (-1#32, t)) ∧ (∀ turn p n r, t.trackUntilSet d turn p n r = .ok (-1#32, t)) ∧
      (∀ a b f, t.trackLine d a b f = .ok (-1#32, t)) ∧ (∀ a b f p n r, t.trackLineSet d a b f p n r = .ok (-1#32, t)) ∧
      (∀ turn, t.trackElem d turn = .ok (-1#32, t)) ∧ (∀ turn p n r, t.trackElemSet d turn p n r = .ok (-1#32, t)) ∧
      (∀ turn o, t.assignMonitors d turn o = .ok (-1#32, t)) ∧ (∀ o, t.assignElemOut d o = .ok (-1#32, t)) ∧
      t.clearMonitors d = .ok (-1#32, t) ∧ t.fetchAddr d = .ok (-1#32, t) := by
  have hi : ∀ w w', t.idIf w w' = .ok ILLEGAL := fun w w' => by
    unfold Tracker.idIf Tracker.has
    rw [h]
    rfl
  have hid : ∀ w, w ≠ .addr → t.id w = .ok ILLEGAL := fun w hw => by
    cases w
    case addr => exact absurd rfl hw
    all_goals exact hi _ _
  have hc : ∀ w m vs n, w ≠ .addr → t.call d w m vs n = .ok (-1#32, t) := fun w m vs n hw => by
    unfold Tracker.call
    rw [hid w hw, Res.ok_bind, if_neg (by simp [h])]
    rfl
  have hs : ∀ w m vs p n r, w ≠ .addr → t.callSet d w m vs p n r = .ok (-1#32, t) := fun w m vs p n r hw => by
    unfold Tracker.callSet
    rw [hid w hw, Res.ok_bind, if_neg (by simp [h])]
    rfl
  refine ⟨fun _ => hc _ _ _ _ (by decide), fun _ _ _ _ => hs _ _ _ _ _ _ (by decide), fun _ _ _ => hc _ _ _ _ (by decide),
    fun _ _ _ _ _ _ => hs _ _ _ _ _ _ (by decide), fun _ => hc _ _ _ _ (by decide),
    fun _ _ _ _ => hs _ _ _ _ _ _ (by decide), fun _ _ => hc _ _ _ _ (by decide), fun _ => hc _ _ _ _ (by decide),
    hc _ _ _ _ (by decide), ?_⟩
  unfold Tracker.fetchAddr
  rw [hid _ (by decide), Res.ok_bind, if_neg (by simp [h])]
  rfl

/-- A kernel with fewer arguments than its task needs is not launched. -/
theorem C95_too_few (d : Dev) (t : Tracker) (k : Nat) :
    (t.id .turn = .ok k → t.ctx.kernelNumArgs k < 5 → ∀ turn, t.trackUntil d turn = .ok (-1#32, t) ∧
      ∀ p n r, t.trackUntilSet d turn p n r = .ok (-1#32, t)) ∧
    (t.id .line = .ok k → t.ctx.kernelNumArgs k < 7 → ∀ a b f, t.trackLine d a b f = .ok (-1#32, t) ∧
      ∀ p n r, t.trackLineSet d a b f p n r = .ok (-1#32, t)) ∧
    (t.id .elem = .ok k → t.ctx.kernelNumArgs k < 7 → ∀ turn, t.trackElem d turn = .ok (-1#32, t) ∧
      ∀ p n r, t.trackElemSet d turn p n r = .ok (-1#32, t)) ∧
    (t.id .monOut = .ok k → t.ctx.kernelNumArgs k < 5 → ∀ turn o, t.assignMonitors d turn o = .ok (-1#32, t)) ∧
    (t.id .elemOut = .ok k → t.ctx.kernelNumArgs k < 4 → ∀ o, t.assignElemOut d o = .ok (-1#32, t)) ∧
    (t.id .clear = .ok k → t.ctx.kernelNumArgs k < 2 → t.clearMonitors d = .ok (-1#32, t)) := by
  have hc : ∀ w m, t.id w = .ok k → t.ctx.kernelNumArgs k < m → ∀ vs n, t.call d w m vs n = .ok (-1#32, t) :=
    fun w m hi hk vs n => by
      unfold Tracker.call
      rw [hi, Res.ok_bind, if_neg (by omega)]
      rfl
  have hs : ∀ w m, t.id w = .ok k → t.ctx.kernelNumArgs k < m → ∀ vs p n r, t.callSet d w m vs p n r = .ok (-1#32, t) :=
    fun w m hi hk vs p n r => by
      unfold Tracker.callSet
      rw [hi, Res.ok_bind, if_neg (by omega)]
      rfl
  exact ⟨fun hi hk _ => ⟨hc _ _ hi hk _ _, fun _ _ _ => hs _ _ hi hk _ _ _ _⟩,
    fun hi hk _ _ _ => ⟨hc _ _ hi hk _ _, fun _ _ _ => hs _ _ hi hk _ _ _ _⟩,
    fun hi hk _ => ⟨hc _ _ hi hk _ _, fun _ _ _ => hs _ _ hi hk _ _ _ _⟩,
    fun hi hk _ _ => hc _ _ hi hk _ _, fun hi hk _ => hc _ _ hi hk _ _, fun hi hk => hc _ _ hi hk _ _⟩

/-- The call failed and launched nothing. -/
def NotRun (t : Tracker) (r : Res (BitVec 32 × Tracker)) : Prop :=
  ∃ t', r = .ok (-1#32, t') ∧ t'.calls = t.calls ∧ t'.execs = t.execs ∧ t'.flags.device = t.flags.device

private theorem perform_notRun {d : Dev} {t : Tracker} (hd : t.ctx.debug = true) (hw : d.writes = false) (k n : Nat) :
    t.perform d k n = .ok (-1#32, { t with flags := ⟨0#64, t.flags.device⟩ }) := by
  unfold Tracker.perform
  rw [if_neg (by simp [hd]), hw]
  simp only [prepare, setFlags, Bool.false_eq_true, if_false]
  rw [if_neg (by decide)]

private theorem call_notRun {d : Dev} {t : Tracker} {K : Task → Nat} (h : Staffed t K) (hd : t.ctx.debug = true)
    (hw : d.writes = false) (w : Task) {min : Nat} (hm : min ≤ arity true w) (vs : List (Nat × Nat)) (n : Nat) :
    NotRun t (t.call d w min vs n) := by
  obtain ⟨c', h1, -, -, h4⟩ := call_eq (min := min) h d w vs n (by rw [hd]; exact hm)
  rw [h4, perform_notRun (t := { t with ctx := c' }) (by rw [← hd]; exact h1.debug) hw]
  exact ⟨_, rfl, rfl, rfl, rfl⟩

private theorem callSet_notRun {d : Dev} {t : Tracker} {K : Task → Nat} (h : Staffed t K) (hd : t.ctx.debug = true)
    (hw : d.writes = false) (w : Task) {min : Nat} (hm : min ≤ arity true w) (vs : List (Nat × Nat)) (p n : Nat) (r : Bool) :
    NotRun t (t.callSet d w min vs p n r) := by
  obtain ⟨c', h1, h2, -, -⟩ := putValues_eq (K w) ((if t.pset ≠ p then [(1, p)] else []) ++ vs) t.ctx (h.lt w)
  obtain ⟨c'', k1, -⟩ := putValues_eq (K w) (if t.pset ≠ p ∧ r = true then [(1, t.pset)] else []) c'
    (by rw [h2.length]; exact h.lt w)
  rw [callSet_eq h d w vs p n r (by rw [hd]; exact hm) h1,
    perform_notRun (t := { t with ctx := c' }) (by rw [← hd]; exact h2.debug) hw, Res.ok_bind]
  simp only
  rw [k1, Res.ok_bind]
  exact ⟨_, rfl, rfl, rfl, rfl⟩

/-- In debug mode nothing is launched if the status flags cannot be cleared before. -/
theorem C95_debug_refused {d : Dev} {t : Tracker} {K : Task → Nat} (h : Staffed t K) (hd : t.ctx.debug = true)
    (hw : d.writes = false) :
    (∀ turn, NotRun t (t.trackUntil d turn)) ∧ (∀ turn p n r, NotRun t (t.trackUntilSet d turn p n r)) ∧
      (∀ a b f, NotRun t (t.trackLine d a b f)) ∧ (∀ a b f p n r, NotRun t (t.trackLineSet d a b f p n r)) ∧
      (∀ turn, NotRun t (t.trackElem d turn)) ∧ (∀ turn p n r, NotRun t (t.trackElemSet d turn p n r)) ∧
      (∀ turn o, NotRun t (t.assignMonitors d turn o)) ∧ (∀ o, NotRun t (t.assignElemOut d o)) ∧
      NotRun t (t.clearMonitors d) :=
  ⟨fun _ => call_notRun h hd hw _ (by decide) _ _, fun _ _ _ _ => callSet_notRun h hd hw _ (by decide) _ _ _ _,
    fun _ _ _ => call_notRun h hd hw _ (by decide) _ _, fun _ _ _ _ _ _ => callSet_notRun h hd hw _ (by decide) _ _ _ _,
    fun _ => call_notRun h hd hw _ (by decide) _ _, fun _ _ _ _ => callSet_notRun h hd hw _ (by decide) _ _ _ _,
    fun _ _ => call_notRun h hd hw _ (by decide) _ _, fun _ => call_notRun h hd hw _ (by decide) _ _,
    call_notRun h hd hw _ (by decide) _ _⟩

/-- Addresses are not assigned if a number of a buffer is 0, an argument has no C buffer or is not one of this context, or a
slot size is 0. -/
theorem C95_addresses_refused {d : Dev} {t : Tracker} {K : Task → Nat} (h : Staffed t K) {items dest src : Buf}
    {destId srcId : Nat}
    (hbad : items.cobj = none ∨ dest.cobj = none ∨ src.cobj = none ∨ destId = 0 ∨ srcId = 0 ∨ items.mine = false ∨
      dest.mine = false ∨ src.mine = false ∨ (∃ n, 0 < n ∧ items.cobj = some (n, 0)) ∨
      ((∃ n s, 0 < n ∧ items.cobj = some (n, s)) ∧ ∃ n, dest.cobj = some (n, 0))) :
    t.assignAddresses d items dest destId src srcId = .ok (-1#32, t) := by
  unfold Tracker.assignAddresses
  rw [h.id, Res.ok_bind]
  rcases hi : items.cobj with _ | ⟨n, is⟩ <;> rcases hd : dest.cobj with _ | ⟨m, ds⟩ <;>
    rcases hs : src.cobj with _ | ⟨k, ss⟩ <;> try rfl
  simp only
  rw [hi, hd, hs] at hbad
  split_ifs with hc hn h0
  · exfalso
    obtain ⟨-, c1, c2, c3, c4, c5⟩ := hc
    simp only [ILLEGAL_BUFFER] at c1 c2
    simp only [c3, c4, c5, c1, c2, reduceCtorEq, false_or, Option.some.injEq, Prod.mk.injEq, Bool.true_eq_false] at hbad
    rcases hbad with ⟨a, ha, hb, -⟩ | ⟨⟨a, b, ha, hb, -⟩, -⟩ <;> omega
  · exfalso
    obtain ⟨-, c1, c2, c3, c4, c5⟩ := hc
    simp only [ILLEGAL_BUFFER] at c1 c2
    simp only [c3, c4, c5, c1, c2, reduceCtorEq, false_or, Option.some.injEq, Prod.mk.injEq, Bool.true_eq_false] at hbad
    rcases hbad with ⟨a, ha, -, hb⟩ | ⟨-, ⟨a, -, hb⟩⟩ <;> omega
  · rfl
  · rfl

/-! ## A context that is ready -/

/-- all arguments of all kernels have been set -/
def clReadyKernels (debug : Bool) : List Kernel :=
  (clTrackKernels debug).map fun x =>
    { x with cl := (List.range x.numArgs).map fun i => some (if i = 0 ∨ i = 2 then .buffer (10 + i)
                                                    else if debug ∧ i + 1 = x.numArgs then .buffer 77 else .value 0) }

/-- a context whose kernels have been given arguments -/
def clReady (debug : Bool) : Tracker :=
  { clTracker debug with ctx := { (clTracker debug).ctx with kernels := clReadyKernels debug } }

theorem clReady_staffed (debug : Bool) : Staffed (clReady debug) clTrackIds where
  node := rfl
  tidy := by
    intro k x hx
    have hm : x ∈ clReadyKernels debug := List.mem_of_getElem? hx
    have : ∀ x ∈ clReadyKernels debug, x.cl.length = x.numArgs := by cases debug <;> decide +kernel
    exact this x hm
  legal := by cases debug <;> decide +kernel
  ids _ := rfl
  inj := (clTracker_staffed debug).inj
  args w := by cases w <;> exact ⟨_, rfl, rfl⟩

/-- a device that takes every launch -/
def clTakes (flags : BitVec 64) : Dev := ⟨⟨true, none⟩, true, true, flags⟩

example : Tells (clTakes 5#64) (clReady true) clTrackIds .turn ∧ Tells (clTakes 5#64) (clReady true) clTrackIds .line ∧
    Tells (clTakes 5#64) (clReady true) clTrackIds .elem ∧ Tells (clTakes 5#64) (clReady true) clTrackIds .monOut ∧
    Tells (clTakes 5#64) (clReady true) clTrackIds .elemOut ∧ SetSelected (clReady true) clTrackIds .turn ∧
    SetSelected (clReady true) clTrackIds .line ∧ SetSelected (clReady true) clTrackIds .elem := by
  refine ⟨fun _ => ?_, fun _ => ?_, fun _ => ?_, fun _ => ?_, fun _ => ?_, ?_, ?_, ?_⟩ <;>
    first | (unfold SetSelected; decide +kernel) | decide +kernel

example : Taken (clTakes 0) (withValues (argsOf (clReady false).ctx 1) [(3, 100)]) (lastGroup (clReady false) 1) 10 := by
  decide +kernel

example : some (.buffer (clReady true).flagsId) ∉ argsOf (clReady false).ctx (clTrackIds .fetch) := by decide +kernel

/-- what has been launched: the arguments and the numbers of work items -/
def launched (r : Res (BitVec 32 × Tracker)) : Res (BitVec 32 × List (List (Option ClVal) × Nat)) :=
  r >>= fun x => .ok (x.1, x.2.calls.map fun c => (c.args, c.launch.items))

/-- addresses to assign -/
def clTwoItems : Buf := ⟨4, 40, true, some (2, 8)⟩

example : launched ((clReady true).assignAddresses (clTakes 0) clTwoItems clTwoObjects 1 clTwoObjects 2) = .ok (0#32,
    [([some (.buffer 40), some (.value 8), some (.buffer 11), some (.value 8), some (.value 1), some (.buffer 11),
      some (.value 8), some (.value 2)], 2)]) ∧
    ∀ b ∈ [clTwoItems, clTwoObjects], b.mem ≠ (clReady true).flagsId := by decide +kernel

example : clTrackerShort.id .elem = .ok 2 ∧ clTrackerShort.ctx.kernelNumArgs 2 < 7 := by decide +kernel

example : clTwoItems.mine = true ∧ ({ clTwoItems with mine := false } : Buf).mine = false := ⟨rfl, rfl⟩

/-! ## What goes wrong -/

/-- If the set is not to be restored, the context still takes the set selected before for the current one, but the kernel has
kept the other: tracking the selected set after that tracks the other one, with or without saying which. -/
theorem C95_stale_violated : ∃ (d : Dev) (t : Tracker) (K : Task → Nat), Staffed t K ∧ SetSelected t K .turn ∧ t.pset = 0 ∧
    (∃ t', t.trackUntilSet d 5 1 10 false = .ok (0#32, t') ∧ t'.pset = 0 ∧
      launched (t'.trackUntil d 6) = .ok (0#32,
        [([some (.buffer 10), some (.value 1), some (.buffer 12), some (.value 5), some (.value 0)], 10),
         ([some (.buffer 10), some (.value 1), some (.buffer 12), some (.value 6), some (.value 0)], 10)]) ∧
      launched (t'.trackUntilSet d 6 0 10 true) = launched (t'.trackUntil d 6)) := by
  refine ⟨clTakes 0, clReady false, clTrackIds, clReady_staffed false, by unfold SetSelected; decide +kernel, rfl, _, rfl, rfl, ?_, ?_⟩
  · decide +kernel
  · decide +kernel

/-- Tracking a set element by element launches as many work items as the selected set has particles, not as many as given. -/
theorem C95_items_violated : ∃ (d : Dev) (t : Tracker) (K : Task → Nat), Staffed t K ∧ SetSelected t K .elem ∧
    launched (t.trackElemSet d 5 1 20 true) = .ok (0#32,
      [([some (.buffer 10), some (.value 1), some (.buffer 12), some (.value 0), some (.value 0), some (.value 5),
        some (.value 0)], 10)]) :=
  ⟨clTakes 0, clReady false, clTrackIds, clReady_staffed false, by unfold SetSelected; decide +kernel, by decide +kernel⟩

/-- If the slots of the source have another size than those of the destination, addresses are assigned with the size of the
destination for both. -/
theorem C95_slots_violated : ∃ (d : Dev) (t : Tracker) (K : Task → Nat) (items dest src : Buf), Staffed t K ∧
    dest.cobj = some (3, 8) ∧ src.cobj = some (3, 16) ∧
    launched (t.assignAddresses d items dest 1 src 2) = .ok (0#32,
      [([some (.buffer 20), some (.value 8), some (.buffer 21), some (.value 8), some (.value 1), some (.buffer 22),
        some (.value 8), some (.value 2)], 2)]) :=
  ⟨clTakes 0, clReady false, clTrackIds, ⟨1, 20, true, some (2, 8)⟩, ⟨2, 21, true, some (3, 8)⟩, ⟨3, 22, true, some (3, 16)⟩,
    clReady_staffed false, rfl, rfl, by decide +kernel⟩

/-- A kernel for assigning addresses whose id has never been written is used all the same. -/
theorem C95_unset_addr_violated (d : Dev) (t : Tracker) (h : t.kernel .addr = none) (items dest src : Buf) (i j : Nat) :
    t.assignAddresses d items dest i src j = .ub := by
  unfold Tracker.assignAddresses Tracker.id
  rw [h]
  rfl

example : ∃ t : Tracker, t.kernel .addr = none := ⟨{ clTracker false with kernel := fun _ => none }, rfl⟩

end SixTrack
