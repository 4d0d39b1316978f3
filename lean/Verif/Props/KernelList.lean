import Verif.KernelListLemmas

/-!
# Property C82: the id of a kernel leads to that kernel until the kernel is removed
-/

namespace SixTrack
open Kernels

/-- Adding a kernel gives a new id under which it is found, and changes no other kernel. -/
theorem C82_append (c : Ctl) (n : String) (h : c.configs.length < ILLEGAL) :
    c.config (c.append (some n)).1 = none ∧ (c.append (some n)).1 ≠ ILLEGAL ∧
    (c.append (some n)).2.config (c.append (some n)).1 = some n ∧
    (∀ j, j ≠ (c.append (some n)).1 → (c.append (some n)).2.config j = c.config j) ∧
    c.append none = (ILLEGAL, c) := by
  rw [append_some c n h]
  refine ⟨config_of_ge (Nat.le_refl _), Nat.ne_of_lt h, ?_, ?_, rfl⟩
  · rw [config_eq _ (by simpa using Nat.succ_le_of_lt h)]
    simp
  · intro j hj
    simp only at hj
    rw [config_eq _ (by simpa using Nat.succ_le_of_lt h), config_eq _ (Nat.le_of_lt h)]
    rcases Nat.lt_or_gt_of_ne hj with hj | hj
    · simp only [List.getElem?_append_left hj]
    · rw [List.getElem?_eq_none (by simpa using Nat.succ_le_of_lt hj),
        List.getElem?_eq_none (Nat.le_of_lt hj)]

/-- Whatever is done afterwards, the id leads to the same kernel until the kernel is removed, and to
none once it has been removed: ids are not used again. -/
theorem C82_id (c d : Ctl) (n : String) (os : List Op) (hl : d.configs.length ≤ ILLEGAL)
    (h : (c.append (some n)).2.run os = .ok d) :
    d.config (c.append (some n)).1 =
      if Op.remove (c.append (some n)).1 ∈ os then none else some n := by
  have hlen := run_length h
  have hc : c.configs.length < ILLEGAL := by
    rw [append_configs] at hlen
    simp only [Option.toList_some, List.map_cons, List.map_nil, List.length_append,
      List.length_cons, List.length_nil] at hlen
    omega
  rw [run_config h hl (by rw [append_some c n hc]; simp), (C82_append c n hc).2.2.1]

example : ∃ d, (new.append (some "k")).2.run
      [.append (some "l"), .remove 1, .setRemap 0, .append (some "l"), .clear] = .ok d ∧
    d.config 0 = some "k" ∧ d.config 1 = none ∧ d.config 2 = some "l" := ⟨_, rfl, by decide⟩

/-- Two kernels that are added one after the other never get the same id, even if the first is removed
in between. -/
theorem C82_ids_differ (c d : Ctl) (m n : String) (os : List Op) (hl : d.configs.length < ILLEGAL)
    (h : (c.append (some m)).2.run os = .ok d) :
    (c.append (some m)).1 < (d.append (some n)).1 := by
  have hlen := run_length h
  have hlen' := hlen
  rw [append_configs] at hlen'
  simp only [Option.toList_some, List.map_cons, List.map_nil, List.length_append,
    List.length_cons, List.length_nil] at hlen'
  rw [append_some d n hl, append_some c m (by omega)]
  simp only
  omega

/-- The number of kernels is the number of ids that lead to a kernel. -/
theorem C82_number (c : Ctl) (os : List Op) (h : new.run os = .ok c) (hl : c.configs.length ≤ ILLEGAL) :
    c.num = ((List.range ILLEGAL).filter c.has).length := by
  have e : c.num = c.configs.countP Option.isSome := run_counts h hl rfl
  have hsplit : List.range ILLEGAL = List.range c.configs.length ++
      (List.range (ILLEGAL - c.configs.length)).map (c.configs.length + ·) := by
    rw [← List.range_add]
    congr 1
    omega
  have h0 : ((List.range (ILLEGAL - c.configs.length)).map (c.configs.length + ·)).countP c.has = 0 := by
    rw [List.countP_eq_zero]
    intro j hj
    obtain ⟨i, -, rfl⟩ := List.mem_map.1 hj
    unfold Ctl.has
    rw [config_of_ge (Nat.le_add_right _ _)]
    simp
  rw [e, ← List.countP_eq_length_filter, hsplit, List.countP_append, h0, Nat.add_zero]
  have hh : c.configs = (List.range c.configs.length).map (fun i => c.config i) := by
    apply List.ext_getElem?
    intro i
    rw [List.getElem?_map]
    by_cases hi : i < c.configs.length
    · rw [List.getElem?_range hi, Option.map_some, config_eq _ hl, List.getElem?_eq_getElem hi]
      rfl
    · rw [List.getElem?_eq_none (by omega), List.getElem?_eq_none (by simpa using hi)]
      rfl
  refine (congrArg (List.countP Option.isSome) hh).trans ?_
  rw [List.countP_map]
  rfl

example : ∃ c, new.run [.append (some "a"), .append none, .append (some ""), .remove 0, .remove 7] = .ok c ∧
    c.num = 1 ∧ c.configs.length = 2 := ⟨_, rfl, by decide⟩

/-- A kernel is found under a name if some kernel has that name, and then it is the one with the
lowest id. -/
theorem C82_find (c : Ctl) (name : String) (hn : name ≠ "") (hl : c.configs.length ≤ ILLEGAL) :
    (c.find (some name) = ILLEGAL ↔ ∀ j, c.config j ≠ some name) ∧
    (∀ id, id ≠ ILLEGAL → (c.find (some name) = id ↔
      c.config id = some name ∧ ∀ j < id, c.config j ≠ some name)) ∧
    (c.hasName (some name) = true ↔ ∃ j, c.config j = some name) := by
  have hj : ∀ j : Nat, c.config j = some name ↔ c.configs[j]? = some (some name) := by
    intro j
    rw [config_eq _ hl]
    cases c.configs[j]? <;> simp
  have hf : c.find (some name) = findLoop name 0 c.configs := by simp [Ctl.find, hn]
  unfold Ctl.hasName
  rcases findLoop_spec name hn c.configs 0 (by omega) with ⟨h1, h2⟩ | ⟨k, h1, h2, h3, h4⟩
  · have none' : ∀ j, c.config j ≠ some name := fun j e => h2 j ((hj j).1 e)
    refine ⟨⟨fun _ => none', fun _ => hf.trans h1⟩, ?_, ?_⟩
    · intro id hid
      rw [hf, h1]
      exact ⟨fun e => absurd e.symm hid, fun e => absurd e.1 (none' id)⟩
    · rw [hf, h1]
      refine ⟨fun e => ?_, fun ⟨j, e⟩ => absurd e (none' j)⟩
      exact absurd e (by simp [Ctl.config])
  · rw [Nat.zero_add] at h1
    have hk : k ≠ ILLEGAL := by omega
    have kn : c.config k = some name := (hj k).2 h3
    refine ⟨?_, ?_, ?_⟩
    · rw [hf, h1]
      exact ⟨fun e => absurd e hk, fun e => absurd kn (e k)⟩
    · intro id _
      rw [hf, h1]
      constructor
      · rintro rfl
        exact ⟨kn, fun j hlt e => h4 j hlt ((hj j).1 e)⟩
      · rintro ⟨e1, e2⟩
        rcases Nat.lt_trichotomy k id with h | h | h
        · exact absurd kn (e2 k h)
        · exact h
        · exact absurd ((hj id).1 e1) (h4 id h)
    · rw [hf, h1, kn]
      exact ⟨fun _ => ⟨k, kn⟩, fun _ => rfl⟩

/-- "A kernel that has been added is found under its name" fails for a second kernel of that name and
for a kernel without a name. -/
theorem C82_find_violated :
    (∃ c d : Ctl, c.append (some "k") = (1, d) ∧ d.config 1 = some "k" ∧ d.find (some "k") = 0) ∧
    (∀ c : Ctl, c.find (some "") = ILLEGAL ∧ c.find none = ILLEGAL) :=
  ⟨⟨(new.append (some "k")).2, _, rfl, by decide, by decide⟩, fun c => ⟨rfl, rfl⟩⟩

/-- Only an assertion keeps the list from growing beyond the ids: the kernel number `2^32 - 1` gets the
illegal id and is not counted, and the next one gets the id of the first kernel. -/
theorem C82_full_violated (c : Ctl) (n : String) :
    (c.configs.length = ILLEGAL → (c.append (some n)).1 = ILLEGAL ∧
      (c.append (some n)).2.num = c.num ∧ ∀ j, (c.append (some n)).2.config j = c.config j) ∧
    (c.configs.length = ILLEGAL + 1 → (c.append (some n)).1 = 0) := by
  constructor
  · intro h
    have hm : ILLEGAL % 2^32 = ILLEGAL := by decide
    have hn : ((c.push n).config ILLEGAL).isSome = false := by simp [Ctl.config]
    have e : c.append (some n) = (ILLEGAL, c.push n) := by
      simp only [Ctl.append, h, hm, Ctl.count, hn, Bool.false_eq_true, if_false]
    rw [e]
    refine ⟨rfl, rfl, ?_⟩
    intro j
    unfold Ctl.config
    simp only [Ctl.push, List.length_append, List.length_cons, List.length_nil]
    by_cases hj : j < c.configs.length
    · rw [if_pos ⟨by omega, by omega⟩, if_pos ⟨by omega, hj⟩, List.getElem?_append_left hj]
    · rw [if_neg (by omega), if_neg (by omega)]
  · intro h
    simp only [Ctl.append, h]
    decide

example : ({ new with configs := List.replicate ILLEGAL (some "k") } : Ctl).configs.length = ILLEGAL :=
  List.length_replicate

/-! ## the debug mode -/

/-- The controller changes its mode exactly if it has the kernel for remapping in the new mode; else
nothing changes. -/
theorem C82_debug_switch_partial (c : Ctl) (id : Nat) (h : c.debugId = some id) :
    (c.debug = false → c.enableDebug =
      .ok (if c.has id then (true, { c with debug := true }) else (false, c))) ∧
    (c.debug = true → c.disableDebug =
      .ok (if c.has c.remapId then (true, { c with debug := false }) else (false, c))) ∧
    (c.debug = true → c.enableDebug = .ok (true, c)) ∧
    (c.debug = false → c.disableDebug = .ok (true, c)) ∧
    c.readyForRemap = .ok (c.running && if c.debug then c.has id else c.has c.remapId) := by
  refine ⟨?_, ?_, ?_, ?_, ?_⟩
  · intro hd
    simp only [Ctl.enableDebug, hd, Ctl.switchDebug, Ctl.canSwitch, Ctl.hasRemapDebug, h, Res.ok_bind,
      Bool.false_eq_true, if_false, if_true, Res.pure_eq]
    cases c.has id <;> rfl
  · intro hd
    simp only [Ctl.disableDebug, hd, Ctl.switchDebug, Ctl.canSwitch, Ctl.hasRemap, Res.ok_bind,
      Bool.false_eq_true, if_false, if_true, Res.pure_eq]
    cases c.has c.remapId <;> rfl
  · intro hd
    simp only [Ctl.enableDebug, hd, if_true]
  · intro hd
    simp only [Ctl.disableDebug, hd, Bool.false_eq_true, if_false]
  · unfold Ctl.readyForRemap Ctl.hasRemapDebug Ctl.hasRemap
    rw [h]
    cases c.running <;> cases c.debug <;> simp

example : ∃ c, new.run [.append (some "r"), .append (some "d"), .setRemap 0, .setDebugRemap 1,
      .setRunning true, .debug true] = .ok c ∧
    c.debugId = some 1 ∧ c.debug = true ∧ c.readyForRemap = .ok true := ⟨_, rfl, by decide⟩

/-- As long as nobody has set the id of the kernel for remapping in debug mode, turning the debug mode
on is undefined behaviour: the constructor gives that id no value. -/
theorem C82_debug_unset_violated (os : List Op) (hos : ∀ id, Op.setDebugRemap id ∉ os) (c : Ctl)
    (h : new.run os = .ok c) : c.debug = false ∧ c.enableDebug = .ub ∧ Op.debug true ∉ os := by
  have key : ∀ (os : List Op) (c d : Ctl), (∀ id, Op.setDebugRemap id ∉ os) → c.debugId = none →
      c.debug = false → c.run os = .ok d → d.debugId = none ∧ d.debug = false ∧ Op.debug true ∉ os := by
    intro os
    induction os with
    | nil => intro c d _ h1 h2 h; cases h; exact ⟨h1, h2, by simp⟩
    | cons o os ih =>
      intro c d ho h1 h2 h
      obtain ⟨e, he, h⟩ := Res.bind_eq_ok.1 h
      have hid : e.debugId = none :=
        (step_debugId he (fun id x => ho id (by simp [x]))).trans h1
      have hub : c.step (.debug true) = .ub := by
        simp only [Ctl.step, Ctl.enableDebug, h2, Ctl.switchDebug, Ctl.canSwitch, Ctl.hasRemapDebug, h1,
          Bool.false_eq_true, if_false, if_true, Res.ub_bind]
      have hne : o ≠ .debug true := by
        rintro rfl
        rw [hub] at he
        exact absurd he (by simp)
      have hd : e.debug = false := by
        cases o with
        | append conf => cases he; exact (append_rest c conf).2.2.trans h2
        | remove id => cases he; exact (remove_rest c id).2.2.trans h2
        | setRemap id => cases he; exact h2
        | setDebugRemap id => cases he; exact h2
        | setRunning b => cases he; exact h2
        | clear => cases he; exact h2
        | debug b =>
          cases b
          · rcases debug_frame he with rfl | rfl
            · exact h2
            · rfl
          · exact absurd rfl hne
      obtain ⟨a, b, g⟩ := ih e d (fun id x => ho id (by simp [x])) hid hd h
      exact ⟨a, b, by simp [g, hne.symm]⟩
  obtain ⟨a, b, g⟩ := key os new c hos rfl rfl h
  refine ⟨b, ?_, g⟩
  simp only [Ctl.enableDebug, b, Ctl.switchDebug, Ctl.canSwitch, Ctl.hasRemapDebug, a,
    Bool.false_eq_true, if_false, if_true, Res.ub_bind]

example : ∃ c, new.run [.append (some "r"), .setRemap 0, .setRunning true, .debug false] = .ok c ∧
    c.readyForRemap = .ok true ∧ c.enableDebug = .ub := ⟨_, rfl, by decide⟩

/-- "Clearing a controller removes its kernels" fails: all kernels stay, and so does the id for the
debug mode. Only the id for the plain mode is dropped, so that a controller that is cleared in debug
mode cannot leave it. -/
theorem C82_clear_violated (c : Ctl) :
    (∀ id, c.clear.config id = c.config id) ∧ c.clear.num = c.num ∧ c.clear.debugId = c.debugId ∧
    c.clear.hasRemap = false ∧ c.clear.readyForRemap = .ok false ∧
    (c.debug = true → c.clear.disableDebug = .ok (false, c.clear)) := by
  refine ⟨fun id => config_congr rfl id, rfl, rfl, ?_, rfl, ?_⟩
  · simp [Ctl.clear, Ctl.hasRemap, Ctl.has, Ctl.config]
  · intro h
    have hr : c.clear.hasRemap = false := by simp [Ctl.clear, Ctl.hasRemap, Ctl.has, Ctl.config]
    have hd : c.clear.debug = true := h
    simp only [Ctl.disableDebug, hd, Ctl.switchDebug, Ctl.canSwitch, hr, Res.ok_bind,
      Bool.false_eq_true, if_false, if_true, Res.pure_eq]

example : ∃ c, new.run [.append (some "r"), .append (some "d"), .setRemap 0, .setDebugRemap 1,
      .debug true] = .ok c ∧ c.debug = true ∧ c.clear.config 1 = some "d" := ⟨_, rfl, by decide⟩

/-! ## selecting a node -/

/-- Selecting a CUDA node leaves the controller with both kernels for remapping, if both can be set up. -/
theorem C82_select (c : Ctl) (hl : c.configs.length + 1 < ILLEGAL) :
    (c.selectCuda true true).1 = true ∧
    (c.selectCuda true true).2.config (c.selectCuda true true).2.remapId = some REMAP ∧
    (∃ id, (c.selectCuda true true).2.debugId = some id ∧
      (c.selectCuda true true).2.config id = some REMAP_DEBUG) ∧
    (∀ j < c.configs.length, (c.selectCuda true true).2.config j = c.config j) := by
  have e : (c.selectCuda true true) = (true, { c with
      configs := c.configs ++ [some REMAP] ++ [some REMAP_DEBUG], num := c.num + 1 + 1,
      remapId := c.configs.length, debugId := some (c.configs.length + 1) }) := by
    unfold Ctl.selectCuda
    simp only [if_true]
    rw [append_some c _ (by omega)]
    simp only
    rw [append_some _ _ (by simpa using hl)]
    simp
  have hl' : (c.configs ++ [some REMAP] ++ [some REMAP_DEBUG]).length ≤ ILLEGAL := by
    simp only [List.length_append, List.length_cons, List.length_nil]
    omega
  rw [e]
  refine ⟨rfl, ?_, ⟨_, rfl, ?_⟩, ?_⟩
  · rw [config_eq _ hl']
    simp
  · rw [config_eq _ hl']
    simp
  · intro j hj
    rw [config_eq _ hl', config_eq _ (by omega)]
    simp only
    rw [List.append_assoc, List.getElem?_append_left hj]

example : new.configs.length + 1 < ILLEGAL := by decide

/-- Selecting again adds the two kernels again: the old ones stay, and the names lead to the old ones.
And the status is that of the second kernel, so that selecting succeeds although the controller has no
kernel for remapping. -/
theorem C82_select_violated :
    (∃ c : Ctl, c = (new.selectCuda true true).2 ∧ c.num = 2 ∧ (c.selectCuda true true).2.num = 4 ∧
      (c.selectCuda true true).2.remapId = 2 ∧ (c.selectCuda true true).2.find (some REMAP) = 0) ∧
    (∀ c : Ctl, (c.selectCuda false true).1 = true ∧ (c.selectCuda false true).2.hasRemap = false) := by
  refine ⟨⟨_, rfl, by decide, by decide, by decide, by decide⟩, ?_⟩
  intro c
  refine ⟨rfl, ?_⟩
  unfold Ctl.selectCuda
  simp only [Bool.false_eq_true, if_false, if_true]
  simp only [Ctl.hasRemap, Ctl.has, Ctl.config, (append_rest _ _).2.1]
  simp

/-- A new controller has no kernel for remapping, whatever kernels are added to it, until one is set. -/
theorem C82_no_remap (os : List Op) (hos : ∀ id, Op.setRemap id ∉ os) (c : Ctl) (h : new.run os = .ok c) :
    c.hasRemap = false := by
  have step : ∀ (o : Op) (c d : Ctl), (∀ id, o ≠ Op.setRemap id) → c.remapId = ILLEGAL →
      c.step o = .ok d → d.remapId = ILLEGAL := by
    intro o c d ho hc h
    have sw : ∀ (on : Bool) (r : Bool × Ctl), c.switchDebug on = .ok r → r.2.remapId = ILLEGAL := by
      intro on r hr
      unfold Ctl.switchDebug at hr
      obtain ⟨b, _, hr⟩ := Res.bind_eq_ok.1 hr
      cases b <;> (cases hr; exact hc)
    cases o with
    | append conf =>
      cases h
      cases conf with
      | none => exact hc
      | some n => unfold Ctl.append Ctl.count; simp only; split <;> exact hc
    | remove id => cases h; unfold Ctl.remove; split <;> exact hc
    | setRemap id => exact absurd rfl (ho id)
    | setDebugRemap id => cases h; exact hc
    | setRunning flag => cases h; exact hc
    | clear => cases h; rfl
    | debug on =>
      cases on
      · obtain ⟨r, hr, h⟩ := Res.bind_eq_ok.1 h
        cases h
        unfold Ctl.disableDebug at hr
        split at hr
        · exact sw _ _ hr
        · cases hr; exact hc
      · obtain ⟨r, hr, h⟩ := Res.bind_eq_ok.1 h
        cases h
        unfold Ctl.enableDebug at hr
        split at hr
        · cases hr; exact hc
        · exact sw _ _ hr
  have key : ∀ (os : List Op) (c d : Ctl), (∀ id, Op.setRemap id ∉ os) → c.remapId = ILLEGAL →
      c.run os = .ok d → d.remapId = ILLEGAL := by
    intro os
    induction os with
    | nil => intro c d _ hc h; cases h; exact hc
    | cons o os ih =>
      intro c d ho hc h
      obtain ⟨e, he, h⟩ := Res.bind_eq_ok.1 h
      exact ih e d (fun id hm => ho id (List.mem_cons_of_mem _ hm))
        (step o c e (fun id hh => ho id (by rw [hh]; exact List.mem_cons_self)) hc he) h
  have := key os new c hos rfl h
  simp [Ctl.hasRemap, Ctl.has, Ctl.config, this]

example : ∃ c, new.run [.append (some "k"), .append (some "l")] = .ok c ∧ c.has 0 = true := ⟨_, rfl, by decide⟩

end SixTrack
