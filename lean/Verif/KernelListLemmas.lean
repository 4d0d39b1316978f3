import Verif.KernelList

/-!
# Lemmas about the kernels of a controller
-/

namespace SixTrack.Kernels

theorem config_eq (c : Ctl) (h : c.configs.length ≤ ILLEGAL) (id : Nat) :
    c.config id = (c.configs[id]?).join := by
  unfold Ctl.config
  split
  · rfl
  · rename_i hn
    rw [List.getElem?_eq_none (by omega)]
    rfl

theorem config_of_ge {c : Ctl} {id : Nat} (h : c.configs.length ≤ id) : c.config id = none := by
  unfold Ctl.config
  rw [if_neg (by omega)]

theorem config_congr {c d : Ctl} (h : d.configs = c.configs) (id : Nat) : d.config id = c.config id := by
  unfold Ctl.config
  rw [h]

/-- The number of kernels is the number of configurations that are there. -/
def Ctl.Counts (c : Ctl) : Prop := c.num = c.configs.countP Option.isSome

theorem append_some (c : Ctl) (n : String) (h : c.configs.length < ILLEGAL) :
    c.append (some n) =
      (c.configs.length, { c with configs := c.configs ++ [some n], num := c.num + 1 }) := by
  have hm : c.configs.length % 2^32 = c.configs.length := Nat.mod_eq_of_lt (by unfold ILLEGAL at h; omega)
  have hc : ((c.push n).config c.configs.length).isSome = true := by
    rw [config_eq _ (by simpa [Ctl.push] using Nat.succ_le_of_lt h)]
    simp [Ctl.push]
  simp only [Ctl.append, hm, Ctl.count, hc, if_true]
  rfl

theorem append_configs (c : Ctl) (conf : Option String) :
    (c.append conf).2.configs = c.configs ++ (conf.toList.map some) := by
  cases conf with
  | none => simp [Ctl.append]
  | some n =>
    simp only [Ctl.append, Ctl.count]
    split <;> simp [Ctl.push]

theorem append_rest (c : Ctl) (conf : Option String) : (c.append conf).2.debugId = c.debugId ∧
    (c.append conf).2.remapId = c.remapId ∧ (c.append conf).2.debug = c.debug := by
  cases conf with
  | none => exact ⟨rfl, rfl, rfl⟩
  | some n =>
    simp only [Ctl.append, Ctl.count]
    split <;> exact ⟨rfl, rfl, rfl⟩

theorem remove_rest (c : Ctl) (id : Nat) : (c.remove id).debugId = c.debugId ∧
    (c.remove id).remapId = c.remapId ∧ (c.remove id).debug = c.debug := by
  unfold Ctl.remove
  split <;> exact ⟨rfl, rfl, rfl⟩

theorem remove_length (c : Ctl) (id : Nat) : (c.remove id).configs.length = c.configs.length := by
  unfold Ctl.remove
  split <;> simp

theorem remove_config (c : Ctl) (h : c.configs.length ≤ ILLEGAL) (id j : Nat) :
    (c.remove id).config j = if j = id then none else c.config j := by
  rw [config_eq _ (by rw [remove_length]; exact h), config_eq _ h]
  unfold Ctl.remove
  rw [config_eq _ h]
  split
  · rename_i hs
    simp only [List.getElem?_set]
    by_cases e : id = j
    · subst e
      rw [if_pos rfl, if_pos rfl]
      split <;> rfl
    · rw [if_neg e, if_neg (fun x => e x.symm)]
  · rename_i hs
    split
    · rename_i e
      subst e
      simpa using hs
    · rfl

theorem switch_eq {c : Ctl} {on : Bool} {r : Bool × Ctl} (h : c.switchDebug on = .ok r) :
    ∃ g, c.canSwitch on = .ok g ∧
      r = if g then (c.debug != on, { c with debug := on }) else (false, c) := by
  unfold Ctl.switchDebug at h
  obtain ⟨g, hg, h⟩ := Res.bind_eq_ok.1 h
  refine ⟨g, hg, ?_⟩
  cases g
  · exact ((Res.ok_inj _ _).1 h).symm
  · exact ((Res.ok_inj _ _).1 h).symm

/-- Switching the debug mode changes only its flag. -/
theorem debug_frame {c d : Ctl} {b : Bool} (h : c.step (.debug b) = .ok d) :
    d = c ∨ d = { c with debug := b } := by
  cases b
  · obtain ⟨r, hr, h⟩ := Res.bind_eq_ok.1 h
    cases h
    unfold Ctl.disableDebug at hr
    split at hr
    · obtain ⟨g, -, rfl⟩ := switch_eq hr
      cases g
      · exact .inl rfl
      · exact .inr rfl
    · cases hr
      exact .inl rfl
  · obtain ⟨r, hr, h⟩ := Res.bind_eq_ok.1 h
    cases h
    unfold Ctl.enableDebug at hr
    split at hr
    · cases hr
      exact .inl rfl
    · obtain ⟨g, -, rfl⟩ := switch_eq hr
      cases g
      · exact .inl rfl
      · exact .inr rfl

/-- What a step does to the list. -/
theorem step_configs {c d : Ctl} {o : Op} (h : c.step o = .ok d) :
    d.configs = match o with
      | .append conf => c.configs ++ conf.toList.map some
      | .remove id => (c.remove id).configs
      | _ => c.configs := by
  cases o with
  | append conf => cases h; exact append_configs c conf
  | remove id => cases h; rfl
  | setRemap id => cases h; rfl
  | setDebugRemap id => cases h; rfl
  | setRunning b => cases h; rfl
  | clear => cases h; rfl
  | debug b => rcases debug_frame h with rfl | rfl <;> rfl

theorem step_length {c d : Ctl} {o : Op} (h : c.step o = .ok d) : c.configs.length ≤ d.configs.length := by
  rw [step_configs h]
  cases o with
  | append conf => simp
  | remove id => exact Nat.le_of_eq (remove_length c id).symm
  | _ => exact Nat.le_refl _

theorem run_length {os : List Op} : ∀ {c d : Ctl}, c.run os = .ok d →
    c.configs.length ≤ d.configs.length := by
  induction os with
  | nil => intro c d h; cases h; exact Nat.le_refl _
  | cons o os ih =>
    intro c d h
    obtain ⟨e, he, h⟩ := Res.bind_eq_ok.1 h
    exact Nat.le_trans (step_length he) (ih h)

/-- A step leaves the kernels with other ids alone. -/
theorem step_config {c d : Ctl} {o : Op} (h : c.step o = .ok d) (hl : d.configs.length ≤ ILLEGAL)
    {id : Nat} (hi : id < c.configs.length) :
    d.config id = if o = .remove id then none else c.config id := by
  have hc : c.configs.length ≤ ILLEGAL := Nat.le_trans (step_length h) hl
  have e := step_configs h
  cases o with
  | append conf =>
    rw [if_neg (by simp), config_eq _ hl, config_eq _ hc, e]
    simp only
    rw [List.getElem?_append_left hi]
  | remove j =>
    rw [config_congr (c := c.remove j) e, remove_config c hc]
    by_cases hj : id = j
    · rw [if_pos hj, if_pos (by rw [hj])]
    · rw [if_neg hj, if_neg (by simpa using fun x => hj x.symm)]
  | _ => rw [if_neg (by simp)]; exact config_congr e id

theorem run_config {os : List Op} : ∀ {c d : Ctl}, c.run os = .ok d → d.configs.length ≤ ILLEGAL →
    ∀ {id : Nat}, id < c.configs.length →
      d.config id = if Op.remove id ∈ os then none else c.config id := by
  induction os with
  | nil => intro c d h _ id _; cases h; simp
  | cons o os ih =>
    intro c d h hl id hi
    obtain ⟨e, he, h⟩ := Res.bind_eq_ok.1 h
    rw [ih h hl (Nat.lt_of_lt_of_le hi (step_length he)),
      step_config he (Nat.le_trans (run_length h) hl) hi]
    by_cases h1 : Op.remove id ∈ os
    · simp [h1]
    · by_cases h2 : o = .remove id
      · simp [h2]
      · have h3 : Op.remove id ≠ o := fun x => h2 x.symm
        simp [h1, h2, h3]

theorem countP_set_none {l : List (Option String)} : ∀ {id : Nat}, ((l[id]?).join).isSome = true →
    (l.set id none).countP Option.isSome + 1 = l.countP Option.isSome := by
  induction l with
  | nil => intro id h; simp at h
  | cons x xs ih =>
    intro id h
    cases id with
    | zero =>
      cases x with
      | none => simp at h
      | some n => simp
    | succ id =>
      have := ih (id := id) (by simpa using h)
      simp only [List.set_cons_succ, List.countP_cons]
      omega

theorem step_counts {c d : Ctl} {o : Op} (h : c.step o = .ok d) (hl : d.configs.length ≤ ILLEGAL)
    (hc : c.Counts) : d.Counts := by
  have hcl : c.configs.length ≤ ILLEGAL := Nat.le_trans (step_length h) hl
  cases o with
  | append conf =>
    cases h
    cases conf with
    | none => exact hc
    | some n =>
      have : c.configs.length < ILLEGAL := by
        rw [append_configs] at hl
        simp only [Option.toList_some, List.map_cons, List.map_nil, List.length_append,
          List.length_cons, List.length_nil] at hl
        omega
      rw [append_some c n this]
      simpa [Ctl.Counts] using hc
  | remove id =>
    cases h
    unfold Ctl.remove
    split
    · rename_i hs
      rw [config_eq _ hcl] at hs
      have := countP_set_none hs
      unfold Ctl.Counts at hc ⊢
      simp only
      omega
    · exact hc
  | setRemap id => cases h; exact hc
  | setDebugRemap id => cases h; exact hc
  | setRunning b => cases h; exact hc
  | clear => cases h; exact hc
  | debug b => rcases debug_frame h with rfl | rfl <;> exact hc

theorem run_counts {os : List Op} : ∀ {c d : Ctl}, c.run os = .ok d → d.configs.length ≤ ILLEGAL →
    c.Counts → d.Counts := by
  induction os with
  | nil => intro c d h _ hc; cases h; exact hc
  | cons o os ih =>
    intro c d h hl hc
    obtain ⟨e, he, h⟩ := Res.bind_eq_ok.1 h
    exact ih h hl (step_counts he (Nat.le_trans (run_length h) hl) hc)

/-- The id of the kernel for remapping in debug mode is set by its setter only. -/
theorem step_debugId {c d : Ctl} {o : Op} (h : c.step o = .ok d) (ho : ∀ id, o ≠ .setDebugRemap id) :
    d.debugId = c.debugId := by
  cases o with
  | append conf => cases h; exact (append_rest c conf).1
  | remove id => cases h; exact (remove_rest c id).1
  | setRemap id => cases h; rfl
  | setDebugRemap id => exact absurd rfl (ho id)
  | setRunning b => cases h; rfl
  | clear => cases h; rfl
  | debug b => rcases debug_frame h with rfl | rfl <;> rfl

theorem findLoop_spec (name : String) (hn : name ≠ "") : ∀ (l : List (Option String)) (ii : Nat),
    ii + l.length ≤ ILLEGAL →
    (findLoop name ii l = ILLEGAL ∧ ∀ j : Nat, l[j]? ≠ some (some name)) ∨
    ∃ k : Nat, findLoop name ii l = ii + k ∧ k < l.length ∧ l[k]? = some (some name) ∧
      ∀ j < k, l[j]? ≠ some (some name) := by
  intro l
  induction l with
  | nil => intro ii _; exact .inl ⟨rfl, by simp⟩
  | cons x xs ih =>
    intro ii hl
    simp only [List.length_cons] at hl
    by_cases hx : x = some name
    · refine .inr ⟨0, ?_, by simp, by simp [hx], by simp⟩
      have : ii % 2^32 = ii := Nat.mod_eq_of_lt (by unfold ILLEGAL at hl; omega)
      simp only [hx, findLoop, hn, ne_eq, not_false_eq_true, and_self, if_true, this, Nat.add_zero]
    · have hstep : findLoop name ii (x :: xs) = findLoop name (ii + 1) xs := by
        cases x with
        | none => rfl
        | some n =>
          have : n ≠ name := fun e => hx (by rw [e])
          simp only [findLoop, this, and_false, if_false]
      rw [hstep]
      rcases ih (ii + 1) (by omega) with ⟨h1, h2⟩ | ⟨k, h1, h2, h3, h4⟩
      · refine .inl ⟨h1, ?_⟩
        intro j
        cases j with
        | zero => simpa using hx
        | succ j => simpa using h2 j
      · refine .inr ⟨k + 1, by omega, by simpa using h2, by simpa using h3, ?_⟩
        intro j hj
        cases j with
        | zero => simpa using hx
        | succ j => simpa using h4 j (by omega)

end SixTrack.Kernels
