import Verif.Argument

/-!
# Lemmas about arguments and transfers
-/

namespace SixTrack.Arg

/-- What is true of an argument at any time. -/
structure Arg.Ok (a : Arg) : Prop where
  size : a.size ≤ a.cap
  dev : ∀ d, a.dev = some d → d.length = a.cap ∧ a.has = true
  none : a.dev = none → a.cap = 0
  cxx : ∀ i, a.cxx = some i → a.c99 = some i

/-- Remapping keeps the number of bytes. -/
def Fmt.Keeps (f : Fmt) : Prop := ∀ a x y, f.rebase a x = some y → y.length = x.length

theorem new_ok (c : Option Ctl) : (Arg.new c).Ok :=
  ⟨Nat.le_refl _, by simp [Arg.new], fun _ => rfl, by simp [Arg.new]⟩

theorem Arg.Ok.setRaw {a : Arg} (h : a.Ok) (p : Option Nat) : Arg.Ok { a with raw := p } :=
  ⟨h.size, h.dev, h.none, h.cxx⟩

theorem Arg.Ok.setC {a : Arg} (h : a.Ok) (p : Option Nat) : (a.setC p).Ok := by
  refine ⟨h.size, h.dev, h.none, ?_⟩
  intro i hi
  simp only [Arg.setC] at hi ⊢
  split at hi
  · exact absurd hi (by simp)
  · rename_i hn
    have hs : a.cxx.isSome := by rw [hi]; rfl
    have : a.cxx = p := by
      apply Decidable.byContradiction
      intro hc
      exact hn ⟨hs, hc⟩
    rw [← this, hi]

theorem Arg.Ok.setCxx {a : Arg} (h : a.Ok) (i : Nat) : (a.setCxx i).Ok :=
  ⟨h.size, h.dev, h.none, fun _ hj => hj⟩

theorem Arg.Ok.dropCxx {a : Arg} (h : a.Ok) : Arg.Ok { a with cxx := Option.none } :=
  ⟨h.size, h.dev, h.none, fun _ hj => absurd hj (by simp)⟩

theorem Arg.Ok.dropBuffers {a : Arg} (h : a.Ok) : a.dropBuffers.Ok := by
  unfold Arg.dropBuffers
  split
  · exact h.dropCxx
  · split
    · exact h.setC _
    · exact h

theorem reserve_ok {a : Arg} (h : a.Ok) (c : Ctl) (n : Nat) : (a.reserve c n).2.Ok := by
  unfold Arg.reserve
  split
  · split
    · unfold Arg.reset Arg.delete
      cases hd : a.dev with
      | none =>
        refine ⟨?_, ?_, ?_, ?_⟩
        · have := h.none hd
          have := h.size
          simp only [Option.isSome_none, Bool.false_eq_true, if_false]
          omega
        · intro d he
          simp at he ⊢
          rw [← he]
          simp
        · simp
        · simpa [hd] using h.cxx
      | some d =>
        refine ⟨?_, ?_, ?_, ?_⟩ <;> simp
    · exact h
  · refine ⟨h.size, ?_, h.none, h.cxx⟩
    intro d hd
    exact ⟨(h.dev d hd).1, rfl⟩

theorem reserve_cap {a : Arg} {c : Ctl} {n : Nat} (h : (a.reserve c n).1 = true) :
    n ≤ (a.reserve c n).2.cap := by
  unfold Arg.reserve at h ⊢
  split at h
  · split at h
    · rename_i h1 h2
      simp only [h1, h2, if_true]
      simp [Arg.reset]
    · exact absurd h (by simp)
  · rename_i h1
    simp only [h1, if_false]
    omega

theorem ensure_ok {a : Arg} (h : a.Ok) (c : Ctl) (n : Nat) : (a.ensure c n).2.1.Ok := by
  unfold Arg.ensure
  split
  · exact reserve_ok h c n
  · exact h

theorem ensure_cap {a : Arg} {c : Ctl} {n : Nat} (h : (a.ensure c n).1 = true) :
    n ≤ (a.ensure c n).2.1.cap := by
  unfold Arg.ensure at h ⊢
  split at h
  · rename_i h1
    simp only [h1, if_true]
    exact reserve_cap h
  · rename_i h1
    simp only [h1, if_false]
    omega

/-- What the argument refers to after it has got enough memory. -/
theorem ensure_refs {a : Arg} {c : Ctl} {n : Nat} (h : (a.ensure c n).1 = true) :
    (a.cap < n ∧ a.dev ≠ none ∧ (a.ensure c n).2.2 = true ∧ (a.ensure c n).2.1.raw = none ∧
      (a.ensure c n).2.1.cxx = none ∧ (a.ensure c n).2.1.c99 = none) ∨
    (a.cap < n ∧ a.dev = none ∧ (a.ensure c n).2.2 = true ∧ (a.ensure c n).2.1.raw = a.raw ∧
      (a.ensure c n).2.1.cxx = a.cxx ∧ (a.ensure c n).2.1.c99 = a.c99) ∨
    (n ≤ a.cap ∧ (a.ensure c n).2.2 = false ∧ (a.ensure c n).2.1.raw = a.raw ∧
      (a.ensure c n).2.1.cxx = a.cxx ∧ (a.ensure c n).2.1.c99 = a.c99) := by
  unfold Arg.ensure at h ⊢
  by_cases hc : a.cap < n
  · simp only [hc, if_true] at h ⊢
    unfold Arg.reserve at h ⊢
    simp only [hc, if_true] at h ⊢
    by_cases ha : c.alloc n
    · simp only [ha, if_true]
      cases hd : a.dev with
      | none => simp [Arg.reset, hd]
      | some d => simp [Arg.reset, Arg.delete, hd]
    · simp [ha] at h
  · simp only [hc, if_false]
    right
    right
    simp only [and_true]
    omega

/-- Without new memory nothing happens to the data of the device. -/
theorem ensure_fail {a : Arg} {c : Ctl} {n : Nat} (h : (a.ensure c n).1 = false) :
    (a.ensure c n).2.1 = a ∧ a.cap < n := by
  unfold Arg.ensure at h ⊢
  by_cases hc : a.cap < n
  · simp only [hc, if_true] at h ⊢
    unfold Arg.reserve at h ⊢
    simp only [hc, if_true] at h ⊢
    by_cases ha : c.alloc n
    · simp [ha] at h
    · simp [ha]
  · simp [hc] at h

theorem overwrite_eq {d x y : Bytes} (h : overwrite d x = .ok y) :
    x.length ≤ d.length ∧ y = x ++ d.drop x.length := by
  unfold overwrite at h
  split at h
  · exact ⟨‹_›, ((Res.ok_inj _ _).1 h).symm⟩
  · exact absurd h (by simp)

theorem readFirst_eq {s x : Bytes} {n : Nat} (h : readFirst s n = .ok x) :
    n ≤ s.length ∧ x = s.take n ∧ x.length = n := by
  unfold readFirst at h
  split at h
  · have e := ((Res.ok_inj _ _).1 h).symm
    refine ⟨‹_›, e, ?_⟩
    rw [e, List.length_take]
    omega
  · exact absurd h (by simp)

/-- What a copy to the device does. -/
theorem doSend_eq {c : Ctl} {a : Arg} {src : Bytes} {n : Nat} {r : Bool × Arg}
    (h : doSend c a src n = .ok r) :
    (r = (false, a) ∨ ∃ d, a.has = true ∧ a.dev = some d ∧ n ≤ src.length ∧ n ≤ d.length ∧
      r = (true, { a with dev := some (src.take n ++ d.drop n) })) := by
  unfold doSend at h
  split at h
  · rename_i d hh hd
    split at h
    · right
      obtain ⟨x, hx, h⟩ := Res.bind_eq_ok.1 h
      obtain ⟨y, hy, h⟩ := Res.bind_eq_ok.1 h
      obtain ⟨h1, h2, h3⟩ := readFirst_eq hx
      obtain ⟨h4, h5⟩ := overwrite_eq hy
      refine ⟨d, hh, hd, h1, by omega, ?_⟩
      rw [← (Res.ok_inj _ _).1 h, h5, h3, h2]
    · exact Or.inl ((Res.ok_inj _ _).1 h).symm
  · exact Or.inl ((Res.ok_inj _ _).1 h).symm

/-- What remapping on the device does. -/
theorem doRemap_eq (f : Fmt) (c : Ctl) (a : Arg) :
    (∃ d e, a.dev = some d ∧ f.rebase c.devAddr d = some e ∧
      doRemap f c a = (true, { a with dev := some e })) ∨
    (∃ d, a.dev = some d ∧ f.rebase c.devAddr d = none ∧ doRemap f c a = (!c.debug, a)) ∨
    doRemap f c a = (false, a) := by
  unfold doRemap
  split
  · rename_i d h1 h2 h3
    split
    · cases hr : f.rebase c.devAddr d with
      | none => exact Or.inr (Or.inl ⟨d, h3, hr, rfl⟩)
      | some e => exact Or.inl ⟨d, e, h3, hr, rfl⟩
    · exact Or.inr (Or.inr rfl)
  · exact Or.inr (Or.inr rfl)

/-- What sending a buffer through the controller does. -/
theorem ctlSendBuf_eq {f : Fmt} {c : Ctl} {a : Arg} {h : Host} {i : Nat} {remap : Bool} {r : Bool × Arg}
    (hr : ctlSendBuf f c a h i remap = .ok r) :
    r = (false, a) ∨ ∃ d, a.has = true ∧ a.dev = some d ∧ h.size i ≤ (h.mem (.buf i)).length ∧
      h.size i ≤ d.length ∧ 0 < h.size i ∧ a.c99.isSome ∧
      (let e := (h.mem (.buf i)).take (h.size i) ++ d.drop (h.size i)
       (remap = false ∧ r = (true, { a with dev := some e })) ∨
       (remap = true ∧ ((∃ e', f.rebase c.devAddr e = some e' ∧ r = (true, { a with dev := some e' })) ∨
         (f.rebase c.devAddr e = none ∧ r = (!c.debug, { a with dev := some e })) ∨
         r = (false, { a with dev := some e })))) := by
  unfold ctlSendBuf at hr
  split at hr
  · rename_i hc
    obtain ⟨s, hs, hr⟩ := Res.bind_eq_ok.1 hr
    rcases doSend_eq hs with he | ⟨d, h1, h2, h3, h4, he⟩
    · subst he
      simp at hr
      exact Or.inl hr.symm
    · right
      refine ⟨d, h1, h2, h3, h4, hc.2.2.2.2.2.1, hc.2.2.1, ?_⟩
      subst he
      cases remap with
      | false =>
        left
        simp at hr
        exact ⟨rfl, hr.symm⟩
      | true =>
        right
        refine ⟨rfl, ?_⟩
        simp only [and_self, if_true, Res.pure_eq] at hr
        have hr := ((Res.ok_inj _ _).1 hr).symm
        rcases doRemap_eq f c { a with dev := some ((h.mem (.buf i)).take (h.size i) ++
            d.drop (h.size i)) } with ⟨d', e', g1, g2, g3⟩ | ⟨d', g1, g2, g3⟩ | g3
        · cases g1
          exact Or.inl ⟨e', g2, hr.trans g3⟩
        · cases g1
          exact Or.inr (Or.inl ⟨g2, hr.trans g3⟩)
        · exact Or.inr (Or.inr (hr.trans g3))
  · exact Or.inl ((Res.ok_inj _ _).1 hr).symm

theorem ctlSendRaw_eq {c : Ctl} {a : Arg} {h : Host} {p n : Nat} {r : Bool × Arg}
    (hr : ctlSendRaw c a h p n = .ok r) :
    r = (false, a) ∨ ∃ d, a.has = true ∧ a.dev = some d ∧ n ≤ (h.mem (.raw p)).length ∧ n ≤ d.length ∧
      0 < n ∧ r = (true, { a with dev := some ((h.mem (.raw p)).take n ++ d.drop n) }) := by
  unfold ctlSendRaw at hr
  split at hr
  · rename_i hc
    rcases doSend_eq hr with he | ⟨d, h1, h2, h3, h4, he⟩
    · exact Or.inl he
    · exact Or.inr ⟨d, h1, h2, h3, h4, hc.2.2.2.2.1, he⟩
  · exact Or.inl ((Res.ok_inj _ _).1 hr).symm

theorem Arg.Ok.setDev {a : Arg} (h : a.Ok) {d e : Bytes} (hd : a.dev = some d) (he : e.length = d.length) :
    Arg.Ok { a with dev := some e } := by
  refine ⟨h.size, ?_, by simp, h.cxx⟩
  intro e' he'
  cases he'
  exact ⟨he.trans (h.dev d hd).1, (h.dev d hd).2⟩

theorem take_drop_length {s d : Bytes} {n : Nat} (h1 : n ≤ s.length) (h2 : n ≤ d.length) :
    (s.take n ++ d.drop n).length = d.length := by
  simp only [List.length_append, List.length_take, List.length_drop]
  omega

theorem ctlSendBuf_ok {f : Fmt} (hf : f.Keeps) {c : Ctl} {a : Arg} (ha : a.Ok) {h : Host} {i : Nat}
    {remap : Bool} {r : Bool × Arg} (hr : ctlSendBuf f c a h i remap = .ok r) :
    r.2.Ok ∧ r.2.cap = a.cap := by
  rcases ctlSendBuf_eq hr with e | ⟨d, h1, h2, h3, h4, _, _, e⟩
  · subst e
    exact ⟨ha, rfl⟩
  · have hl := take_drop_length h3 h4
    rcases e with ⟨_, e⟩ | ⟨_, ⟨e', g1, e⟩ | ⟨_, e⟩ | e⟩
    · subst e
      exact ⟨ha.setDev h2 hl, rfl⟩
    · subst e
      exact ⟨ha.setDev h2 ((hf _ _ _ g1).trans hl), rfl⟩
    · subst e
      exact ⟨ha.setDev h2 hl, rfl⟩
    · subst e
      exact ⟨ha.setDev h2 hl, rfl⟩

theorem ctlSendRaw_ok {c : Ctl} {a : Arg} (ha : a.Ok) {h : Host} {p n : Nat} {r : Bool × Arg}
    (hr : ctlSendRaw c a h p n = .ok r) : r.2.Ok ∧ r.2.cap = a.cap := by
  rcases ctlSendRaw_eq hr with e | ⟨d, h1, h2, h3, h4, _, e⟩
  · subst e
    exact ⟨ha, rfl⟩
  · subst e
    exact ⟨ha.setDev h2 (take_drop_length h3 h4), rfl⟩

theorem sent_ok {r : Bool × Arg} (h : r.2.Ok) {n : Nat} (hn : n ≤ r.2.cap) : (Arg.sent n r).2.Ok := by
  unfold Arg.sent
  split
  · exact ⟨hn, h.dev, h.none, h.cxx⟩
  · exact h

/-- Sending a buffer, step by step. -/
theorem sendCxx_eq {f : Fmt} {a : Arg} {h : Host} {i : Nat} {remap : Bool} {r : Bool × Arg}
    (hr : sendCxx f a h i remap = .ok r) :
    (a.ctl = none ∧ r = (false, a)) ∨ ∃ c, a.ctl = some c ∧
      ((Arg.ensure { a with raw := none } c (h.size i)).1 = false ∧ r = (false, { a with raw := none }) ∨
       (Arg.ensure { a with raw := none } c (h.size i)).1 = true ∧
        ∃ s, ctlSendBuf f c (cxxTarget (Arg.ensure { a with raw := none } c (h.size i)) i) h i remap =
          .ok s ∧ r = Arg.sent (h.size i) s) := by
  unfold sendCxx at hr
  split at hr
  · exact Or.inl ⟨‹_›, ((Res.ok_inj _ _).1 hr).symm⟩
  · rename_i c hc
    refine Or.inr ⟨c, hc, ?_⟩
    split at hr
    · obtain ⟨s, hs, hr⟩ := Res.bind_eq_ok.1 hr
      exact Or.inr ⟨‹_›, s, hs, ((Res.ok_inj _ _).1 hr).symm⟩
    · rename_i hn
      have hn : (Arg.ensure { a with raw := none } c (h.size i)).1 = false := by simpa using hn
      refine Or.inl ⟨hn, ?_⟩
      rw [← (Res.ok_inj _ _).1 hr, (ensure_fail hn).1]

theorem sendC_eq {f : Fmt} {a : Arg} {h : Host} {i : Nat} {remap : Bool} {r : Bool × Arg}
    (hr : sendC f a h i remap = .ok r) :
    (a.ctl = none ∧ r = (false, a)) ∨ ∃ c, a.ctl = some c ∧
      ((Arg.ensure { a with raw := none } c (h.size i)).1 = false ∧ r = (false, { a with raw := none }) ∨
       (Arg.ensure { a with raw := none } c (h.size i)).1 = true ∧
        ∃ s, ctlSendBuf f c (cTarget (Arg.ensure { a with raw := none } c (h.size i)) i) h i remap =
          .ok s ∧ r = Arg.sent (h.size i) s) := by
  unfold sendC at hr
  split at hr
  · exact Or.inl ⟨‹_›, ((Res.ok_inj _ _).1 hr).symm⟩
  · rename_i c hc
    refine Or.inr ⟨c, hc, ?_⟩
    split at hr
    · obtain ⟨s, hs, hr⟩ := Res.bind_eq_ok.1 hr
      exact Or.inr ⟨‹_›, s, hs, ((Res.ok_inj _ _).1 hr).symm⟩
    · rename_i hn
      have hn : (Arg.ensure { a with raw := none } c (h.size i)).1 = false := by simpa using hn
      refine Or.inl ⟨hn, ?_⟩
      rw [← (Res.ok_inj _ _).1 hr, (ensure_fail hn).1]

theorem sendRaw_eq {a : Arg} {h : Host} {p n : Nat} {r : Bool × Arg}
    (hr : sendRaw a h p n = .ok r) :
    ((a.ctl = none ∨ n = 0) ∧ r = (false, a)) ∨ ∃ c, a.ctl = some c ∧ 0 < n ∧
      ((a.dropBuffers.ensure c n).1 = false ∧ r = (false, a.dropBuffers) ∨
       (a.dropBuffers.ensure c n).1 = true ∧
        ∃ s, ctlSendRaw c (rawTarget (a.dropBuffers.ensure c n) p) h p n = .ok s ∧
          r = Arg.sent n s) := by
  unfold sendRaw at hr
  split at hr
  · exact Or.inl ⟨Or.inl ‹_›, ((Res.ok_inj _ _).1 hr).symm⟩
  · rename_i c hc
    split at hr
    · rename_i hpos
      refine Or.inr ⟨c, hc, hpos, ?_⟩
      split at hr
      · obtain ⟨s, hs, hr⟩ := Res.bind_eq_ok.1 hr
        exact Or.inr ⟨‹_›, s, hs, ((Res.ok_inj _ _).1 hr).symm⟩
      · rename_i hn
        have hn : (a.dropBuffers.ensure c n).1 = false := by simpa using hn
        refine Or.inl ⟨hn, ?_⟩
        rw [← (Res.ok_inj _ _).1 hr, (ensure_fail hn).1]
    · exact Or.inl ⟨Or.inr (by omega), ((Res.ok_inj _ _).1 hr).symm⟩

theorem cxxTarget_ok {r : Bool × Arg × Bool} (h : r.2.1.Ok) (i : Nat) :
    (cxxTarget r i).Ok ∧ (cxxTarget r i).cap = r.2.1.cap := by
  unfold cxxTarget
  split
  · exact ⟨h.setCxx i, rfl⟩
  · exact ⟨h, rfl⟩

theorem cTarget_ok {r : Bool × Arg × Bool} (h : r.2.1.Ok) (i : Nat) :
    (cTarget r i).Ok ∧ (cTarget r i).cap = r.2.1.cap := by
  unfold cTarget
  split
  · exact ⟨h.setC _, rfl⟩
  · exact ⟨h, rfl⟩

theorem rawTarget_ok {r : Bool × Arg × Bool} (h : r.2.1.Ok) (p : Nat) :
    (rawTarget r p).Ok ∧ (rawTarget r p).cap = r.2.1.cap := by
  unfold rawTarget
  split
  · exact ⟨h.setRaw _, rfl⟩
  · exact ⟨h, rfl⟩

theorem sendCxx_ok {f : Fmt} (hf : f.Keeps) {a : Arg} (ha : a.Ok) {h : Host} {i : Nat} {remap : Bool}
    {r : Bool × Arg} (hr : sendCxx f a h i remap = .ok r) : r.2.Ok := by
  rcases sendCxx_eq hr with ⟨_, e⟩ | ⟨c, _, ⟨_, e⟩ | ⟨he, s, hs, e⟩⟩
  · exact e ▸ ha
  · exact e ▸ ha.setRaw _
  · obtain ⟨g1, g2⟩ := cxxTarget_ok (ensure_ok (ha.setRaw none) c (h.size i)) i
    obtain ⟨k1, k2⟩ := ctlSendBuf_ok hf g1 hs
    rw [e]
    exact sent_ok k1 (by rw [k2, g2]; exact ensure_cap he)

theorem sendC_ok {f : Fmt} (hf : f.Keeps) {a : Arg} (ha : a.Ok) {h : Host} {i : Nat} {remap : Bool}
    {r : Bool × Arg} (hr : sendC f a h i remap = .ok r) : r.2.Ok := by
  rcases sendC_eq hr with ⟨_, e⟩ | ⟨c, _, ⟨_, e⟩ | ⟨he, s, hs, e⟩⟩
  · exact e ▸ ha
  · exact e ▸ ha.setRaw _
  · obtain ⟨g1, g2⟩ := cTarget_ok (ensure_ok (ha.setRaw none) c (h.size i)) i
    obtain ⟨k1, k2⟩ := ctlSendBuf_ok hf g1 hs
    rw [e]
    exact sent_ok k1 (by rw [k2, g2]; exact ensure_cap he)

theorem sendRaw_ok {a : Arg} (ha : a.Ok) {h : Host} {p n : Nat} {r : Bool × Arg}
    (hr : sendRaw a h p n = .ok r) : r.2.Ok := by
  rcases sendRaw_eq hr with ⟨_, e⟩ | ⟨c, _, _, ⟨_, e⟩ | ⟨he, s, hs, e⟩⟩
  · exact e ▸ ha
  · exact e ▸ ha.dropBuffers
  · obtain ⟨g1, g2⟩ := rawTarget_ok (ensure_ok ha.dropBuffers c n) p
    obtain ⟨k1, k2⟩ := ctlSendRaw_ok g1 hs
    rw [e]
    exact sent_ok k1 (by rw [k2, g2]; exact ensure_cap he)

theorem send_ok {f : Fmt} (hf : f.Keeps) {a : Arg} (ha : a.Ok) {h : Host} {remap : Bool}
    {r : Bool × Arg} (hr : send f a h remap = .ok r) : r.2.Ok := by
  unfold send at hr
  split at hr
  · exact sendCxx_ok hf ha hr
  · exact sendC_ok hf ha hr
  · exact sendRaw_ok ha hr
  · rw [← (Res.ok_inj _ _).1 hr]
    exact ha

/-! ## what the device has after a transfer -/

/-- The argument has these bytes on the device. -/
def Arg.Holds (a : Arg) (x : Bytes) : Prop :=
  a.size = x.length ∧ ∃ d, a.dev = some d ∧ d.take x.length = x

theorem holds_take {a : Arg} {d : Bytes} (hd : a.dev = some d) (hs : a.size ≤ d.length) :
    a.Holds (d.take a.size) := by
  refine ⟨by simp; omega, d, hd, ?_⟩
  simp

theorem sent_true {n : Nat} {r : Bool × Arg} {a' : Arg} (h : Arg.sent n r = (true, a')) :
    r.1 = true ∧ a' = { r.2 with size := n } := by
  unfold Arg.sent at h
  split at h
  · exact ⟨‹_›, (congrArg Prod.snd h).symm⟩
  · rename_i hn
    exact absurd (congrArg Prod.fst h) hn

/-- A successful send of raw memory, step by step. -/
theorem sendRaw_true {a a' : Arg} {h : Host} {p n : Nat} (hr : sendRaw a h p n = .ok (true, a')) :
    ∃ (c : Ctl) (d : Bytes), a.ctl = some c ∧ 0 < n ∧ (a.dropBuffers.ensure c n).1 = true ∧
      n ≤ (h.mem (.raw p)).length ∧
      n ≤ d.length ∧
      a' = { rawTarget (a.dropBuffers.ensure c n) p with
        dev := some ((h.mem (.raw p)).take n ++ d.drop n), size := n } := by
  rcases sendRaw_eq hr with ⟨_, e⟩ | ⟨c, hc, hn, ⟨_, e⟩ | ⟨he, s, hs, e⟩⟩
  · exact absurd (congrArg Prod.fst e) (by simp)
  · exact absurd (congrArg Prod.fst e) (by simp)
  · obtain ⟨g1, g2⟩ := sent_true e.symm
    rcases ctlSendRaw_eq hs with k | ⟨d, _, _, k3, k4, _, k⟩
    · rw [k] at g1
      exact absurd g1 (by simp)
    · refine ⟨c, d, hc, hn, he, k3, k4, ?_⟩
      rw [g2, k]

/-- A successful send of a buffer through the controller. -/
theorem ctlSendBuf_true {f : Fmt} {c : Ctl} {a : Arg} {h : Host} {i : Nat} {remap : Bool} {s : Bool × Arg}
    (hs : ctlSendBuf f c a h i remap = .ok s) (ht : s.1 = true) :
    ∃ (d e : Bytes), s.2 = { a with dev := some e } ∧ h.size i ≤ (h.mem (.buf i)).length ∧
      h.size i ≤ d.length ∧
      0 < h.size i ∧
      (let x := (h.mem (.buf i)).take (h.size i) ++ d.drop (h.size i)
       if remap then (f.rebase c.devAddr x = some e ∨
         f.rebase c.devAddr x = none ∧ e = x ∧ c.debug = false)
       else e = x) := by
  rcases ctlSendBuf_eq hs with k | ⟨d, _, _, k3, k4, k5, _, k⟩
  · rw [k] at ht
    exact absurd ht (by simp)
  · rcases k with ⟨g, e⟩ | ⟨g, ⟨e', g1, e⟩ | ⟨g1, e⟩ | e⟩
    · exact ⟨d, _, by rw [e], k3, k4, k5, by simp [g]⟩
    · exact ⟨d, e', by rw [e], k3, k4, k5, by simp [g, g1]⟩
    · refine ⟨d, _, by rw [e], k3, k4, k5, ?_⟩
      rw [e] at ht
      simp only [g, if_true]
      right
      exact ⟨g1, trivial, by simpa using ht⟩
    · rw [e] at ht
      exact absurd ht (by simp)

theorem sendCxx_true {f : Fmt} {a a' : Arg} {h : Host} {i : Nat} {remap : Bool}
    (hr : sendCxx f a h i remap = .ok (true, a')) :
    ∃ (c : Ctl) (d e : Bytes), a.ctl = some c ∧ (Arg.ensure { a with raw := none } c (h.size i)).1 = true ∧
      a' = { cxxTarget (Arg.ensure { a with raw := none } c (h.size i)) i with
        dev := some e, size := h.size i } ∧
      h.size i ≤ (h.mem (.buf i)).length ∧ h.size i ≤ d.length ∧ 0 < h.size i ∧
      (let x := (h.mem (.buf i)).take (h.size i) ++ d.drop (h.size i)
       if remap then (f.rebase c.devAddr x = some e ∨
         f.rebase c.devAddr x = none ∧ e = x ∧ c.debug = false)
       else e = x) := by
  rcases sendCxx_eq hr with ⟨_, e⟩ | ⟨c, hc, ⟨_, e⟩ | ⟨he, s, hs, e⟩⟩
  · exact absurd (congrArg Prod.fst e) (by simp)
  · exact absurd (congrArg Prod.fst e) (by simp)
  · obtain ⟨g1, g2⟩ := sent_true e.symm
    obtain ⟨d, e, k1, k2⟩ := ctlSendBuf_true hs g1
    exact ⟨c, d, e, hc, he, by rw [g2, k1], k2⟩

theorem sendC_true {f : Fmt} {a a' : Arg} {h : Host} {i : Nat} {remap : Bool}
    (hr : sendC f a h i remap = .ok (true, a')) :
    ∃ (c : Ctl) (d e : Bytes), a.ctl = some c ∧ (Arg.ensure { a with raw := none } c (h.size i)).1 = true ∧
      a' = { cTarget (Arg.ensure { a with raw := none } c (h.size i)) i with
        dev := some e, size := h.size i } ∧
      h.size i ≤ (h.mem (.buf i)).length ∧ h.size i ≤ d.length ∧ 0 < h.size i ∧
      (let x := (h.mem (.buf i)).take (h.size i) ++ d.drop (h.size i)
       if remap then (f.rebase c.devAddr x = some e ∨
         f.rebase c.devAddr x = none ∧ e = x ∧ c.debug = false)
       else e = x) := by
  rcases sendC_eq hr with ⟨_, e⟩ | ⟨c, hc, ⟨_, e⟩ | ⟨he, s, hs, e⟩⟩
  · exact absurd (congrArg Prod.fst e) (by simp)
  · exact absurd (congrArg Prod.fst e) (by simp)
  · obtain ⟨g1, g2⟩ := sent_true e.symm
    obtain ⟨d, e, k1, k2⟩ := ctlSendBuf_true hs g1
    exact ⟨c, d, e, hc, he, by rw [g2, k1], k2⟩

/-! ## what the argument refers to afterwards -/

theorem dropBuffers_refs {a : Arg} (ha : a.Ok) :
    a.dropBuffers.raw = a.raw ∧ a.dropBuffers.cxx = none ∧ a.dropBuffers.cap = a.cap ∧
      a.dropBuffers.dev = a.dev ∧ a.dropBuffers.has = a.has ∧ a.dropBuffers.ctl = a.ctl ∧
      a.dropBuffers.size = a.size ∧
      (a.cxx = none → a.dropBuffers.c99 = none) ∧ (∀ i, a.cxx = some i → a.dropBuffers.c99 = some i) := by
  unfold Arg.dropBuffers
  cases hx : a.cxx with
  | some i => simp [ha.cxx i hx]
  | none =>
    cases hc : a.c99 with
    | none => simp [hx, hc]
    | some j => simp [Arg.setC, hx]

/-- After raw memory has been sent the argument refers to it exactly if it did not refer to a C++
buffer or to other raw memory before, unless new memory was needed. -/
theorem sendRaw_place {a a' : Arg} (ha : a.Ok) {h : Host} {p n : Nat}
    (hr : sendRaw a h p n = .ok (true, a')) :
    a'.place = some (.raw p) ↔
      (a.cxx = none ∨ (a.cap < n ∧ a.dev ≠ none)) ∧ (a.raw = none ∨ a.raw = some p ∨ a.cap < n) := by
  obtain ⟨c, d, hc, hn, he, _, _, e⟩ := sendRaw_true hr
  obtain ⟨r1, r2, r3, r4, _, _, _, r5, r6⟩ := dropBuffers_refs ha
  have hp : a'.place = (rawTarget (a.dropBuffers.ensure c n) p).place := by rw [e]; rfl
  rw [hp]
  unfold rawTarget
  rcases ensure_refs he with ⟨g1, g2, g3, g4, g5, g6⟩ | ⟨g1, g2, g3, g4, g5, g6⟩ | ⟨g1, g3, g4, g5, g6⟩
  · rw [r3] at g1
    rw [r4] at g2
    simp [g3, g5, g6, Arg.place, g1, g2]
  · rw [r3] at g1
    rw [r4] at g2
    simp only [g3, true_or, if_true, g1, g2, Arg.place, g5, g6, r2]
    cases hx : a.cxx with
    | none => simp [r5 hx]
    | some i => simp [r6 i hx]
  · rw [r3] at g1
    have g1' : ¬ a.cap < n := by omega
    simp only [g3, Bool.false_eq_true, false_or, g4, r1, g1', or_false, false_and]
    cases hw : a.raw with
    | none =>
      simp only [if_true, Arg.place, g5, g6, r2, true_or, and_true]
      cases hx : a.cxx with
      | none => simp [r5 hx]
      | some i => simp [r6 i hx]
    | some q =>
      simp only [reduceCtorEq, if_false, Arg.place, g4, r1, hw, g5, g6, r2, false_or]
      cases hx : a.cxx with
      | none => simp [r5 hx]
      | some i => simp [r6 i hx]

/-- After a C buffer has been sent the argument refers to it exactly if it did not refer to another
one before, unless new memory was needed. -/
theorem sendC_place {f : Fmt} {a a' : Arg} (ha : a.Ok) {h : Host} {i : Nat} {remap : Bool}
    (hr : sendC f a h i remap = .ok (true, a')) :
    a'.place = some (.buf i) ↔ a.c99 = none ∨ a.c99 = some i ∨ a.cap < h.size i := by
  obtain ⟨c, d, e, hc, he, ee, _⟩ := sendC_true hr
  have hp : a'.place = (cTarget (Arg.ensure { a with raw := none } c (h.size i)) i).place := by rw [ee]; rfl
  rw [hp]
  have hset : ∀ b : Arg, (b.setC (some i)).place = some (.buf i) := by
    intro b
    unfold Arg.setC Arg.place
    cases hx : b.cxx with
    | none => simp
    | some j =>
      by_cases hj : j = i
      · subst hj; simp
      · simp [hj]
  unfold cTarget
  have hE := ensure_refs he
  generalize Arg.ensure { a with raw := none } c (h.size i) = r at hE ⊢
  rcases hE with ⟨g1, g2, g3, g4, g5, g6⟩ | ⟨g1, g2, g3, g4, g5, g6⟩ | ⟨g1, g3, g4, g5, g6⟩
  · simp [g3, hset, show a.cap < h.size i from g1]
  · simp [g3, hset, show a.cap < h.size i from g1]
  · have g1' : ¬ a.cap < h.size i := Nat.not_lt.2 g1
    simp only [g3, Bool.false_eq_true, false_or, g6, g1', or_false]
    cases hw : a.c99 with
    | none => simp [hset]
    | some q =>
      simp only [reduceCtorEq, if_false, Arg.place, g5, g6, hw, false_or]
      cases hx : a.cxx with
      | none => simp
      | some j =>
        have := ha.cxx j hx
        rw [hw] at this
        cases this
        simp

/-- The same with a C++ buffer. -/
theorem sendCxx_place {f : Fmt} {a a' : Arg} (ha : a.Ok) {h : Host} {i : Nat} {remap : Bool}
    (hr : sendCxx f a h i remap = .ok (true, a')) :
    a'.place = some (.buf i) ↔ a.cxx = none ∨ a.cxx = some i ∨ a.cap < h.size i := by
  obtain ⟨c, d, e, hc, he, ee, _⟩ := sendCxx_true hr
  have hp : a'.place = (cxxTarget (Arg.ensure { a with raw := none } c (h.size i)) i).place := by
    rw [ee]; rfl
  rw [hp]
  unfold cxxTarget
  have hE := ensure_refs he
  generalize Arg.ensure { a with raw := none } c (h.size i) = r at hE ⊢
  rcases hE with ⟨g1, g2, g3, g4, g5, g6⟩ | ⟨g1, g2, g3, g4, g5, g6⟩ | ⟨g1, g3, g4, g5, g6⟩
  · simp [g3, Arg.setCxx, Arg.place, show a.cap < h.size i from g1]
  · simp [g3, Arg.setCxx, Arg.place, show a.cap < h.size i from g1]
  · have g1' : ¬ a.cap < h.size i := Nat.not_lt.2 g1
    simp only [g3, Bool.false_eq_true, false_or, g5, g6, g1', or_false]
    cases hx : a.cxx with
    | none => simp [Arg.setCxx, Arg.place]
    | some j => simp [ha.cxx j hx, Arg.place, g5, hx]

theorem ensure_ctl (a : Arg) (c : Ctl) (n : Nat) : (a.ensure c n).2.1.ctl = a.ctl := by
  unfold Arg.ensure Arg.reserve Arg.reset Arg.delete
  split
  · split
    · split <;> rfl
    · rfl
  · rfl

theorem rawTarget_ctl (r : Bool × Arg × Bool) (p : Nat) : (rawTarget r p).ctl = r.2.1.ctl := by
  unfold rawTarget
  split <;> rfl

theorem cTarget_ctl (r : Bool × Arg × Bool) (i : Nat) : (cTarget r i).ctl = r.2.1.ctl := by
  unfold cTarget
  split <;> rfl

theorem cxxTarget_ctl (r : Bool × Arg × Bool) (i : Nat) : (cxxTarget r i).ctl = r.2.1.ctl := by
  unfold cxxTarget
  split <;> rfl

theorem sendRaw_size {a a' : Arg} (ha : a.Ok) {h : Host} {p n : Nat}
    (hr : sendRaw a h p n = .ok (true, a')) :
    a'.size = n ∧ 0 < n ∧ a'.ctl = a.ctl ∧ a'.Holds ((h.mem (.raw p)).take n) := by
  obtain ⟨c, d, hc, hn, he, h1, h2, e⟩ := sendRaw_true hr
  refine ⟨by rw [e], hn, ?_, ?_⟩
  · rw [e]
    exact (rawTarget_ctl _ _).trans ((ensure_ctl _ _ _).trans (dropBuffers_refs ha).2.2.2.2.2.1)
  · have hl : ((h.mem (.raw p)).take n).length = n := by
      rw [List.length_take]
      omega
    refine ⟨by rw [e, hl], (h.mem (.raw p)).take n ++ d.drop n, by rw [e], ?_⟩
    rw [List.take_left']
    rfl

/-- What a successful send of a buffer does, whichever way it was sent. -/
theorem sendBuf_holds {f : Fmt} {a' : Arg} {h : Host} {i : Nat} {remap : Bool} {c : Ctl} {d e : Bytes}
    (b : Arg) (ee : a' = { b with dev := some e, size := h.size i })
    (h1 : h.size i ≤ (h.mem (.buf i)).length)
    (h3 : let x := (h.mem (.buf i)).take (h.size i) ++ d.drop (h.size i)
       if remap then (f.rebase c.devAddr x = some e ∨
         f.rebase c.devAddr x = none ∧ e = x ∧ c.debug = false)
       else e = x) :
    (remap = false → a'.Holds ((h.mem (.buf i)).take (h.size i))) ∧
    (remap = true → ∀ y, y.length = h.size i →
      (∀ z, f.rebase c.devAddr ((h.mem (.buf i)).take (h.size i) ++ z) = some (y ++ z)) → a'.Holds y) := by
  have hl : ((h.mem (.buf i)).take (h.size i)).length = h.size i := by
    rw [List.length_take]
    omega
  constructor
  · intro hm
    simp only [hm, Bool.false_eq_true, if_false] at h3
    refine ⟨by rw [ee, hl], e, by rw [ee], ?_⟩
    rw [h3, List.take_left']
    rfl
  · intro hm y hy hz
    simp only [hm, if_true] at h3
    rw [hz] at h3
    rcases h3 with h3 | h3
    · refine ⟨by rw [ee, hy], e, by rw [ee], ?_⟩
      have := (Option.some.inj h3).symm
      rw [this, List.take_left']
      rfl
    · exact absurd h3.1 (by simp)

theorem sendCxx_some {f : Fmt} {a : Arg} {h : Host} {i : Nat} {remap : Bool} {c : Ctl} (hk : a.ctl = some c) :
    sendCxx f a h i remap =
      if (Arg.ensure { a with raw := none } c (h.size i)).1 then do
        let s ← ctlSendBuf f c (cxxTarget (Arg.ensure { a with raw := none } c (h.size i)) i) h i remap
        return Arg.sent (h.size i) s
      else .ok (false, (Arg.ensure { a with raw := none } c (h.size i)).2.1) := by
  unfold sendCxx
  split
  · rename_i h0
    rw [hk] at h0
    cases h0
  · rename_i c' h0
    rw [hk] at h0
    cases h0
    rfl

theorem sendC_some {f : Fmt} {a : Arg} {h : Host} {i : Nat} {remap : Bool} {c : Ctl} (hk : a.ctl = some c) :
    sendC f a h i remap =
      if (Arg.ensure { a with raw := none } c (h.size i)).1 then do
        let s ← ctlSendBuf f c (cTarget (Arg.ensure { a with raw := none } c (h.size i)) i) h i remap
        return Arg.sent (h.size i) s
      else .ok (false, (Arg.ensure { a with raw := none } c (h.size i)).2.1) := by
  unfold sendC
  split
  · rename_i h0
    rw [hk] at h0
    cases h0
  · rename_i c' h0
    rw [hk] at h0
    cases h0
    rfl

/-! ## receiving -/

theorem doReceive_eq {c : Ctl} {a : Arg} (ha : a.Ok) {dest d : Bytes} (hd : a.dev = some d)
    (hc : c.copies = true) (hl : a.size ≤ dest.length) :
    doReceive c a dest = .ok (true, d.take a.size ++ dest.drop a.size) := by
  obtain ⟨h1, h2⟩ := ha.dev d hd
  have hs := ha.size
  have hlen : (d.take a.size).length = a.size := by
    rw [List.length_take]
    omega
  unfold doReceive
  rw [h2, hd]
  simp only [hc, if_true]
  unfold readFirst
  rw [if_pos (by omega), Res.ok_bind]
  unfold overwrite
  rw [if_pos (by omega), Res.ok_bind, hlen]
  rfl

theorem receiveRaw_eq {f : Fmt} {c : Ctl} {a : Arg} (ha : a.Ok) {h : Host} {p cap : Nat} {d : Bytes}
    (hk : a.ctl = some c) (hd : a.dev = some d) (hc : c.copies = true) (hy : c.readyReceive = true)
    (hn : a.c99 = none) (hp : 0 < a.size) (hcap : a.size ≤ cap) (hl : a.size ≤ (h.mem (.raw p)).length) :
    receiveRaw f a h p cap =
      .ok (true, h.put (.raw p) (d.take a.size ++ (h.mem (.raw p)).drop a.size)) := by
  unfold receiveRaw
  rw [hk]
  simp only
  rw [if_pos ⟨hcap, hy, hp⟩, doReceive_eq ha hd hc hl, Res.ok_bind]
  simp [hn]

theorem receiveBuf_eq {f : Fmt} {c : Ctl} {a : Arg} (ha : a.Ok) {h : Host} {i : Nat}
    {remap : Bool} {d : Bytes}
    (hk : a.ctl = some c) (hd : a.dev = some d) (hc : c.copies = true) (hy : c.readyReceive = true)
    (hn : a.c99.isSome) (hp : 0 < a.size) (hl : a.size ≤ (h.mem (.buf i)).length) :
    receiveBuf f a h i remap =
      .ok (if remap then hostRemap f (h.put (.buf i) (d.take a.size ++ (h.mem (.buf i)).drop a.size)) i
        else (true, h.put (.buf i) (d.take a.size ++ (h.mem (.buf i)).drop a.size))) := by
  unfold receiveBuf
  rw [hk]
  simp only
  rw [if_pos ⟨hn, hy, hp, hl, by intro h0; rw [h0] at hl; simp at hl; omega⟩, doReceive_eq ha hd hc hl,
    Res.ok_bind]
  cases remap <;> simp

/-- What the argument refers to decides where the data go. -/
theorem receive_raw {f : Fmt} {a : Arg} {h : Host} {p : Nat} {remap : Bool}
    (hp : a.place = some (.raw p)) :
    receive f a h remap = receiveRaw f a h p a.size ∧ a.c99 = none := by
  unfold Arg.place at hp
  unfold receive
  split at hp
  · exact absurd hp (by simp)
  · exact absurd hp (by simp)
  · cases hp
    simp [*]
  · exact absurd hp (by simp)

theorem receive_buf {f : Fmt} {a : Arg} (ha : a.Ok) {h : Host} {i : Nat} {remap : Bool}
    (hp : a.place = some (.buf i)) :
    receive f a h remap = receiveBuf f a h i remap ∧ a.c99 = some i := by
  unfold Arg.place at hp
  unfold receive
  split at hp
  · cases hp
    rename_i hx
    simp [*, ha.cxx _ hx]
  · cases hp
    simp [*]
  · exact absurd hp (by simp)
  · exact absurd hp (by simp)

theorem put_put (h : Host) (l : Loc) (x y : Bytes) : (h.put l x).put l y = h.put l y := by
  unfold Host.put
  simp only [Host.mk.injEq, and_self, and_true]
  funext k
  split <;> rfl

theorem put_same (h : Host) (l : Loc) : h.put l (h.mem l) = h := by
  unfold Host.put
  cases h
  simp only [Host.mk.injEq, and_self, and_true]
  funext k
  split
  · rename_i e
    rw [e]
  · rfl

theorem setSize_same (h : Host) (i : Nat) : h.setSize i (h.size i) = h := by
  unfold Host.setSize
  cases h
  simp only [Host.mk.injEq, true_and]
  funext k
  split
  · rename_i e
    rw [e]
  · rfl

theorem put_mem (h : Host) (l : Loc) (x : Bytes) : (h.put l x).mem l = x := by
  simp [Host.put]

/-! ## updating regions -/

/-- The bytes of a place, with some overwritten: nothing outside the regions changes. -/
theorem patch_eq {d v y : Bytes} {off : Nat} (h : patch d off v = .ok y) :
    off + v.length ≤ d.length ∧ y.length = d.length ∧
    (∀ (k : Nat), k < off ∨ off + v.length ≤ k → y[k]? = d[k]?) ∧
    (∀ (k : Nat), k < v.length → y[off + k]? = v[k]?) := by
  unfold patch at h
  split at h
  · rename_i hl
    have e := ((Res.ok_inj _ _).1 h).symm
    subst e
    refine ⟨hl, ?_, ?_, ?_⟩
    · simp only [List.length_append, List.length_take, List.length_drop]
      omega
    · intro k hk
      rcases hk with hk | hk
      · rw [List.append_assoc, List.getElem?_append_left (by simp; omega), List.getElem?_take, if_pos hk]
      · rw [List.getElem?_append_right (by simp; omega), List.getElem?_drop]
        congr 1
        simp only [List.length_append, List.length_take]
        omega
    · intro k hk
      rw [List.append_assoc, List.getElem?_append_right (by simp; omega)]
      rw [List.getElem?_append_left (by simp only [List.length_take]; omega)]
      congr 1
      simp only [List.length_take]
      omega
  · exact absurd h (by simp)

/-- The byte lies outside the region. -/
def Region.Misses (r : Region) (k : Nat) : Prop := k < r.off ∨ r.off + r.len ≤ k

/-- What updating regions does if no sum of an offset and a length wraps around. -/
theorem updateLoop_spec (a : Arg) (l : Loc) (hp : a.place = some l) (rs : List Region) :
    ∀ h : Host, a.size ≤ (h.mem l).length →
    (∀ r ∈ rs, r.off + r.len < 2^64 ∧ ∀ v, r.val = some v → r.len ≤ v.length) →
    ∃ b h', updateLoop a h rs = .ok (b, h') ∧
      (∀ k, k ≠ l → h'.mem k = h.mem k) ∧ h'.addr = h.addr ∧ h'.size = h.size ∧
      (h'.mem l).length = (h.mem l).length ∧
      (∀ (k : Nat), (∀ r ∈ rs, r.Misses k) → (h'.mem l)[k]? = (h.mem l)[k]?) ∧
      (b = true ↔ ∀ r ∈ rs, r.val ≠ none ∧ r.len ≠ 0 ∧ r.off + r.len ≤ a.size) ∧
      (b = true → ∀ pre r post v, rs = pre ++ r :: post → r.val = some v → ∀ (k : Nat), k < r.len →
        (∀ r' ∈ post, r'.Misses (r.off + k)) → (h'.mem l)[r.off + k]? = v[k]?) := by
  induction rs with
  | nil =>
    intro h _ _
    refine ⟨true, h, rfl, fun _ _ => rfl, rfl, rfl, rfl, fun _ _ => rfl, by simp, ?_⟩
    intro _ pre r post v e
    exact absurd e (by simp)
  | cons r rs ih =>
    intro h hs hr
    obtain ⟨hw, hv⟩ := hr r (by simp)
    unfold updateLoop
    cases hval : r.val with
    | none =>
      refine ⟨false, h, rfl, fun _ _ => rfl, rfl, rfl, rfl, fun _ _ => rfl, ?_, by simp⟩
      simp only [Bool.false_eq_true, false_iff]
      intro hall
      exact (hall r (by simp)).1 hval
    | some v =>
      simp only
      rw [Nat.mod_eq_of_lt hw]
      by_cases hc : r.len = 0 ∨ a.size < r.off + r.len
      · rw [if_pos hc]
        refine ⟨false, h, rfl, fun _ _ => rfl, rfl, rfl, rfl, fun _ _ => rfl, ?_, by simp⟩
        simp only [Bool.false_eq_true, false_iff]
        intro hall
        obtain ⟨_, h1, h2⟩ := hall r (by simp)
        omega
      · rw [if_neg hc, hp]
        simp only
        have hlen := hv v hval
        have hx : readFirst v r.len = .ok (v.take r.len) := by
          unfold readFirst
          rw [if_pos hlen]
        have hxl : (v.take r.len).length = r.len := by
          rw [List.length_take]
          omega
        rw [hx, Res.ok_bind]
        have hy : patch (h.mem l) r.off (v.take r.len) = .ok ((h.mem l).take r.off ++ v.take r.len ++
            (h.mem l).drop (r.off + (v.take r.len).length)) := by
          unfold patch
          rw [if_pos (by omega)]
        obtain ⟨p1, p2, p3, p4⟩ := patch_eq hy
        rw [hy, Res.ok_bind]
        generalize (h.mem l).take r.off ++ v.take r.len ++
            (h.mem l).drop (r.off + (v.take r.len).length) = y at p2 p3 p4 ⊢
        rw [hxl] at p3 p4
        obtain ⟨b, h', e, q1, q2, q3, q4, q5, q6, q7⟩ := ih (h.put l y) (by rw [put_mem]; omega)
          (fun r' hr' => hr r' (by simp [hr']))
        rw [put_mem] at q4 q5
        refine ⟨b, h', e, ?_, q2, q3, by omega, ?_, ?_, ?_⟩
        · intro k hk
          rw [q1 k hk]
          simp [Host.put, hk]
        · intro k hk
          rw [q5 k (fun r' hr' => hk r' (by simp [hr'])), p3 k (hk r (by simp))]
        · rw [q6]
          simp only [List.mem_cons, forall_eq_or_imp, hval, ne_eq, reduceCtorEq, not_false_eq_true,
            true_and]
          constructor
          · intro hall
            exact ⟨⟨by omega, by omega⟩, hall⟩
          · intro hall
            exact hall.2
        · intro hb pre r' post v' e' hv' k hk hmiss
          cases pre with
          | nil =>
            simp only [List.nil_append, List.cons.injEq] at e'
            obtain ⟨e1, e2⟩ := e'
            subst e1 e2
            rw [hval] at hv'
            cases hv'
            rw [q5 _ hmiss, p4 k hk, List.getElem?_take, if_pos hk]
          | cons r0 pre =>
            simp only [List.cons_append, List.cons.injEq] at e'
            exact q7 hb pre r' post v' e'.2 hv' k hk hmiss

end SixTrack.Arg
