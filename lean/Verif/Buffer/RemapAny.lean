import Verif.Buffer.RemapLemmas

/-!
# Remapping a buffer whose records are arbitrary

The header and the sections are in order, what the records say is not assumed to be.
-/

namespace SixTrack.Buf

theorem shift_lt (a d : Nat) : shift a d < W := Nat.mod_lt _ (by decide)

/-- What the loop over the objects accepts, given the least address `mv` for the first one. -/
structure ObjectsOk (m : Mem) (lo hi d mv it n : Nat) : Prop where
  inside : ∀ j < n, lo ≤ shift (m.word (it + 24 * j)) d ∧ shift (m.word (it + 24 * j)) d ≤ hi
  first : 0 < n → mv ≤ shift (m.word it) d
  next : ∀ j, j + 1 < n → (shift (m.word (it + 24 * j)) d + roundUp (m.word (it + 24 * j + 16)) 8) % W ≤
    shift (m.word (it + 24 * (j + 1))) d

theorem objectsOk_congr {m m' : Mem} {lo hi d mv it n : Nat}
    (h : ∀ j < n, m'.word (it + 24 * j) = m.word (it + 24 * j) ∧ m'.word (it + 24 * j + 16) = m.word (it + 24 * j + 16)) :
    ObjectsOk m' lo hi d mv it n ↔ ObjectsOk m lo hi d mv it n := by
  constructor
  · intro k
    refine ⟨fun j hj => ?_, fun hn => ?_, fun j hj => ?_⟩
    · rw [← (h j hj).1]; exact k.inside j hj
    · have := (h 0 hn).1
      simp only [Nat.mul_zero, Nat.add_zero] at this
      rw [← this]; exact k.first hn
    · rw [← (h j (by omega)).1, ← (h j (by omega)).2, ← (h (j + 1) hj).1]; exact k.next j hj
  · intro k
    refine ⟨fun j hj => ?_, fun hn => ?_, fun j hj => ?_⟩
    · rw [(h j hj).1]; exact k.inside j hj
    · have := (h 0 hn).1
      simp only [Nat.mul_zero, Nat.add_zero] at this
      rw [this]; exact k.first hn
    · rw [(h j (by omega)).1, (h j (by omega)).2, (h (j + 1) hj).1]; exact k.next j hj

theorem objectsOk_succ {m : Mem} {lo hi d mv it n : Nat} :
    ObjectsOk m lo hi d mv it (n + 1) ↔ (lo ≤ shift (m.word it) d ∧ shift (m.word it) d ≤ hi ∧ mv ≤ shift (m.word it) d) ∧
      ObjectsOk m lo hi d ((shift (m.word it) d + roundUp (m.word (it + 16)) 8) % W) (it + 24) n := by
  have e : ∀ j, it + 24 * (j + 1) = it + 24 + 24 * j := fun j => by omega
  constructor
  · intro k
    have k0 := k.inside 0 (by omega)
    simp only [Nat.mul_zero, Nat.add_zero] at k0
    refine ⟨⟨k0.1, k0.2, k.first (by omega)⟩, fun j hj => ?_, fun hn => ?_, fun j hj => ?_⟩
    · have := k.inside (j + 1) (by omega)
      rwa [e] at this
    · have := k.next 0 (by omega)
      simpa using this
    · have := k.next (j + 1) (by omega)
      rwa [e, e] at this
  · rintro ⟨⟨h1, h2, h3⟩, k⟩
    refine ⟨fun j hj => ?_, fun _ => h3, fun j hj => ?_⟩
    · cases j with
      | zero => simpa using ⟨h1, h2⟩
      | succ j => rw [e]; exact k.inside j (by omega)
    · cases j with
      | zero =>
        have := k.first (by omega)
        simpa using this
      | succ j => rw [e, e]; exact k.next j (by omega)

/-- The loop over the objects is defined whatever the records say, writes to their addresses only, and succeeds exactly if
the shifted addresses are in order. -/
theorem remapObjectsLoop_any (lo hi d : Nat) : ∀ (n : Nat) (m : Mem) (mv it : Nat), it % 8 = 0 → m.valid it (24 * n) →
    ∃ m' ok, remapObjectsLoop m lo hi d 8 mv it n = .ok (m', ok) ∧ m'.blocks = m.blocks ∧
      (∀ x, (∀ j < n, x < it + 24 * j ∨ it + 24 * j + 8 ≤ x) → m'.byte x = m.byte x) ∧
      (ok = true ↔ ObjectsOk m lo hi d mv it n) ∧
      (ok = true → ∀ j < n, m'.word (it + 24 * j) = shift (m.word (it + 24 * j)) d) := by
  intro n
  induction n with
  | zero =>
    intro m mv it _ _
    exact ⟨m, true, rfl, rfl, fun _ _ => rfl, ⟨fun _ => ⟨by omega, by omega, by omega⟩, fun _ => rfl⟩, by omega⟩
  | succ n ih =>
    intro m mv it al val
    have hv : ∀ o k, o + k ≤ 24 * (n + 1) → m.valid (it + o) k := fun o k ho =>
      Mem.valid_sub val (by omega) (by omega)
    have v0 : m.valid it 8 := hv 0 8 (by omega)
    rw [objectsOk_succ]
    simp only [remapObjectsLoop]
    rw [Mem.load64_ok (by omega) (hv 16 8 (by omega)), Res.ok_bind, Mem.load64_ok al v0, Res.ok_bind]
    by_cases hc : shift (m.word it) d < lo ∨ hi < shift (m.word it) d ∨ shift (m.word it) d < mv
    · rw [if_pos hc]
      exact ⟨m, false, rfl, rfl, fun _ _ => rfl, ⟨by simp, fun h => by omega⟩, by simp⟩
    · rw [if_neg hc, Mem.store64_ok al v0, Res.ok_bind]
      obtain ⟨m', ok, e, hb, hf, hok, hw⟩ := ih (m.put it (shift (m.word it) d))
        ((shift (m.word it) d + roundUp (m.word (it + 16)) 8) % W) (it + 24) (by omega)
        (by simp only [Mem.put_valid]; exact hv 24 _ (by omega))
      have same : ∀ j < n, (m.put it (shift (m.word it) d)).word (it + 24 + 24 * j) = m.word (it + 24 + 24 * j) ∧
          (m.put it (shift (m.word it) d)).word (it + 24 + 24 * j + 16) = m.word (it + 24 + 24 * j + 16) := fun j _ =>
        ⟨Mem.word_put_other _ (by omega), Mem.word_put_other _ (by omega)⟩
      rw [objectsOk_congr same] at hok
      refine ⟨m', ok, e, by rw [hb]; simp, ?_, ?_, ?_⟩
      · intro x hx
        rw [hf x (fun j hj => by have := hx (j + 1) (by omega); omega)]
        exact Mem.byte_put_of_lt _ (by have := hx 0 (by omega); omega)
      · rw [hok]
        exact ⟨fun h => ⟨⟨by omega, by omega, by omega⟩, h⟩, fun h => h.2⟩
      · intro ht j hj
        cases j with
        | zero =>
          rw [Nat.mul_zero, Nat.add_zero, Mem.word_congr (m := m.put it (shift (m.word it) d)) (fun x h1 h2 => hf x
            (fun j _ => by omega))]
          exact Mem.word_put_same _ _ _ (shift_lt _ _)
        | succ j =>
          rw [show it + 24 * (j + 1) = it + 24 + 24 * j by omega, hw ht j (by omega), (same j (by omega)).1]

/-- The loop over the garbage ranges likewise. -/
theorem remapGarbageLoop_any (lo hi d : Nat) : ∀ (n : Nat) (m : Mem) (it : Nat), it % 8 = 0 → m.valid it (16 * n) →
    ∃ m' ok, remapGarbageLoop m lo hi d it n = .ok (m', ok) ∧ m'.blocks = m.blocks ∧
      (∀ x, (∀ j < n, x < it + 16 * j ∨ it + 16 * j + 8 ≤ x) → m'.byte x = m.byte x) ∧
      (ok = true ↔ ∀ j < n, lo ≤ shift (m.word (it + 16 * j)) d ∧ shift (m.word (it + 16 * j)) d < hi) ∧
      (ok = true → ∀ j < n, m'.word (it + 16 * j) = shift (m.word (it + 16 * j)) d) := by
  intro n
  induction n with
  | zero =>
    intro m it _ _
    exact ⟨m, true, rfl, rfl, fun _ _ => rfl, ⟨fun _ => by omega, fun _ => rfl⟩, by omega⟩
  | succ n ih =>
    intro m it al val
    have hv : ∀ o k, o + k ≤ 16 * (n + 1) → m.valid (it + o) k := fun o k ho =>
      Mem.valid_sub val (by omega) (by omega)
    have v0 : m.valid it 8 := hv 0 8 (by omega)
    simp only [remapGarbageLoop]
    rw [Mem.load64_ok al v0, Res.ok_bind]
    by_cases hc : lo ≤ shift (m.word it) d ∧ shift (m.word it) d < hi
    · rw [if_pos hc, Mem.store64_ok al v0, Res.ok_bind]
      obtain ⟨m', ok, e, hb, hf, hok, hw⟩ := ih (m.put it (shift (m.word it) d)) (it + 16) (by omega)
        (by simp only [Mem.put_valid]; exact hv 16 _ (by omega))
      have same : ∀ j, (m.put it (shift (m.word it) d)).word (it + 16 + 16 * j) = m.word (it + 16 + 16 * j) := fun j =>
        Mem.word_put_other _ (by omega)
      refine ⟨m', ok, e, by rw [hb]; simp, ?_, ?_, ?_⟩
      · intro x hx
        rw [hf x (fun j hj => by have := hx (j + 1) (by omega); omega)]
        exact Mem.byte_put_of_lt _ (by have := hx 0 (by omega); omega)
      · rw [hok]
        constructor
        · intro h j hj
          cases j with
          | zero => simpa using hc
          | succ j =>
            have := h j (by omega)
            rw [same] at this
            rwa [show it + 16 * (j + 1) = it + 16 + 16 * j by omega]
        · intro h j hj
          have := h (j + 1) (by omega)
          rw [show it + 16 * (j + 1) = it + 16 + 16 * j by omega] at this
          rwa [same]
      · intro ht j hj
        cases j with
        | zero =>
          rw [Nat.mul_zero, Nat.add_zero, Mem.word_congr (m := m.put it (shift (m.word it) d)) (fun x h1 h2 => hf x
            (fun j _ => by omega))]
          exact Mem.word_put_same _ _ _ (shift_lt _ _)
        | succ j =>
          rw [show it + 16 * (j + 1) = it + 16 + 16 * j by omega, hw ht j (by omega), same]
    · rw [if_neg hc]
      refine ⟨m, false, rfl, rfl, fun _ _ => rfl, ⟨by simp, fun h => ?_⟩, by simp⟩
      have := h 0 (by omega)
      simp only [Nat.mul_zero, Nat.add_zero] at this
      exact absurd this hc

/-- The loop over the data pointers, if it is defined: it writes to the list and to words in the slots, and if it succeeds
every pointer and what it points at is in the slots. -/
theorem remapDataptrsLoop_any {lo hi d : Nat} (alo : lo % 8 = 0) (ahi : hi % 8 = 0) : ∀ (n : Nat) (m : Mem) (it : Nat)
    (m' : Mem) (ok : Bool), it % 8 = 0 → m.valid it (8 * n) → hi ≤ it →
    remapDataptrsLoop m lo hi d it n = .ok (m', ok) →
      m'.blocks = m.blocks ∧
      (∀ x, (x < lo ∨ hi ≤ x) → (x < it ∨ it + 8 * n ≤ x) → m'.byte x = m.byte x) ∧
      (∀ w, w % 8 = 0 → lo ≤ w → w < hi → lo ≤ m.word w → m.word w < hi → lo ≤ m'.word w ∧ m'.word w < hi) ∧
      (ok = true → ∀ j < n, m'.word (it + 8 * j) = shift (m.word (it + 8 * j)) d ∧
        lo ≤ m'.word (it + 8 * j) ∧ m'.word (it + 8 * j) < hi ∧ m'.word (it + 8 * j) % 8 = 0 ∧
        lo ≤ m'.word (m'.word (it + 8 * j)) ∧ m'.word (m'.word (it + 8 * j)) < hi) := by
  intro n
  induction n with
  | zero =>
    intro m it m' ok _ _ _ h
    simp only [remapDataptrsLoop] at h
    cases Res.ok.inj h
    exact ⟨rfl, fun _ _ _ => rfl, fun w _ _ _ h1 h2 => ⟨h1, h2⟩, by omega⟩
  | succ n ih =>
    intro m it m' ok al val hit h
    have hv : ∀ o k, o + k ≤ 8 * (n + 1) → m.valid (it + o) k := fun o k ho =>
      Mem.valid_sub val (by omega) (by omega)
    have v0 : m.valid it 8 := hv 0 8 (by omega)
    simp only [remapDataptrsLoop] at h
    rw [Mem.load64_ok al v0, Res.ok_bind] at h
    have h : ∃ t, t < W ∧ (if shift (m.word it) d ≠ 0 ∧ t ≠ 0 ∧ lo ≤ shift (m.word it) d ∧ shift (m.word it) d < hi ∧
        lo ≤ t ∧ t < hi then do
          let m1 ← m.store64 (shift (m.word it) d) t
          let m2 ← m1.store64 it (shift (m.word it) d)
          remapDataptrsLoop m2 lo hi d (it + 8) n
        else pure (m, false)) = Res.ok (m', ok) := by
      by_cases hz : shift (m.word it) d ≠ 0
      · rw [if_pos hz] at h
        obtain ⟨v, _, h⟩ := Res.bind_eq_ok.1 h
        rw [Res.pure_eq, Res.ok_bind] at h
        exact ⟨_, shift_lt _ _, h⟩
      · rw [if_neg hz] at h
        rw [Res.ok_bind] at h
        exact ⟨0, by decide, h⟩
    obtain ⟨t, tW, h⟩ := h
    generalize hp : shift (m.word it) d = p at h
    split at h
    · rename_i hc
      obtain ⟨c1, c2, c3, c4, c5, c6⟩ := hc
      obtain ⟨m1, h1, h⟩ := Res.bind_eq_ok.1 h
      obtain ⟨m2, h2, h⟩ := Res.bind_eq_ok.1 h
      have hal : p % 8 = 0 ∧ m.valid p 8 := by
        refine Classical.byContradiction fun hcon => ?_
        rw [Mem.store64, if_neg hcon] at h1
        cases h1
      rw [Mem.store64_ok hal.1 hal.2] at h1
      cases Res.ok.inj h1
      rw [Mem.store64_ok al (by simp only [Mem.put_valid]; exact v0)] at h2
      cases Res.ok.inj h2
      have hphi : p + 8 ≤ hi := by omega
      obtain ⟨hb, hf, hk, hw⟩ := ih ((m.put p t).put it p) (it + 8) m' ok (by omega)
        (by simp only [Mem.put_valid]; exact hv 8 _ (by omega)) (by omega) h
      have wp : ((m.put p t).put it p).word p = t := by
        rw [Mem.word_put_other _ (by omega), Mem.word_put_same _ _ _ tW]
      have same : ∀ j, ((m.put p t).put it p).word (it + 8 + 8 * j) = m.word (it + 8 + 8 * j) := fun j => by
        rw [Mem.word_put_other _ (by omega), Mem.word_put_other _ (by omega)]
      refine ⟨by rw [hb]; simp, ?_, ?_, ?_⟩
      · intro x hx hx'
        rw [hf x hx (by omega), Mem.byte_put_of_lt _ (by omega), Mem.byte_put_of_lt _ (by omega)]
      · intro w a1 a2 a3 a4 a5
        by_cases e : w = p
        · subst e
          exact hk w a1 a2 a3 (by rw [wp]; exact c5) (by rw [wp]; exact c6)
        · have ew : ((m.put p t).put it p).word w = m.word w := by
            rw [Mem.word_put_other _ (by omega), Mem.word_put_other _ (by omega)]
          exact hk w a1 a2 a3 (by rw [ew]; exact a4) (by rw [ew]; exact a5)
      · intro hok j hj
        cases j with
        | zero =>
          have w0 : m'.word it = p := by
            rw [Mem.word_congr (m := (m.put p t).put it p) (fun x h1 h2 => hf x (by omega) (by omega))]
            exact Mem.word_put_same _ _ _ (by rw [← hp]; exact shift_lt _ _)
          rw [Nat.mul_zero, Nat.add_zero, w0, hp]
          obtain ⟨k1, k2⟩ := hk p hal.1 c3 c4 (by rw [wp]; exact c5) (by rw [wp]; exact c6)
          exact ⟨rfl, c3, c4, hal.1, k1, k2⟩
        | succ j =>
          rw [show it + 8 * (j + 1) = it + 8 + 8 * j by omega]
          have := hw hok j (by omega)
          rw [same] at this
          exact this
    · cases Res.ok.inj h
      exact ⟨rfl, fun _ _ _ => rfl, fun w _ _ _ h1 h2 => ⟨h1, h2⟩, by simp⟩

/-- The three sections of a buffer that is already given its address. -/
theorem Head.remapObjects_any {m : Mem} {B cap d : Nat} {c n : Caps} (h : Head m B B cap c n) :
    ∃ m' ok, remapObjects m B d 8 = .ok (m', ok) ∧ m'.blocks = m.blocks ∧ Head m' B B cap c n ∧
      (∀ x, (∀ j < n.objs, x < B + (off c 4 + 16) + 24 * j ∨ B + (off c 4 + 16) + 24 * j + 8 ≤ x) →
        m'.byte x = m.byte x) ∧
      (ok = true ↔ ObjectsOk m (B + 80) (B + 80 + 8 * n.slots) d (B + 80) (B + (off c 4 + 16)) n.objs) ∧
      (ok = true → ∀ j < n.objs, m'.word (B + (off c 4 + 16) + 24 * j) =
        shift (m.word (B + (off c 4 + 16) + 24 * j)) d) := by
  have nzB := h.nzB
  have al := h.alB
  have f := h.fit
  have le := h.le
  have l1 := le.slots; have l2 := le.objs; have l3 := le.dataptrs; have l4 := le.garbage
  have hL : c.len = 128 + 8 * c.slots + 24 * c.objs + 8 * c.dataptrs + 16 * c.garbage := rfl
  obtain ⟨m', ok, i1, i2, i3, i4, i5⟩ := remapObjectsLoop_any (B + 80) (B + 80 + 8 * n.slots) d n.objs m (B + 80)
    (B + (off c 4 + 16)) (by simp only [off]; omega) (h.valid (by simp only [off]; omega))
  refine ⟨m', ok, ?_, i2, ?_, i3, i4, i5⟩
  · simp only [Buf.remapObjects]
    rw [if_pos ⟨nzB, by omega⟩, h.sectionPtr (by omega) (by omega), Res.ok_bind,
      h.maxSize (by omega) (by omega), Res.ok_bind, h.sectionSize (by omega) (by omega), Res.ok_bind,
      h.sectionData (by omega) (by omega), Res.ok_bind, h.numEntities (by omega) (by omega), Res.ok_bind,
      h.sectionData (id := 3) (by omega) (by omega), h.sectionEnd (id := 3) (by omega) (by omega)]
    simp only [Res.ok_bind, ent, cnt]
    rw [if_pos (by omega)]
    by_cases hn : 0 < n.objs
    · rw [if_pos hn]
      simp only [off] at i1 ⊢
      rw [show B + 64 + 16 = B + 80 by omega, show B + 64 + (16 + 8 * n.slots) = B + 80 + 8 * n.slots by omega,
        show B + (80 + 8 * c.slots) + 16 = B + (80 + 8 * c.slots + 16) by omega]
      exact i1
    · rw [if_neg hn]
      have e : n.objs = 0 := by omega
      rw [e] at i1
      exact i1
  · refine h.frame ((Mem.valid_of_blocks i2).2 h.val) ?_ ?_
    · intro x hx; exact i3 _ fun j hj => by simp only [off]; omega
    · refine forall_id ?_ ?_ ?_ ?_ <;> intro x hx <;> exact i3 _ fun j hj => by simp only [off]; omega

theorem Head.remapDataptrs_any {m m' : Mem} {B cap d : Nat} {c n : Caps} {ok : Bool} (h : Head m B B cap c n)
    (hr : remapDataptrs m B d 8 = .ok (m', ok)) :
    m'.blocks = m.blocks ∧ Head m' B B cap c n ∧
      (∀ x, (x < B + 80 ∨ B + 80 + 8 * n.slots ≤ x) →
        (x < B + (off c 5 + 16) ∨ B + (off c 5 + 16) + 8 * n.dataptrs ≤ x) → m'.byte x = m.byte x) ∧
      (ok = true → ∀ j < n.dataptrs,
        m'.word (B + (off c 5 + 16) + 8 * j) = shift (m.word (B + (off c 5 + 16) + 8 * j)) d ∧
        B + 80 ≤ m'.word (B + (off c 5 + 16) + 8 * j) ∧ m'.word (B + (off c 5 + 16) + 8 * j) < B + 80 + 8 * n.slots ∧
        m'.word (B + (off c 5 + 16) + 8 * j) % 8 = 0 ∧
        B + 80 ≤ m'.word (m'.word (B + (off c 5 + 16) + 8 * j)) ∧
        m'.word (m'.word (B + (off c 5 + 16) + 8 * j)) < B + 80 + 8 * n.slots) := by
  have nzB := h.nzB
  have al := h.alB
  have f := h.fit
  have le := h.le
  have l1 := le.slots; have l2 := le.objs; have l3 := le.dataptrs; have l4 := le.garbage
  have hL : c.len = 128 + 8 * c.slots + 24 * c.objs + 8 * c.dataptrs + 16 * c.garbage := rfl
  have key : remapDataptrsLoop m (B + 80) (B + 80 + 8 * n.slots) d (B + (off c 5 + 16)) n.dataptrs = .ok (m', ok) := by
    rw [← hr]
    simp only [Buf.remapDataptrs]
    rw [if_pos ⟨nzB, by omega⟩, h.sectionData (by omega) (by omega), Res.ok_bind,
      h.numEntities (by omega) (by omega), Res.ok_bind, h.sectionSize (by omega) (by omega), Res.ok_bind,
      h.maxSize (by omega) (by omega), Res.ok_bind,
      h.sectionData (id := 3) (by omega) (by omega), h.sectionEnd (id := 3) (by omega) (by omega)]
    simp only [Res.ok_bind, ent, cnt]
    rw [if_pos (by omega)]
    by_cases hn : 0 < n.dataptrs
    · rw [if_pos hn]
      simp only [off]
      rw [show B + 64 + 16 = B + 80 by omega, show B + 64 + (16 + 8 * n.slots) = B + 80 + 8 * n.slots by omega,
        Nat.add_assoc B (96 + _ + _) 16]
    · rw [if_neg hn]
      have e : n.dataptrs = 0 := by omega
      rw [e]
      rfl
  obtain ⟨i1, i2, -, i3⟩ := remapDataptrsLoop_any (by omega) (by omega) n.dataptrs m (B + (off c 5 + 16)) m' ok
    (by simp only [off]; omega) (h.valid (by simp only [off]; omega)) (by simp only [off]; omega) key
  refine ⟨i1, ?_, i2, i3⟩
  refine h.frame ((Mem.valid_of_blocks i1).2 h.val) ?_ ?_
  · intro x hx; exact i2 _ (by omega) (by simp only [off]; omega)
  · refine forall_id ?_ ?_ ?_ ?_ <;> intro x hx <;> exact i2 _ (by simp only [off]; omega) (by simp only [off]; omega)

theorem Head.remapGarbage_any {m : Mem} {B cap d : Nat} {c n : Caps} (h : Head m B B cap c n) :
    ∃ m' ok, remapGarbage m B d 8 = .ok (m', ok) ∧ m'.blocks = m.blocks ∧ Head m' B B cap c n ∧
      (∀ x, (∀ j < n.garbage, x < B + (off c 6 + 16) + 16 * j ∨ B + (off c 6 + 16) + 16 * j + 8 ≤ x) →
        m'.byte x = m.byte x) ∧
      (ok = true ↔ ∀ j < n.garbage, B + 80 ≤ shift (m.word (B + (off c 6 + 16) + 16 * j)) d ∧
        shift (m.word (B + (off c 6 + 16) + 16 * j)) d < B + 80 + 8 * n.slots) ∧
      (ok = true → ∀ j < n.garbage, m'.word (B + (off c 6 + 16) + 16 * j) =
        shift (m.word (B + (off c 6 + 16) + 16 * j)) d) := by
  have nzB := h.nzB
  have al := h.alB
  have f := h.fit
  have le := h.le
  have l1 := le.slots; have l2 := le.objs; have l3 := le.dataptrs; have l4 := le.garbage
  have hL : c.len = 128 + 8 * c.slots + 24 * c.objs + 8 * c.dataptrs + 16 * c.garbage := rfl
  obtain ⟨m', ok, i1, i2, i3, i4, i5⟩ := remapGarbageLoop_any (B + 80) (B + 80 + 8 * n.slots) d n.garbage m
    (B + (off c 6 + 16)) (by simp only [off]; omega) (h.valid (by simp only [off]; omega))
  refine ⟨m', ok, ?_, i2, ?_, i3, i4, i5⟩
  · simp only [Buf.remapGarbage]
    rw [if_pos ⟨nzB, by omega, al⟩, h.sectionData (by omega) (by omega), Res.ok_bind,
      h.numEntities (by omega) (by omega), Res.ok_bind, h.sectionSize (by omega) (by omega), Res.ok_bind,
      h.maxSize (by omega) (by omega), Res.ok_bind,
      h.sectionData (id := 3) (by omega) (by omega), h.sectionEnd (id := 3) (by omega) (by omega)]
    simp only [Res.ok_bind, ent, cnt]
    rw [if_pos (by omega)]
    by_cases hn : 0 < n.garbage
    · rw [if_pos hn]
      simp only [off] at i1 ⊢
      rw [show B + 64 + 16 = B + 80 by omega, show B + 64 + (16 + 8 * n.slots) = B + 80 + 8 * n.slots by omega,
        Nat.add_assoc B _ 16]
      exact i1
    · rw [if_neg hn]
      have e : n.garbage = 0 := by omega
      rw [e] at i1
      exact i1
  · refine h.frame ((Mem.valid_of_blocks i2).2 h.val) ?_ ?_
    · intro x hx; exact i3 _ fun j hj => by simp only [off]; omega
    · refine forall_id ?_ ?_ ?_ ?_ <;> intro x hx <;> exact i3 _ fun j hj => by simp only [off]; omega

/-- What a successful remap leaves behind. -/
structure Checked (m : Mem) (B : Nat) (c n : Caps) : Prop where
  objs : ∀ j < n.objs, B + 80 ≤ m.word (B + (off c 4 + 16) + 24 * j) ∧
    m.word (B + (off c 4 + 16) + 24 * j) ≤ B + 80 + 8 * n.slots
  next : ∀ j, j + 1 < n.objs →
    (m.word (B + (off c 4 + 16) + 24 * j) + roundUp (m.word (B + (off c 4 + 16) + 24 * j + 16)) 8) % W ≤
      m.word (B + (off c 4 + 16) + 24 * (j + 1))
  ptrs : ∀ j < n.dataptrs,
    B + 80 ≤ m.word (B + (off c 5 + 16) + 8 * j) ∧ m.word (B + (off c 5 + 16) + 8 * j) < B + 80 + 8 * n.slots ∧
    m.word (B + (off c 5 + 16) + 8 * j) % 8 = 0 ∧
    B + 80 ≤ m.word (m.word (B + (off c 5 + 16) + 8 * j)) ∧
    m.word (m.word (B + (off c 5 + 16) + 8 * j)) < B + 80 + 8 * n.slots
  gars : ∀ j < n.garbage, B + 80 ≤ m.word (B + (off c 6 + 16) + 16 * j) ∧
    m.word (B + (off c 6 + 16) + 16 * j) < B + 80 + 8 * n.slots

/-- Every address in the records is shifted. -/
structure Shifted (m m' : Mem) (B d : Nat) (c n : Caps) : Prop where
  objs : ∀ j < n.objs, m'.word (B + (off c 4 + 16) + 24 * j) = shift (m.word (B + (off c 4 + 16) + 24 * j)) d
  size : ∀ j < n.objs, m'.word (B + (off c 4 + 16) + 24 * j + 16) = m.word (B + (off c 4 + 16) + 24 * j + 16)
  ptrs : ∀ j < n.dataptrs, m'.word (B + (off c 5 + 16) + 8 * j) = shift (m.word (B + (off c 5 + 16) + 8 * j)) d
  gars : ∀ j < n.garbage, m'.word (B + (off c 6 + 16) + 16 * j) = shift (m.word (B + (off c 6 + 16) + 16 * j)) d

/-- What happens to the words of a buffer in the four steps. -/
theorem Head.remap_steps {m m' : Mem} {A B cap : Nat} {c n : Caps} {ok : Bool} (h : Head m A B cap c n)
    (hA : A ≠ B + W / 2) (hne : A ≠ B) (hr : remap m B 8 = .ok (m', ok)) :
    ∃ (m1 m2 : Mem) (o1 o2 o3 : Bool), ok = (o1 && o2 && o3) ∧ m1.blocks = m.blocks ∧ m2.blocks = m1.blocks ∧ m'.blocks = m2.blocks ∧
      Head m' B B cap c n ∧
      (∀ x, (x < B ∨ B + 64 ≤ x) → (∀ j < n.objs, x < B + (off c 4 + 16) + 24 * j ∨ B + (off c 4 + 16) + 24 * j + 8 ≤ x) →
        m1.byte x = m.byte x) ∧
      (∀ x, (x < B + 80 ∨ B + 80 + 8 * n.slots ≤ x) →
        (x < B + (off c 5 + 16) ∨ B + (off c 5 + 16) + 8 * n.dataptrs ≤ x) → m2.byte x = m1.byte x) ∧
      (∀ x, (∀ j < n.garbage, x < B + (off c 6 + 16) + 16 * j ∨ B + (off c 6 + 16) + 16 * j + 8 ≤ x) →
        m'.byte x = m2.byte x) ∧
      (o1 = true → ObjectsOk m (B + 80) (B + 80 + 8 * n.slots) ((B + (W - A % W)) % W) (B + 80) (B + (off c 4 + 16)) n.objs ∧
        ∀ j < n.objs, m1.word (B + (off c 4 + 16) + 24 * j) =
          shift (m.word (B + (off c 4 + 16) + 24 * j)) ((B + (W - A % W)) % W)) ∧
      (o2 = true → ∀ j < n.dataptrs,
        m2.word (B + (off c 5 + 16) + 8 * j) = shift (m1.word (B + (off c 5 + 16) + 8 * j)) ((B + (W - A % W)) % W) ∧
        B + 80 ≤ m2.word (B + (off c 5 + 16) + 8 * j) ∧ m2.word (B + (off c 5 + 16) + 8 * j) < B + 80 + 8 * n.slots ∧
        m2.word (B + (off c 5 + 16) + 8 * j) % 8 = 0 ∧
        B + 80 ≤ m2.word (m2.word (B + (off c 5 + 16) + 8 * j)) ∧
        m2.word (m2.word (B + (off c 5 + 16) + 8 * j)) < B + 80 + 8 * n.slots) ∧
      (o3 = true → ∀ j < n.garbage, (B + 80 ≤ m'.word (B + (off c 6 + 16) + 16 * j) ∧
          m'.word (B + (off c 6 + 16) + 16 * j) < B + 80 + 8 * n.slots) ∧
        m'.word (B + (off c 6 + 16) + 16 * j) =
          shift (m2.word (B + (off c 6 + 16) + 16 * j)) ((B + (W - A % W)) % W)) := by
  have limA := h.limA
  have limB := h.limB
  have d0 : (B + (W - A % W)) % W ≠ 0 := by
    rw [ne_eq, diff_eq_zero (by omega) (by omega)]; exact hne
  have H0 := h.headed h.nzB limB
  obtain ⟨m1, o1, r1, b1, H1, f1, k1, w1⟩ := H0.remapObjects_any (d := (B + (W - A % W)) % W)
  simp only [remap, h.addrOffset hA, Res.ok_bind] at hr
  rw [if_pos d0, h.remapHeader hA hne] at hr
  simp only [Res.ok_bind, H0.remapSlots, r1] at hr
  obtain ⟨⟨m2, o2⟩, r2, hr⟩ := Res.bind_eq_ok.1 hr
  obtain ⟨b2, H2, f2, w2⟩ := H1.remapDataptrs_any r2
  obtain ⟨m3, o3, r3, b3, H3, f3, k3, w3⟩ := H2.remapGarbage_any (d := (B + (W - A % W)) % W)
  simp only [r3, Res.ok_bind, Res.pure_eq, Bool.true_and] at hr
  have hr := Res.ok.inj hr
  have em : m3 = m' := congrArg Prod.fst hr
  have eo : (o1 && o2 && o3) = ok := congrArg Prod.snd hr
  subst em
  have e0 : ∀ o, 64 ≤ o → (Buf.headed m B B c).word (B + o) = m.word (B + o) := fun o ho =>
    Mem.word_congr fun x h1 h2 => headed_byte _ _ _ _ (by omega)
  refine ⟨m1, m2, o1, o2, o3, eo.symm, by rw [b1, headed_blocks], b2, b3, H3,
    fun x hx hx' => by rw [f1 x hx', headed_byte _ _ _ _ hx], f2, f3, fun t => ⟨?_, fun j hj => ?_⟩, w2,
    fun t j hj => ⟨?_, w3 t j hj⟩⟩
  · refine (objectsOk_congr fun j hj => ⟨?_, ?_⟩).1 (k1.1 t)
    · rw [Nat.add_assoc, e0 _ (by simp only [off]; omega)]
    · rw [Nat.add_assoc, Nat.add_assoc, e0 _ (by simp only [off]; omega)]
  · rw [w1 t j hj, Nat.add_assoc, e0 _ (by simp only [off]; omega)]
  · rw [w3 t j hj]; exact k3.1 t j hj

theorem Head.remap_any {m m' : Mem} {A B cap : Nat} {c n : Caps} {ok : Bool} (h : Head m A B cap c n)
    (hA : A ≠ B + W / 2) (hne : A ≠ B) (hr : remap m B 8 = .ok (m', ok)) :
    m'.blocks = m.blocks ∧ Head m' B B cap c n ∧ (∀ x, x < B ∨ B + c.len ≤ x → m'.byte x = m.byte x) ∧
      (ok = true → Checked m' B c n ∧ Shifted m m' B ((B + (W - A % W)) % W) c n) := by
  have al := h.alB
  have le := h.le
  have l1 := le.slots; have l2 := le.objs; have l3 := le.dataptrs; have l4 := le.garbage
  have hL : c.len = 128 + 8 * c.slots + 24 * c.objs + 8 * c.dataptrs + 16 * c.garbage := rfl
  obtain ⟨m1, m2, o1, o2, o3, rfl, b1, b2, b3, H, f1, f2, f3, k1, k2, k3⟩ := h.remap_steps hA hne hr
  generalize (B + (W - A % W)) % W = d at *
  clear hr
  have e3 : off c 3 = 64 := rfl
  have e4 : off c 4 = 80 + 8 * c.slots := rfl
  have e5 : off c 5 = 96 + 8 * c.slots + 24 * c.objs := rfl
  have e6 : off c 6 = 112 + 8 * c.slots + 24 * c.objs + 8 * c.dataptrs := rfl
  have g1 : ∀ o, 64 ≤ o → (o + 8 ≤ off c 4 + 16 ∨ off c 4 + 16 + 24 * n.objs ≤ o) → m1.word (B + o) = m.word (B + o) :=
    fun o h1 h2 => Mem.word_congr fun x p1 p2 => f1 x (by omega) fun j hj => by omega
  have s1 : ∀ j < n.objs, m1.word (B + (off c 4 + 16) + 24 * j + 16) = m.word (B + (off c 4 + 16) + 24 * j + 16) :=
    fun j hj => Mem.word_congr fun x p1 p2 => f1 x (by omega) fun i hi => by omega
  have g2 : ∀ o, 80 + 8 * n.slots ≤ o → (o + 8 ≤ off c 5 + 16 ∨ off c 5 + 16 + 8 * n.dataptrs ≤ o) →
      m2.word (B + o) = m1.word (B + o) :=
    fun o h1 h2 => Mem.word_congr fun x p1 p2 => f2 x (by omega) (by omega)
  have g3 : ∀ a, a + 8 ≤ B + (off c 6 + 16) → m'.word a = m2.word a :=
    fun a h1 => Mem.word_congr fun x p1 p2 => f3 x fun j hj => by omega
  refine ⟨by rw [b3, b2, b1], H, fun x hx => ?_, fun ht => ?_⟩
  · rw [f3 x (fun j hj => by omega), f2 x (by omega) (by omega), f1 x (by omega) (fun j hj => by omega)]
  simp only [Bool.and_eq_true] at ht
  obtain ⟨⟨t1, t2⟩, t3⟩ := ht
  obtain ⟨K1, W1⟩ := k1 t1
  have W2 := k2 t2
  have W3 := k3 t3
  have a4 : ∀ j < n.objs, m'.word (B + (off c 4 + 16) + 24 * j) = shift (m.word (B + (off c 4 + 16) + 24 * j)) d := by
    intro j hj
    rw [g3 _ (by omega), Nat.add_assoc, g2 _ (by omega) (by omega), ← Nat.add_assoc, W1 j hj]
  have s4 : ∀ j < n.objs, m'.word (B + (off c 4 + 16) + 24 * j + 16) = m.word (B + (off c 4 + 16) + 24 * j + 16) := by
    intro j hj
    rw [g3 _ (by omega), ← s1 j hj, Nat.add_assoc, Nat.add_assoc, g2 _ (by omega) (by omega)]
  have a5 : ∀ j < n.dataptrs, m'.word (B + (off c 5 + 16) + 8 * j) = m2.word (B + (off c 5 + 16) + 8 * j) :=
    fun j hj => g3 _ (by omega)
  refine ⟨⟨fun j hj => ?_, fun j hj => ?_, fun j hj => ?_, fun j hj => (W3 j hj).1⟩,
    ⟨a4, s4, fun j hj => ?_, fun j hj => ?_⟩⟩
  · rw [a4 j hj]; exact K1.inside j hj
  · rw [a4 j (by omega), a4 (j + 1) hj, s4 j (by omega)]; exact K1.next j hj
  · obtain ⟨-, q1, q2, q3, q4, q5⟩ := W2 j hj
    rw [a5 j hj, g3 _ (by omega)]
    exact ⟨q1, q2, q3, q4, q5⟩
  · rw [a5 j hj, (W2 j hj).1, Nat.add_assoc, g1 _ (by omega) (by omega)]
  · rw [(W3 j hj).2, Nat.add_assoc, g2 _ (by omega) (by omega), g1 _ (by omega) (by omega)]

/-- Without data pointers remapping is defined whatever the records say. -/
theorem Head.remap_noptrs {m : Mem} {A B cap : Nat} {c n : Caps} (h : Head m A B cap c n)
    (hA : A ≠ B + W / 2) (hne : A ≠ B) (h0 : n.dataptrs = 0) :
    ∃ m' ok, remap m B 8 = .ok (m', ok) ∧
      (ok = true ↔ ObjectsOk m (B + 80) (B + 80 + 8 * n.slots) ((B + (W - A % W)) % W) (B + 80) (B + (off c 4 + 16)) n.objs ∧
        ∀ j < n.garbage, B + 80 ≤ shift (m.word (B + (off c 6 + 16) + 16 * j)) ((B + (W - A % W)) % W) ∧
          shift (m.word (B + (off c 6 + 16) + 16 * j)) ((B + (W - A % W)) % W) < B + 80 + 8 * n.slots) := by
  have limA := h.limA
  have limB := h.limB
  have f := h.fit
  have le := h.le
  have nzB := h.nzB
  have l1 := le.slots; have l2 := le.objs; have l3 := le.dataptrs; have l4 := le.garbage
  have hL : c.len = 128 + 8 * c.slots + 24 * c.objs + 8 * c.dataptrs + 16 * c.garbage := rfl
  have d0 : (B + (W - A % W)) % W ≠ 0 := by
    rw [ne_eq, diff_eq_zero (by omega) (by omega)]; exact hne
  have H0 := h.headed h.nzB limB
  obtain ⟨m1, o1, r1, b1, H1, f1, k1, w1⟩ := H0.remapObjects_any (d := (B + (W - A % W)) % W)
  have r2 : remapDataptrs m1 B ((B + (W - A % W)) % W) 8 = .ok (m1, true) := by
    simp only [Buf.remapDataptrs]
    rw [if_pos ⟨nzB, by omega⟩, H1.sectionData (by omega) (by omega), Res.ok_bind,
      H1.numEntities (by omega) (by omega), Res.ok_bind, H1.sectionSize (by omega) (by omega), Res.ok_bind,
      H1.maxSize (by omega) (by omega), Res.ok_bind]
    simp only [ent, cnt]
    rw [if_pos (by omega), if_neg (by omega)]
    rfl
  obtain ⟨m3, o3, r3, b3, H3, f3, k3, w3⟩ := H1.remapGarbage_any (d := (B + (W - A % W)) % W)
  have e0 : ∀ o, 64 ≤ o → (Buf.headed m B B c).word (B + o) = m.word (B + o) := fun o ho =>
    Mem.word_congr fun x h1 h2 => headed_byte _ _ _ _ (by omega)
  refine ⟨m3, o1 && true && o3, ?_, ?_⟩
  · simp only [remap, h.addrOffset hA, Res.ok_bind]
    rw [if_pos d0, h.remapHeader hA hne]
    simp only [Res.ok_bind, H0.remapSlots, r1, r2, r3, Bool.true_and]
    rfl
  · rw [Bool.and_true, Bool.and_eq_true, k1, k3]
    refine and_congr (objectsOk_congr fun j hj => ⟨?_, ?_⟩) (forall_congr' fun j => imp_congr_right fun hj => ?_)
    · rw [Nat.add_assoc, e0 _ (by simp only [off]; omega)]
    · rw [Nat.add_assoc, Nat.add_assoc, e0 _ (by simp only [off]; omega)]
    · rw [Mem.word_congr (m := Buf.headed m B B c) fun x p1 p2 => f1 x fun i _ => by simp only [off] at p1 p2 ⊢; omega,
        Nat.add_assoc, e0 _ (by simp only [off]; omega)]

/-- A first data pointer that cannot be read is undefined behaviour. -/
theorem Head.remap_ub {m : Mem} {A B cap : Nat} {c n : Caps} (h : Head m A B cap c n)
    (hA : A ≠ B + W / 2) (hne : A ≠ B) (h0 : 0 < n.dataptrs)
    (hp : shift (m.word (B + (off c 5 + 16))) ((B + (W - A % W)) % W) ≠ 0)
    (hv : ¬ m.valid (shift (m.word (B + (off c 5 + 16))) ((B + (W - A % W)) % W)) 8) : remap m B 8 = .ub := by
  have limA := h.limA
  have limB := h.limB
  have f := h.fit
  have le := h.le
  have nzB := h.nzB
  have al := h.alB
  have l1 := le.slots; have l2 := le.objs; have l3 := le.dataptrs; have l4 := le.garbage
  have hL : c.len = 128 + 8 * c.slots + 24 * c.objs + 8 * c.dataptrs + 16 * c.garbage := rfl
  have d0 : (B + (W - A % W)) % W ≠ 0 := by
    rw [ne_eq, diff_eq_zero (by omega) (by omega)]; exact hne
  have H0 := h.headed h.nzB limB
  obtain ⟨m1, o1, r1, b1, H1, f1, k1, w1⟩ := H0.remapObjects_any (d := (B + (W - A % W)) % W)
  have e0 : ∀ o, 64 ≤ o → (Buf.headed m B B c).word (B + o) = m.word (B + o) := fun o ho =>
    Mem.word_congr fun x h1 h2 => headed_byte _ _ _ _ (by omega)
  have e5 : m1.word (B + (off c 5 + 16)) = m.word (B + (off c 5 + 16)) := by
    rw [Mem.word_congr (m := Buf.headed m B B c) fun x p1 p2 => f1 x fun i _ => by simp only [off] at p1 p2 ⊢; omega,
      e0 _ (by simp only [off]; omega)]
  have r2 : remapDataptrs m1 B ((B + (W - A % W)) % W) 8 = .ub := by
    simp only [Buf.remapDataptrs]
    rw [if_pos ⟨nzB, by omega⟩, H1.sectionData (by omega) (by omega), Res.ok_bind,
      H1.numEntities (by omega) (by omega), Res.ok_bind, H1.sectionSize (by omega) (by omega), Res.ok_bind,
      H1.maxSize (by omega) (by omega), Res.ok_bind,
      H1.sectionData (id := 3) (by omega) (by omega), H1.sectionEnd (id := 3) (by omega) (by omega)]
    simp only [ent, cnt, Res.ok_bind]
    rw [if_pos (by omega), if_pos h0]
    obtain ⟨q, hq⟩ : ∃ q, n.dataptrs = q + 1 := ⟨n.dataptrs - 1, by omega⟩
    rw [hq, Nat.add_assoc B (off c 5) 16]
    simp only [remapDataptrsLoop]
    rw [Mem.load64_ok (by simp only [off]; omega) (H1.valid (by simp only [off]; omega)), Res.ok_bind, e5, if_pos hp,
      Mem.load64, if_neg]
    · rfl
    · rintro ⟨-, hv'⟩
      exact hv ((Mem.valid_of_blocks (by rw [b1, headed_blocks])).1 hv')
  simp only [remap, h.addrOffset hA, Res.ok_bind]
  rw [if_pos d0, h.remapHeader hA hne]
  simp only [Res.ok_bind, H0.remapSlots, r1, r2]
  rfl

end SixTrack.Buf
