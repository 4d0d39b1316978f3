import Verif.Buffer.FrameLemmas

/-!
# Clearing a managed buffer
-/

namespace SixTrack.Buf

theorem zeroWords_ok : ∀ (n : Nat) (m : Mem) (a : Nat), a % 8 = 0 → m.valid a (8 * n) →
    ∃ m', zeroWords m a n = .ok m' ∧ m'.blocks = m.blocks ∧
      (∀ x, a ≤ x → x < a + 8 * n → m'.byte x = 0) ∧
      ∀ x, x < a ∨ a + 8 * n ≤ x → m'.byte x = m.byte x
  | 0, m, a, _, _ => ⟨m, rfl, rfl, fun x h1 h2 => by omega, fun _ _ => rfl⟩
  | n + 1, m, a, al, val => by
    have v8 : m.valid a 8 := Mem.valid_sub val (by omega) (by omega)
    obtain ⟨m', i1, i2, i3, i4⟩ := zeroWords_ok n (m.put a 0) (a + 8) (by omega)
      (by simp only [Mem.put_valid]; exact Mem.valid_sub val (by omega) (by omega))
    refine ⟨m', ?_, by rw [i2]; simp, fun x h1 h2 => ?_, fun x hx => ?_⟩
    · simp only [zeroWords]
      rw [Mem.store64_ok al v8, Res.ok_bind, i1]
    · by_cases hlt : x < a + 8
      · rw [i4 x (by omega)]
        obtain ⟨j, rfl⟩ : ∃ j, x = a + j := ⟨x - a, by omega⟩
        have e : Mem.le (m.put a 0).byte a = Mem.le (fun _ => 0) a := by
          have := Mem.word_put_same m a 0 (by decide)
          rw [Mem.word] at this
          rw [this]; rfl
        exact Mem.le_inj e j (by omega)
      · exact i3 x (by omega) (by omega)
    · rw [i4 x (by omega), Mem.byte_put_of_lt _ (by omega)]

/-- Zeroing the data: only the used entries of the four sections change, and they
become zero. -/
theorem zeroData_ok {m : Mem} {B cap : Nat} {c n : Caps} (h : Head m B B cap c n) :
    ∃ m', zeroData m B n.objs n.dataptrs n.slots n.garbage 8 = .ok m' ∧ m'.blocks = m.blocks ∧
      (∀ id, 3 ≤ id → id ≤ 6 → ∀ x, x < ent id * cnt n id → m'.byte (B + (off c id + 16 + x)) = 0) ∧
      ∀ x, (∀ id, 3 ≤ id → id ≤ 6 → x < B + (off c id + 16) ∨ B + (off c id + 16 + ent id * cnt n id) ≤ x) →
        m'.byte x = m.byte x := by
  have hL : c.len = 128 + 8 * c.slots + 24 * c.objs + 8 * c.dataptrs + 16 * c.garbage := rfl
  have fit := h.fit
  have al := h.alB
  have leS := h.le.slots
  have leO := h.le.objs
  have leD := h.le.dataptrs
  have leG := h.le.garbage
  have hd : ∀ mm : Mem, mm.blocks = m.blocks →
      (∀ x, (x < B + 80 ∨ B + 80 + 8 * c.slots ≤ x) → (x < B + (off c 4 + 16) ∨ B + off c 5 ≤ x) →
        (x < B + (off c 5 + 16) ∨ B + off c 6 ≤ x) → (x < B + (off c 6 + 16) ∨ B + c.len ≤ x) →
        mm.byte x = m.byte x) → Head mm B B cap c n := by
    intro mm hb hf
    refine h.frame ((Mem.valid_of_blocks hb).2 h.val) ?_ ?_
    · intro x hx; refine hf _ ?_ ?_ ?_ ?_ <;> (try simp only [off]) <;> omega
    · refine forall_id ?_ ?_ ?_ ?_ <;> intro x hx <;> refine hf _ ?_ ?_ ?_ ?_ <;>
        (try simp only [off]) <;> omega
  obtain ⟨m1, a1, a2, a3, a4⟩ := zeroWords_ok (3 * n.objs) m (B + off c 4 + 16) (by simp only [off]; omega)
    (by rw [Nat.add_assoc]; exact h.valid (by simp only [off]; omega))
  have H1 := hd m1 a2 (fun x _ h2 _ _ => a4 x (by simp only [off] at h2 ⊢; omega))
  obtain ⟨m2, b1, b2, b3, b4⟩ := zeroWords_ok (2 * n.garbage) m1 (B + off c 6 + 16) (by simp only [off]; omega)
    (by rw [Nat.add_assoc]; exact H1.valid (by simp only [off]; omega))
  have H2 := hd m2 (b2.trans a2) (fun x _ h2 _ h4 => by
    rw [b4 x (by simp only [off, hL] at h4 ⊢; omega), a4 x (by simp only [off] at h2 ⊢; omega)])
  obtain ⟨m3, c1, c2, c3, c4⟩ := zeroWords_ok n.dataptrs m2 (B + off c 5 + 16) (by simp only [off]; omega)
    (by rw [Nat.add_assoc]; exact H2.valid (by simp only [off]; omega))
  have H3 := hd m3 (c2.trans (b2.trans a2)) (fun x _ h2 h3 h4 => by
    rw [c4 x (by simp only [off] at h3 ⊢; omega), b4 x (by simp only [off, hL] at h4 ⊢; omega),
      a4 x (by simp only [off] at h2 ⊢; omega)])
  obtain ⟨m4, d1, d2, d3, d4⟩ := zeroWords_ok n.slots m3 (B + off c 3 + 16) (by simp only [off]; omega)
    (by rw [Nat.add_assoc]; exact H3.valid (by simp only [off]; omega))
  refine ⟨m4, ?_, d2.trans (c2.trans (b2.trans a2)), ?_, ?_⟩
  · simp only [zeroData]
    rw [h.sectionData (by omega) (by omega), Res.ok_bind, a1, Res.ok_bind, H1.sectionData (by omega) (by omega),
      Res.ok_bind, b1, Res.ok_bind, H2.sectionData (by omega) (by omega), Res.ok_bind, c1, Res.ok_bind,
      H3.sectionData (by omega) (by omega), Res.ok_bind, d1]
  · refine forall_id ?_ ?_ ?_ ?_ <;> intro x hx <;> simp only [ent, cnt] at hx
    · exact d3 _ (by omega) (by omega)
    · rw [d4 _ (by simp only [off]; omega), c4 _ (by simp only [off]; omega), b4 _ (by simp only [off]; omega)]
      exact a3 _ (by omega) (by omega)
    · rw [d4 _ (by simp only [off]; omega)]
      exact c3 _ (by omega) (by omega)
    · rw [d4 _ (by simp only [off]; omega), c4 _ (by simp only [off]; omega)]
      exact b3 _ (by omega) (by omega)
  · intro x hx
    have x3 := hx 3 (by omega) (by omega)
    have x4 := hx 4 (by omega) (by omega)
    have x5 := hx 5 (by omega) (by omega)
    have x6 := hx 6 (by omega) (by omega)
    simp only [ent, cnt] at x3 x4 x5 x6
    rw [d4 x (by omega), c4 x (by omega), b4 x (by omega), a4 x (by omega)]

theorem clear_ok {m : Mem} {B cap : Nat} {c : Caps} {k : Content} (h : Layout m B B cap c k) (z : Bool) :
    ∃ m', clear m B z 8 = .ok m' ∧ m'.blocks = m.blocks ∧ Layout m' B B cap c Content.empty ∧
      (z = true → ∀ id, 3 ≤ id → id ≤ 6 → ∀ x, x < ent id * cnt k.counts id →
        m'.byte (B + (off c id + 16 + x)) = 0) ∧
      ∀ x, x < B ∨ B + c.len ≤ x → m'.byte x = m.byte x := by
  have hL : c.len = 128 + 8 * c.slots + 24 * c.objs + 8 * c.dataptrs + 16 * c.garbage := rfl
  have fit := h.head.fit
  have leS := h.head.le.slots
  have leO := h.head.le.objs
  have leD := h.head.le.dataptrs
  have leG := h.head.le.garbage
  -- zeroing
  have key : ∃ m1, clearData m B z k.counts.objs k.counts.dataptrs k.counts.slots k.counts.garbage 8 = .ok m1 ∧ m1.blocks = m.blocks ∧
      (z = true → ∀ id, 3 ≤ id → id ≤ 6 → ∀ x, x < ent id * cnt k.counts id →
        m1.byte (B + (off c id + 16 + x)) = 0) ∧
      ∀ x, (∀ id, 3 ≤ id → id ≤ 6 → x < B + (off c id + 16) ∨
        B + (off c id + 16 + ent id * cnt k.counts id) ≤ x) → m1.byte x = m.byte x := by
    cases z with
    | true =>
      obtain ⟨m1, e1, e2, e3, e4⟩ := zeroData_ok h.head
      exact ⟨m1, e1, e2, fun _ => e3, e4⟩
    | false => exact ⟨m, rfl, rfl, by simp, fun _ _ => rfl⟩
  obtain ⟨m1, e1, e2, e3, e4⟩ := key
  have H1 : Head m1 B B cap c k.counts := by
    refine h.head.frame ((Mem.valid_of_blocks e2).2 h.head.val) ?_ ?_
    · intro x hx; refine e4 _ (forall_id ?_ ?_ ?_ ?_) <;> simp only [off, ent, cnt] <;> omega
    · refine forall_id ?_ ?_ ?_ ?_ <;> intro x hx <;> refine e4 _ (forall_id ?_ ?_ ?_ ?_) <;>
        simp only [off, ent, cnt] <;> omega
  let m2 := m1.put (B + off c 3 + 8) 0
  let m3 := m2.put (B + off c 4 + 8) 0
  let m4 := m3.put (B + off c 5 + 8) 0
  let m5 := m4.put (B + off c 6 + 8) 0
  have b5 : m5.blocks = m.blocks := by simp [m5, m4, m3, m2, e2]
  have f5 : ∀ x, (∀ id, 3 ≤ id → id ≤ 6 → x < B + off c id + 8 ∨ B + off c id + 8 + 8 ≤ x) →
      m5.byte x = m1.byte x := by
    intro x hx
    have x3 := hx 3 (by omega) (by omega)
    have x4 := hx 4 (by omega) (by omega)
    have x5 := hx 5 (by omega) (by omega)
    have x6 := hx 6 (by omega) (by omega)
    simp only [m5, m4, m3, m2]; frame_put
  have nzB := h.head.nzB
  have al := h.head.alB
  have step : ∀ (mm : Mem) (id : Nat), 3 ≤ id → id ≤ 6 → mm.blocks = m.blocks →
      mm.word (B + 8 * id) = B + off c id →
      setNumEntities mm B id 0 8 = .ok (mm.put (B + off c id + 8) 0) := by
    intro mm id h1 h2 hb hw
    have := off_end c id h1 h2
    exact setNumEntities_eq nzB al ((Mem.valid_of_blocks hb).2 h.head.val) (by omega) h1 h2 hw
      (off_mod c id h1 h2) (by omega)
  have r2 : setNumEntities m1 B 3 0 8 = .ok m2 := step m1 3 (by omega) (by omega) e2
    (H1.addr 3 (by omega) (by omega))
  have r3 : setNumEntities m2 B 4 0 8 = .ok m3 := step m2 4 (by omega) (by omega) (by simp [m2, e2]) (by
    simp only [m2]
    rw [Mem.word_put_other _ (by simp only [off]; omega)]
    exact H1.addr 4 (by omega) (by omega))
  have r4 : setNumEntities m3 B 5 0 8 = .ok m4 := step m3 5 (by omega) (by omega) (by simp [m3, m2, e2]) (by
    simp only [m3, m2]
    rw [Mem.word_put_other _ (by simp only [off]; omega), Mem.word_put_other _ (by simp only [off]; omega)]
    exact H1.addr 5 (by omega) (by omega))
  have r5 : setNumEntities m4 B 6 0 8 = .ok m5 := step m4 6 (by omega) (by omega) (by simp [m4, m3, m2, e2]) (by
    simp only [m4, m3, m2]
    rw [Mem.word_put_other _ (by simp only [off]; omega), Mem.word_put_other _ (by simp only [off]; omega),
      Mem.word_put_other _ (by simp only [off]; omega)]
    exact H1.addr 6 (by omega) (by omega))
  refine ⟨m5, ?_, b5, ⟨?_, Content.empty_ok, ?_, ?_, ?_, ?_⟩, ?_, ?_⟩
  · simp only [clear]
    rw [if_pos ⟨nzB, by omega, al⟩, h.head.numEntities (by omega) (by omega), Res.ok_bind,
      h.head.numEntities (by omega) (by omega), Res.ok_bind, h.head.numEntities (by omega) (by omega), Res.ok_bind,
      h.head.numEntities (by omega) (by omega), Res.ok_bind]
    simp only [cnt]
    rw [e1, Res.ok_bind, r2, Res.ok_bind, r3, Res.ok_bind, r4, Res.ok_bind, r5]
  · refine H1.withNums (by rw [b5, e2]) ⟨?_, ?_, ?_, ?_⟩ ?_ ?_ ?_
    · simp [Content.counts, Content.empty]
    · simp [Content.counts, Content.empty]
    · simp [Content.counts, Content.empty]
    · simp [Content.counts, Content.empty]
    · intro x hx; exact f5 _ (forall_id (by simp only [off]; omega) (by simp only [off]; omega)
        (by simp only [off]; omega) (by simp only [off]; omega))
    · refine forall_id ?_ ?_ ?_ ?_ <;> intro x hx <;>
        exact f5 _ (forall_id (by simp only [off]; omega) (by simp only [off]; omega)
        (by simp only [off]; omega) (by simp only [off]; omega))
    · have hW : 0 < W := by decide
      refine forall_id ?_ ?_ ?_ ?_ <;>
        simp only [cnt, Content.counts, Content.empty, List.length_nil, m5, m4, m3, m2, off] <;> words
  · intro i r hi; simp [Content.empty] at hi
  · intro i r hi; simp [Content.empty] at hi
  · intro i r hi; simp [Content.empty] at hi
  · intro x hx; simp [Content.empty] at hx
  · intro hz
    have lec := h.head.le.cnt
    have g := e3 hz
    refine forall_id ?_ ?_ ?_ ?_ <;> intro x hx <;>
      (rw [f5 _ (forall_id (by simp only [off, ent, cnt] at hx ⊢; omega) (by simp only [off, ent, cnt] at hx ⊢; omega)
        (by simp only [off, ent, cnt] at hx ⊢; omega) (by simp only [off, ent, cnt] at hx ⊢; omega))]
       exact g _ (by omega) (by omega) x hx)
  · intro x hx
    rw [f5 _ (forall_id (by simp only [off]; omega) (by simp only [off]; omega)
        (by simp only [off]; omega) (by simp only [off]; omega))]
    exact e4 _ (forall_id (by simp only [off, ent, cnt]; omega) (by simp only [off, ent, cnt]; omega)
        (by simp only [off, ent, cnt]; omega) (by simp only [off, ent, cnt]; omega))

end SixTrack.Buf
