import Verif.Buffer.ApplyLemmas
import Verif.Buffer.RemapAny

/-!
# Shifting all addresses of a buffer with garbage ranges
-/

namespace SixTrack.Buf

/-- The loop over the garbage ranges, wherever it starts. -/
theorem applyGarbageLoop_any (d : Nat) : ∀ (n : Nat) (m : Mem) (it : Nat), it % 8 = 0 → m.valid it (16 * n) →
    ∃ m' ok, applyGarbageLoop m d it n = .ok (m', ok) ∧ m'.blocks = m.blocks ∧
      (∀ x, (∀ j < n, x < it + 16 * j ∨ it + 16 * j + 8 ≤ x) → m'.byte x = m.byte x) ∧
      (ok = true ↔ ∀ j < n, shift (m.word (it + 16 * j)) d ≠ 0) ∧
      (ok = true → ∀ j < n, m'.word (it + 16 * j) = shift (m.word (it + 16 * j)) d) := by
  intro n
  induction n with
  | zero =>
    intro m it _ _
    exact ⟨m, true, rfl, rfl, fun _ _ => rfl, ⟨fun _ => by omega, fun _ => rfl⟩, by omega⟩
  | succ n ih =>
    intro m it al val
    have hv : ∀ o k, o + k ≤ 16 * (n + 1) → m.valid (it + o) k := fun o k ho =>
      Mem.valid_sub val (by omega) (by omega)
    have v0 : m.valid it 8 := hv 0 8 (by omega)
    simp only [applyGarbageLoop]
    rw [Mem.load64_ok al v0, Res.ok_bind]
    by_cases hc : shift (m.word it) d ≠ 0
    · rw [if_pos hc, Mem.store64_ok al v0, Res.ok_bind]
      obtain ⟨m', ok, e, hb, hf, hok, hw⟩ := ih (m.put it (shift (m.word it) d)) (it + 16) (by omega)
        (by simp only [Mem.put_valid]; exact hv 16 _ (by omega))
      have same : ∀ j, (m.put it (shift (m.word it) d)).word (it + 16 + 16 * j) = m.word (it + 16 + 16 * j) := fun j =>
        Mem.word_put_other _ (by omega)
      refine ⟨m', ok, e, by rw [hb]; simp, ?_, ?_, ?_⟩
      · intro x hx
        rw [hf x (fun j hj => by have := hx (j + 1) (by omega); omega)]
        exact Mem.byte_put_of_lt _ (by have := hx 0 (by omega); omega)
      · rw [hok]
        constructor
        · intro h j hj
          cases j with
          | zero => simpa using hc
          | succ j =>
            have := h j (by omega)
            rw [same] at this
            rwa [show it + 16 * (j + 1) = it + 16 + 16 * j by omega]
        · intro h j hj
          have := h (j + 1) (by omega)
          rw [show it + 16 * (j + 1) = it + 16 + 16 * j by omega] at this
          rwa [same]
      · intro ht j hj
        cases j with
        | zero =>
          rw [Nat.mul_zero, Nat.add_zero, Mem.word_congr (m := m.put it (shift (m.word it) d)) (fun x h1 h2 => hf x
            (fun j _ => by omega))]
          exact Mem.word_put_same _ _ _ (shift_lt _ _)
        | succ j =>
          rw [show it + 16 * (j + 1) = it + 16 + 16 * j by omega, hw ht j (by omega), same]
    · rw [if_neg hc]
      refine ⟨m, false, rfl, rfl, fun _ _ => rfl, ⟨by simp, fun h => ?_⟩, by simp⟩
      have := h 0 (by omega)
      simp only [Nat.mul_zero, Nat.add_zero] at this
      exact absurd this hc

/-- The words of the header which hold addresses. -/
structure HeadWords (m : Mem) (A B cap : Nat) (c : Caps) : Prop where
  nzB : B ≠ 0
  alB : B % 8 = 0
  fit : c.len ≤ cap
  val : m.valid B cap
  h0 : m.word B = A
  addr : ∀ id, 3 ≤ id → id ≤ 6 → m.word (B + 8 * id) = A + off c id

theorem Head.words {m : Mem} {A B cap : Nat} {c n : Caps} (h : Head m A B cap c n) : HeadWords m A B cap c :=
  ⟨h.nzB, h.alB, h.fit, h.val, h.h0, h.addr⟩

theorem HeadWords.frame {m m' : Mem} {A B cap : Nat} {c : Caps} (h : HeadWords m A B cap c) (hb : m'.blocks = m.blocks)
    (hf : ∀ x, x < B + 64 → B ≤ x → m'.byte x = m.byte x) : HeadWords m' A B cap c := by
  refine ⟨h.nzB, h.alB, h.fit, (Mem.valid_of_blocks hb).2 h.val, ?_, fun id h1 h2 => ?_⟩
  · exact (Mem.word_congr fun x h1 h2 => hf x (by omega) (by omega)).trans h.h0
  · exact (Mem.word_congr fun x h3 h4 => hf x (by omega) (by omega)).trans (h.addr id h1 h2)

theorem HeadWords.load {m : Mem} {A B cap : Nat} {c : Caps} (h : HeadWords m A B cap c) {id : Nat} (h1 : 3 ≤ id)
    (h2 : id ≤ 6) : m.load64 (B + 8 * id) = .ok (A + off c id) := by
  have hal := h.alB
  have hf := h.fit
  simp only [Caps.len] at hf
  rw [Mem.load64_ok (by omega) (Mem.valid_sub h.val (by omega) (by omega)), h.addr id h1 h2]

theorem HeadWords.sectionData {m : Mem} {A B cap : Nat} {c : Caps} (h : HeadWords m A B cap c) {id : Nat} (h1 : 3 ≤ id)
    (h2 : id ≤ 6) : sectionData m B id 8 = .ok (A + off c id + 16) := by
  simp only [Buf.sectionData, Buf.sectionPtr]
  rw [if_pos ⟨h.nzB, by omega, h1, h2⟩, h.load h1 h2, Res.ok_bind, Res.pure_eq,
    if_pos (by have := off_ge c id h1 h2; omega), sectionHeaderLength_8]

theorem HeadWords.applyHeader {m : Mem} {B N cap d : Nat} {c : Caps} (h : HeadWords m B B cap c)
    (sh : Shifts B N cap d) (nz : N ≠ 0) : applyHeader m B d = .ok (Buf.headed m B N c, true) := by
  have hal := h.alB
  have f := h.fit
  have hL : c.len = 128 + 8 * c.slots + 24 * c.objs + 8 * c.dataptrs + 16 * c.garbage := rfl
  have s0 : shift B d = N := sh 0 (by omega)
  have sid : ∀ id, 3 ≤ id → id ≤ 6 → shift (B + off c id) d = N + off c id :=
    fun id h1 h2 => sh _ (by have := off_end c id h1 h2; omega)
  have st : ∀ (mm : Mem) (o v : Nat), mm.blocks = m.blocks → o % 8 = 0 → o + 8 ≤ cap →
      mm.store64 (B + o) v = .ok (mm.put (B + o) v) := fun mm o v hb ho hc =>
    Mem.store64_ok (by omega) ((Mem.valid_of_blocks hb).2 (Mem.valid_sub h.val (by omega) (by omega)))
  have st0 : ∀ v : Nat, m.store64 B v = .ok (m.put B v) := fun v => by
    have := st m 0 v rfl rfl (by omega); simpa using this
  have l3 := h.load (id := 3) (by omega) (by omega)
  have l4 := h.load (id := 4) (by omega) (by omega)
  have l5 := h.load (id := 5) (by omega) (by omega)
  have l6 := h.load (id := 6) (by omega) (by omega)
  simp only [Nat.reduceMul] at l3 l4 l5 l6
  simp only [Buf.applyHeader]
  rw [Mem.load64_ok hal (Mem.valid_sub h.val (by omega) (by omega)), h.h0, Res.ok_bind, l3, Res.ok_bind, l4, Res.ok_bind,
    l5, Res.ok_bind, l6, Res.ok_bind, s0,
    sid 3 (by omega) (by omega), sid 4 (by omega) (by omega), sid 5 (by omega) (by omega),
    sid 6 (by omega) (by omega), if_pos (by omega), st0, Res.ok_bind,
    st _ 24 _ (by simp) (by omega) (by omega), Res.ok_bind,
    st _ 32 _ (by simp) (by omega) (by omega), Res.ok_bind, st _ 40 _ (by simp) (by omega) (by omega),
    Res.ok_bind, st _ 48 _ (by simp) (by omega) (by omega), Res.ok_bind]
  rfl

/-- `NS(ManagedBuffer_apply_addr_offset)` on any buffer that is in order: the loop over the garbage ranges reads and writes the words
at the distance of a range from the begin of the section, and the other addresses are shifted. -/
theorem applyAddrOffset_garbage {m : Mem} {B N cap d : Nat} {c : Caps} {k : Content} (h : Layout m B B cap c k)
    (nz : N ≠ 0) (limN : N + cap < W) (sh : Shifts B N cap d) (hd : d ≠ 0) :
    ∃ m' ok, applyAddrOffset m B d 8 = .ok (m', ok) ∧ m'.blocks = m.blocks ∧
      (ok = true ↔ ∀ j < k.gs.length, shift (m.word (B + off c 6 + 16 * j)) d ≠ 0) ∧
      (ok = true → HeadWords m' N B cap c ∧ Recs m' N B c k.recs ∧ Ptrs m' N B c k.ptrs ∧ Data m' B k ∧
        (∀ j < k.gs.length, m'.word (B + off c 6 + 16 * j) = shift (m.word (B + off c 6 + 16 * j)) d) ∧
        ∀ x, B + off c 6 ≤ x → (∀ j < k.gs.length, x < B + off c 6 + 16 * j ∨ B + off c 6 + 16 * j + 8 ≤ x) →
          m'.byte x = m.byte x) := by
  have M := h.mixed
  obtain ⟨b1, b2, b3, b4, b5⟩ := M.bounds
  have nzB := h.head.nzB
  have al := h.head.alB
  have hL : c.len = 128 + 8 * c.slots + 24 * c.objs + 8 * c.dataptrs + 16 * c.garbage := rfl
  have h6 : off c 6 = 112 + 8 * c.slots + 24 * c.objs + 8 * c.dataptrs := by simp only [off]
  have h5 : off c 5 = 96 + 8 * c.slots + 24 * c.objs := by simp only [off]
  have h4 : off c 4 = 80 + 8 * c.slots := by simp only [off]
  obtain ⟨m0, ok, g1, g2, g3, g4, g5⟩ := applyGarbageLoop_any d k.gs.length m (B + off c 6) (by omega)
    (h.head.valid (by omega))
  have e : applyAddrOffset m B d 8 = (do
      let (m, s) ← applyGarbageLoop m d (B + off c 6) k.gs.length
      let (m, s) ← if s then do
          let p ← sectionData m B 5 8
          applyDataptrsLoop m d p k.ptrs.length
        else .ok (m, s)
      let (m, s) ← if s then do
          let p ← sectionData m B 4 8
          applyObjectsLoop m d p k.recs.length
        else .ok (m, s)
      if s then applyHeader m B d else return (m, false)) := by
    simp only [applyAddrOffset]
    rw [if_pos ⟨nzB, by omega, al⟩, h.head.needsRemapping, Res.ok_bind]
    simp only [ne_eq, not_true_eq_false, decide_false, Bool.false_eq_true, if_false]
    rw [if_pos hd, h.head.numEntities (by omega) (by omega), Res.ok_bind,
      h.head.numEntities (by omega) (by omega), Res.ok_bind,
      h.head.numEntities (id := 6) (by omega) (by omega), Res.ok_bind,
      h.head.sectionPtr (by omega) (by omega), Res.ok_bind]
    rfl
  rw [e, g1]
  simp only [Res.ok_bind]
  cases ok with
  | false =>
    refine ⟨m0, false, ?_, g2, g4, by simp⟩
    simp
  | true =>
    have f0 : ∀ x, x < B + off c 6 → m0.byte x = m.byte x := fun x hx => g3 x fun j _ => by omega
    have w0 : ∀ a, a + 8 ≤ B + off c 6 → m0.word a = m.word a := fun a ha => Mem.word_congr fun x _ _ => f0 x (by omega)
    have H0 : HeadWords m0 B B cap c := h.head.words.frame g2 fun x h1 _ => f0 x (by omega)
    obtain ⟨m1, i1, i2, i3, i4⟩ := applyDataptrsLoop_ok (nS := k.nS) sh limN al nz (by omega) k.ptrs m0
      (B + (off c 5 + 16)) (by omega) ((Mem.valid_of_blocks g2).2 (h.head.valid (by omega))) H0.val
      (by omega)
      (by
        intro j r hj
        have hlt := (List.getElem?_eq_some_iff.1 hj).1
        have hr := h.ok.ptr_ok r (List.mem_of_getElem? hj)
        have := h.ptrs j r hj
        rw [w0 _ (by omega), w0 _ (by omega)]
        rw [Nat.add_assoc B (off c 5 + 16), Nat.add_assoc B 80] at *
        exact this)
      (fun r hr => ⟨(h.ok.ptr_ok r hr).1, (h.ok.ptr_ok r hr).2.1, (h.ok.ptr_ok r hr).2.2.2⟩) h.ok.ptr_ne
    have hp := h.ok.ptr_ok
    have f1 : ∀ x, (x < B + 80 ∨ B + 80 + 8 * k.nS ≤ x) → (x < B + (off c 5 + 16) ∨ B + off c 6 ≤ x) →
        m1.byte x = m0.byte x := fun x h1 h2 =>
      i4 x (by omega) fun p hpm => by have := hp p hpm; omega
    have H1 : HeadWords m1 B B cap c := H0.frame i2 fun x h1 _ => f1 x (by omega) (by omega)
    have r1 : ∀ (j : Nat) (r : Nat × Nat × Nat), k.recs[j]? = some r → m1.word (B + (off c 4 + 16) + 24 * j) = B + 80 + r.1 ∧
        m1.word (B + (off c 4 + 16) + 24 * j + 8) = r.2.1 ∧ m1.word (B + (off c 4 + 16) + 24 * j + 16) = r.2.2 := by
      intro j r hj
      have hlt := (List.getElem?_eq_some_iff.1 hj).1
      obtain ⟨a1, a2, a3⟩ := h.recs j r hj
      have same : ∀ a, B + (off c 4 + 16) ≤ a → a + 8 ≤ B + off c 5 → m1.word a = m.word a := fun a ha1 ha2 => by
        rw [Mem.word_congr (m := m0) fun x _ _ => f1 x (by omega) (by omega), w0 a (by omega)]
      rw [same _ (by omega) (by omega), same _ (by omega) (by omega), same _ (by omega) (by omega),
        show B + (off c 4 + 16) + 24 * j + 8 = B + (off c 4 + 16 + 24 * j + 8) by omega,
        show B + (off c 4 + 16) + 24 * j + 16 = B + (off c 4 + 16 + 24 * j + 16) by omega,
        show B + (off c 4 + 16) + 24 * j = B + (off c 4 + 16 + 24 * j) by omega]
      exact ⟨a1, a2, a3⟩
    obtain ⟨m2, j1, j2, j3, j4⟩ := applyObjectsLoop_ok (nS := k.nS) sh limN nz (by omega) k.recs m1
      (B + (off c 4 + 16)) (by omega) (Mem.valid_sub H1.val (by omega) (by omega)) (fun j r hj => (r1 j r hj).1)
      (fun r hr => by have := (h.ok.rec_ok r hr).2.1; omega)
    have f2 : ∀ x, (x < B + (off c 4 + 16) ∨ B + off c 5 ≤ x) → m2.byte x = m1.byte x := fun x hx =>
      j4 x fun j hj => by omega
    have H2 : HeadWords m2 B B cap c := H1.frame j2 fun x h1 _ => f2 x (by omega)
    have fh : ∀ x, B + 64 ≤ x → (headed m2 B N c).byte x = m2.byte x := fun x hx => headed_byte _ _ _ _ (by omega)
    have wh : ∀ a, B + 64 ≤ a → (headed m2 B N c).word a = m2.word a := fun a ha =>
      Mem.word_congr fun x _ _ => fh x (by omega)
    refine ⟨headed m2 B N c, true, ?_, by rw [headed_blocks, j2, i2, g2], by simpa using g4, fun _ => ⟨?_, ?_, ?_, ?_, ?_, ?_⟩⟩
    · rw [if_pos rfl, H0.sectionData (by omega) (by omega), Res.ok_bind, Nat.add_assoc B, i1]
      simp only [Res.ok_bind, if_true]
      rw [H1.sectionData (by omega) (by omega), Res.ok_bind, Nat.add_assoc B, j1]
      simp only [Res.ok_bind, if_true]
      exact H2.applyHeader sh nz
    · refine ⟨nzB, al, h.head.fit, ?_, ?_, ?_⟩
      · exact (Mem.valid_of_blocks (headed_blocks m2 B N c)).2 H2.val
      · simp only [headed]
        rw [Mem.word_put_other _ (by omega), Mem.word_put_other _ (by omega), Mem.word_put_other _ (by omega),
          Mem.word_put_other _ (by omega), Mem.word_put_same _ _ _ (by omega)]
      · have o3 : off c 3 = 64 := by simp only [off]
        refine forall_id ?_ ?_ ?_ ?_ <;> simp only [headed, Nat.reduceMul]
        · rw [Mem.word_put_other _ (by omega), Mem.word_put_other _ (by omega), Mem.word_put_other _ (by omega),
            Mem.word_put_same _ _ _ (by omega)]
        · rw [Mem.word_put_other _ (by omega), Mem.word_put_other _ (by omega), Mem.word_put_same _ _ _ (by omega)]
        · rw [Mem.word_put_other _ (by omega), Mem.word_put_same _ _ _ (by omega)]
        · rw [Mem.word_put_same _ _ _ (by omega)]
    · intro j r hj
      have hlt := (List.getElem?_eq_some_iff.1 hj).1
      obtain ⟨-, a2, a3⟩ := r1 j r hj
      have a1 := j3 j r hj
      rw [wh _ (by omega), wh _ (by omega), wh _ (by omega)]
      refine ⟨by rw [← Nat.add_assoc B]; exact a1, ?_, ?_⟩
      · rw [← a2, show B + (off c 4 + 16 + 24 * j + 8) = B + (off c 4 + 16) + 24 * j + 8 by omega]
        exact Mem.word_congr fun x h1 h2 => j4 x fun i hi => by omega
      · rw [← a3, show B + (off c 4 + 16 + 24 * j + 16) = B + (off c 4 + 16) + 24 * j + 16 by omega]
        exact Mem.word_congr fun x h1 h2 => j4 x fun i hi => by omega
    · intro j p hj
      have hlt := (List.getElem?_eq_some_iff.1 hj).1
      have hpm := hp p (List.mem_of_getElem? hj)
      obtain ⟨a1, a2⟩ := i3 j p hj
      rw [wh _ (by omega), wh _ (by omega), Mem.word_congr (m := m1) (a := B + (off c 5 + 16 + 8 * j)) fun x h1 h2 => f2 x (by omega),
        Mem.word_congr (m := m1) (a := B + (80 + p.1)) fun x h1 h2 => f2 x (by omega), ← Nat.add_assoc B, ← Nat.add_assoc B 80]
      exact ⟨a1, a2⟩
    · intro x hx hnp
      rw [fh _ (by omega), f2 _ (by omega), i4 _ (by omega) (fun p hpm => ?_), f0 _ (by omega), h.data x hx hnp]
      refine Classical.byContradiction fun hn => hnp ⟨p, hpm, by omega, by omega⟩
    · intro j hj
      rw [← g5 rfl j hj, wh _ (by omega)]
      rw [Mem.word_congr (m := m1) fun x h1 h2 => f2 x (by omega)]
      exact Mem.word_congr fun x h1 h2 => f1 x (by omega) (by omega)
    · intro x hx hx'
      rw [fh _ (by omega), f2 _ (by omega), f1 _ (by omega) (by omega)]
      exact g3 x hx'

end SixTrack.Buf
