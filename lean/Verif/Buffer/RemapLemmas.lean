import Verif.Buffer.FrameLemmas

/-!
# Remapping restores the layout
-/

namespace SixTrack.Buf

/-! ## Shifting addresses -/

/-- `off` brings addresses relative to `A` to addresses relative to `B`. -/
def Shifts (A B cap d : Nat) : Prop := ∀ o, o ≤ cap → shift (A + o) d = B + o

theorem shifts_of {A B cap : Nat} (hA : A + cap < W) (hB : B + cap < W) :
    Shifts A B cap ((B + (W - A % W)) % W) := by
  intro o ho
  unfold shift
  have e : A % W = A := Nat.mod_eq_of_lt (by omega)
  rw [e, Nat.add_mod_mod, show A + o + (B + (W - A)) = B + o + W by omega, Nat.add_mod_right]
  exact Nat.mod_eq_of_lt (by omega)

theorem addrDiff_ok {A B : Nat} (h : A ≠ B + W / 2) : addrDiff A B = .ok ((B + (W - A % W)) % W) :=
  if_neg h

theorem diff_eq_zero {A B : Nat} (hA : A < W) (hB : B < W) : (B + (W - A % W)) % W = 0 ↔ A = B := by
  rw [Nat.mod_eq_of_lt hA]
  constructor
  · intro h
    rcases Nat.lt_or_ge B A with hlt | hge
    · rw [Nat.mod_eq_of_lt (by omega)] at h; omega
    · rw [show B + (W - A) = B - A + W by omega, Nat.add_mod_right, Nat.mod_eq_of_lt (by omega)] at h
      omega
  · rintro rfl
    rw [show A + (W - A) = W by omega, Nat.mod_self]

/-! ## The loops -/

theorem remapObjectsLoop_ok {A B cap d nS : Nat} (sh : Shifts A B cap d) (limB : B + cap < W)
    (hS : 80 + 8 * nS ≤ cap) :
    ∀ (rs : List (Nat × Nat × Nat)) (m : Mem) (it mv : Nat), it % 8 = 0 → m.valid it (24 * rs.length) →
      (∀ (j : Nat) (r : Nat × Nat × Nat), rs[j]? = some r → m.word (it + 24 * j) = A + 80 + r.1 ∧
        m.word (it + 24 * j + 16) = r.2.2) →
      (∀ r ∈ rs, mv ≤ B + 80 + r.1 ∧ r.1 + roundUp r.2.2 8 ≤ 8 * nS) →
      rs.Pairwise (fun a b => a.1 + roundUp a.2.2 8 ≤ b.1) →
      ∃ m', remapObjectsLoop m (B + 80) (B + 80 + 8 * nS) d 8 mv it rs.length = .ok (m', true) ∧
        m'.blocks = m.blocks ∧
        (∀ (j : Nat) (r : Nat × Nat × Nat), rs[j]? = some r → m'.word (it + 24 * j) = B + 80 + r.1) ∧
        ∀ x, (∀ j, j < rs.length → x < it + 24 * j ∨ it + 24 * j + 8 ≤ x) → m'.byte x = m.byte x
  | [], m, it, mv, _, _, _, _, _ => ⟨m, rfl, rfl, by simp, fun _ _ => rfl⟩
  | r :: rs, m, it, mv, al, val, hw, hr, hp => by
    rw [List.length_cons] at val
    have hv : ∀ o k, o + k ≤ 24 * (rs.length + 1) → m.valid (it + o) k := fun o k ho =>
      Mem.valid_sub val (by omega) (by omega)
    have w0 := hw 0 r (by simp)
    rw [Nat.mul_zero, Nat.add_zero] at w0
    have r0 := hr r (by simp)
    rw [List.pairwise_cons] at hp
    have e : shift (A + 80 + r.1) d = B + 80 + r.1 := by
      rw [Nat.add_assoc, Nat.add_assoc]; exact sh _ (by omega)
    have st : m.store64 it (B + 80 + r.1) = .ok (m.put it (B + 80 + r.1)) :=
      Mem.store64_ok al (hv 0 8 (by omega))
    obtain ⟨m', i1, i2, i3, i4⟩ := remapObjectsLoop_ok sh limB hS rs (m.put it (B + 80 + r.1)) (it + 24)
      (B + 80 + r.1 + roundUp r.2.2 8) (by omega)
      (by simp only [Mem.put_valid]; exact hv 24 _ (by omega))
      (by
        intro j q hj
        have := hw (j + 1) q (by simpa using hj)
        rw [show it + 24 * (j + 1) = it + 24 + 24 * j by omega] at this
        rw [Mem.word_put_other _ (by omega), Mem.word_put_other _ (by omega)]
        exact this)
      (by
        intro q hq
        have := hp.1 q hq
        exact ⟨by omega, (hr q (by simp [hq])).2⟩)
      hp.2
    refine ⟨m', ?_, by rw [i2]; simp, ?_, ?_⟩
    · simp only [List.length_cons, remapObjectsLoop]
      rw [Mem.load64_ok (by omega) (hv 16 8 (by omega)), Res.ok_bind,
        Mem.load64_ok al (hv 0 8 (by omega)), Res.ok_bind, w0.1, e, if_neg (by omega), st, Res.ok_bind, w0.2,
        Nat.mod_eq_of_lt (show B + 80 + r.1 + roundUp r.2.2 8 < W by omega)]
      exact i1
    · intro j q hj
      cases j with
      | zero =>
        simp only [List.getElem?_cons_zero, Option.some.injEq] at hj
        subst hj
        rw [Nat.mul_zero, Nat.add_zero, Mem.word_congr (m := m.put it (B + 80 + r.1)) (fun x h1 h2 => i4 x
          (fun j _ => by omega))]
        exact Mem.word_put_same _ _ _ (by omega)
      | succ j =>
        rw [show it + 24 * (j + 1) = it + 24 + 24 * j by omega]
        exact i3 j q (by simpa using hj)
    · intro x hx
      rw [i4 x (fun j hj => by have := hx (j + 1) (by simp; omega); omega)]
      exact Mem.byte_put_of_lt _ (by have := hx 0 (by simp); omega)

theorem remapDataptrsLoop_ok {A B cap d nS : Nat} (sh : Shifts A B cap d) (limB : B + cap < W)
    (alB : B % 8 = 0) (nz : B ≠ 0) (hS : 80 + 8 * nS ≤ cap) :
    ∀ (ps : List (Nat × Nat)) (m : Mem) (it : Nat), it % 8 = 0 → m.valid it (8 * ps.length) →
      m.valid B cap → B + 80 + 8 * nS ≤ it →
      (∀ (j : Nat) (p : Nat × Nat), ps[j]? = some p → m.word (it + 8 * j) = A + 80 + p.1 ∧
        m.word (B + 80 + p.1) = A + 80 + p.2) →
      (∀ p ∈ ps, p.1 % 8 = 0 ∧ p.1 + 8 ≤ 8 * nS ∧ p.2 < 8 * nS) →
      ps.Pairwise (fun a b => a.1 ≠ b.1) →
      ∃ m', remapDataptrsLoop m (B + 80) (B + 80 + 8 * nS) d it ps.length = .ok (m', true) ∧
        m'.blocks = m.blocks ∧
        (∀ (j : Nat) (p : Nat × Nat), ps[j]? = some p → m'.word (it + 8 * j) = B + 80 + p.1 ∧
          m'.word (B + 80 + p.1) = B + 80 + p.2) ∧
        ∀ x, (x < it ∨ it + 8 * ps.length ≤ x) → (∀ p ∈ ps, x < B + 80 + p.1 ∨ B + 80 + p.1 + 8 ≤ x) →
          m'.byte x = m.byte x
  | [], m, it, _, _, _, _, _, _, _ => ⟨m, rfl, rfl, by simp, fun _ _ _ => rfl⟩
  | p :: ps, m, it, al, val, valB, hit, hw, hr, hp => by
    rw [List.length_cons] at val
    have hv : ∀ o k, o + k ≤ 8 * (ps.length + 1) → m.valid (it + o) k := fun o k ho =>
      Mem.valid_sub val (by omega) (by omega)
    have w0 := hw 0 p (by simp)
    rw [Nat.mul_zero, Nat.add_zero] at w0
    have r0 := hr p (by simp)
    rw [List.pairwise_cons] at hp
    have e1 : shift (A + 80 + p.1) d = B + 80 + p.1 := by
      rw [Nat.add_assoc, Nat.add_assoc]; exact sh _ (by omega)
    have e2 : shift (A + 80 + p.2) d = B + 80 + p.2 := by
      rw [Nat.add_assoc, Nat.add_assoc]; exact sh _ (by omega)
    have vp : m.valid (B + 80 + p.1) 8 := Mem.valid_sub valB (by omega) (by omega)
    let m1 := (m.put (B + 80 + p.1) (B + 80 + p.2)).put it (B + 80 + p.1)
    obtain ⟨m', i1, i2, i3, i4⟩ := remapDataptrsLoop_ok sh limB alB nz hS ps m1 (it + 8) (by omega)
      (by simp only [m1, Mem.put_valid]; exact hv 8 _ (by omega))
      (by simp only [m1, Mem.put_valid]; exact valB) (by omega)
      (by
        intro j q hj
        have := hw (j + 1) q (by simpa using hj)
        have hq := hr q (by simp [List.mem_of_getElem? hj])
        have hne := hp.1 q (List.mem_of_getElem? hj)
        rw [show it + 8 * (j + 1) = it + 8 + 8 * j by omega] at this
        simp only [m1]
        rw [Mem.word_put_other _ (by omega), Mem.word_put_other _ (by omega),
          Mem.word_put_other _ (by omega), Mem.word_put_other _ (by omega)]
        exact this)
      (fun q hq => hr q (by simp [hq])) hp.2
    refine ⟨m', ?_, by rw [i2]; simp [m1], ?_, ?_⟩
    · simp only [List.length_cons, remapDataptrsLoop]
      rw [Mem.load64_ok al (hv 0 8 (by omega)), Res.ok_bind, w0.1, e1, if_pos (by omega),
        Mem.load64_ok (by omega) vp, Res.ok_bind, w0.2, e2, Res.pure_eq, Res.ok_bind,
        if_pos (by omega), Mem.store64_ok (by omega) vp, Res.ok_bind,
        Mem.store64_ok al (by simp only [Mem.put_valid]; exact hv 0 8 (by omega)), Res.ok_bind]
      exact i1
    · intro j q hj
      cases j with
      | zero =>
        simp only [List.getElem?_cons_zero, Option.some.injEq] at hj
        subst hj
        have f : ∀ q ∈ ps, q.1 % 8 = 0 ∧ q.1 + 8 ≤ 8 * nS ∧ p.1 ≠ q.1 := fun q hq =>
          ⟨(hr q (by simp [hq])).1, (hr q (by simp [hq])).2.1, hp.1 q hq⟩
        rw [Nat.mul_zero, Nat.add_zero,
          Mem.word_congr (m := m1) (a := it) (fun x h1 h2 => i4 x (by omega)
            (fun q hq => by have := f q hq; omega)),
          Mem.word_congr (m := m1) (a := B + 80 + p.1) (fun x h1 h2 => i4 x (by omega)
            (fun q hq => by have := f q hq; omega))]
        simp only [m1]
        rw [Mem.word_put_same _ _ _ (by omega), Mem.word_put_other _ (by omega),
          Mem.word_put_same _ _ _ (by omega)]
        exact ⟨rfl, rfl⟩
      | succ j =>
        rw [show it + 8 * (j + 1) = it + 8 + 8 * j by omega]
        exact i3 j q (by simpa using hj)
    · intro x hx hx'
      rw [List.length_cons] at hx
      have := hx' p (by simp)
      rw [i4 x (by omega) (fun q hq => hx' q (by simp [hq]))]
      simp only [m1]
      rw [Mem.byte_put_of_lt _ (by omega), Mem.byte_put_of_lt _ (by omega)]

theorem remapGarbageLoop_ok {A B cap d nS : Nat} (sh : Shifts A B cap d) (limB : B + cap < W)
    (hS : 80 + 8 * nS ≤ cap) :
    ∀ (gs : List (Nat × Nat)) (m : Mem) (it : Nat), it % 8 = 0 → m.valid it (16 * gs.length) →
      (∀ (j : Nat) (r : Nat × Nat), gs[j]? = some r → m.word (it + 16 * j) = A + 80 + r.1) →
      (∀ r ∈ gs, r.1 < 8 * nS) →
      ∃ m', remapGarbageLoop m (B + 80) (B + 80 + 8 * nS) d it gs.length = .ok (m', true) ∧
        m'.blocks = m.blocks ∧
        (∀ (j : Nat) (r : Nat × Nat), gs[j]? = some r → m'.word (it + 16 * j) = B + 80 + r.1) ∧
        ∀ x, (∀ j, j < gs.length → x < it + 16 * j ∨ it + 16 * j + 8 ≤ x) → m'.byte x = m.byte x
  | [], m, it, _, _, _, _ => ⟨m, rfl, rfl, by simp, fun _ _ => rfl⟩
  | r :: gs, m, it, al, val, hw, hr => by
    rw [List.length_cons] at val
    have hv : ∀ o k, o + k ≤ 16 * (gs.length + 1) → m.valid (it + o) k := fun o k ho =>
      Mem.valid_sub val (by omega) (by omega)
    have w0 := hw 0 r (by simp)
    rw [Nat.mul_zero, Nat.add_zero] at w0
    have r0 := hr r (by simp)
    have e : shift (A + 80 + r.1) d = B + 80 + r.1 := by
      rw [Nat.add_assoc, Nat.add_assoc]; exact sh _ (by omega)
    obtain ⟨m', i1, i2, i3, i4⟩ := remapGarbageLoop_ok sh limB hS gs (m.put it (B + 80 + r.1)) (it + 16)
      (by omega)
      (by simp only [Mem.put_valid]; exact hv 16 _ (by omega))
      (by
        intro j q hj
        have := hw (j + 1) q (by simpa using hj)
        rw [show it + 16 * (j + 1) = it + 16 + 16 * j by omega] at this
        rw [Mem.word_put_other _ (by omega)]
        exact this)
      (fun q hq => hr q (by simp [hq]))
    refine ⟨m', ?_, by rw [i2]; simp, ?_, ?_⟩
    · simp only [List.length_cons, remapGarbageLoop]
      rw [Mem.load64_ok al (hv 0 8 (by omega)), Res.ok_bind, w0, e, if_pos (by omega),
        Mem.store64_ok al (hv 0 8 (by omega)), Res.ok_bind]
      exact i1
    · intro j q hj
      cases j with
      | zero =>
        simp only [List.getElem?_cons_zero, Option.some.injEq] at hj
        subst hj
        rw [Nat.mul_zero, Nat.add_zero, Mem.word_congr (m := m.put it (B + 80 + r.1)) (fun x h1 h2 => i4 x
          (fun j _ => by omega))]
        exact Mem.word_put_same _ _ _ (by omega)
      | succ j =>
        rw [show it + 16 * (j + 1) = it + 16 + 16 * j by omega]
        exact i3 j q (by simpa using hj)
    · intro x hx
      rw [i4 x (fun j hj => by have := hx (j + 1) (by simp; omega); omega)]
      exact Mem.byte_put_of_lt _ (by have := hx 0 (by simp); omega)

/-! ## The header -/

/-- The memory after the header has been set to base address `B` for a buffer located at `P`. -/
def headed (m : Mem) (P B : Nat) (c : Caps) : Mem :=
  ((((m.put P B).put (P + 24) (B + off c 3)).put (P + 32) (B + off c 4)).put (P + 40) (B + off c 5)).put
    (P + 48) (B + off c 6)

theorem headed_blocks (m : Mem) (P B : Nat) (c : Caps) : (headed m P B c).blocks = m.blocks := by
  simp only [headed, Mem.put_blocks]

theorem headed_byte (m : Mem) (P B : Nat) (c : Caps) {x : Nat} (h : x < P ∨ P + 64 ≤ x) :
    (headed m P B c).byte x = m.byte x := by
  simp only [headed]; frame_put

theorem Head.headed {m : Mem} {A P cap : Nat} {c n : Caps} (h : Head m A P cap c n) {B : Nat} (nz : B ≠ 0)
    (lim : B + cap < W) : Head (headed m P B c) B P cap c n := by
  have e : ∀ o, 64 ≤ o → (Buf.headed m P B c).word (P + o) = m.word (P + o) := fun o ho =>
    Mem.word_congr fun x h1 h2 => headed_byte _ _ _ _ (by omega)
  have f := h.fit
  have hL : c.len = 128 + 8 * c.slots + 24 * c.objs + 8 * c.dataptrs + 16 * c.garbage := rfl
  refine ⟨nz, h.nzB, h.alB, lim, h.limB, h.fit, (Mem.valid_of_blocks (headed_blocks _ _ _ _)).2 h.val, h.le,
    ?_, ?_, ?_, ?_, ?_, ?_⟩
  · simp only [Buf.headed]; words
  · rw [← h.h1]; simp only [Buf.headed]; words
  · rw [← h.h2]; simp only [Buf.headed]; words
  · refine forall_id ?_ ?_ ?_ ?_ <;> simp only [Buf.headed, off] <;> words
  · intro id h1 h2; rw [e _ (off_ge c id h1 h2), h.max id h1 h2]
  · intro id h1 h2
    rw [Nat.add_assoc, e _ (by have := off_ge c id h1 h2; omega), ← Nat.add_assoc, h.num id h1 h2]

theorem Head.addrOffset {m : Mem} {A B cap : Nat} {c n : Caps} (h : Head m A B cap c n)
    (hA : A ≠ B + W / 2) : addrOffset m B 8 = .ok (some ((B + (W - A % W)) % W)) := by
  simp only [Buf.addrOffset]
  rw [if_pos ⟨h.nzB, by omega, h.alB⟩, h.load0, Res.ok_bind, addrDiff_ok hA]
  rfl

theorem Head.remapHeader {m : Mem} {A B cap : Nat} {c n : Caps} (h : Head m A B cap c n)
    (hA : A ≠ B + W / 2) (hne : A ≠ B) :
    remapHeader m B ((B + (W - A % W)) % W) 8 = .ok (Buf.headed m B B c, true) := by
  have limA := h.limA
  have limB := h.limB
  have l := h.len_ge
  have nzB := h.nzB
  have f := h.fit
  have sh := shifts_of limA limB
  have d0 : (B + (W - A % W)) % W ≠ 0 := by
    rw [ne_eq, diff_eq_zero (by omega) (by omega)]; exact hne
  have s0 : shift A ((B + (W - A % W)) % W) = B := sh 0 (by omega)
  have sid : ∀ id, 3 ≤ id → id ≤ 6 → shift (A + off c id) ((B + (W - A % W)) % W) = B + off c id :=
    fun id h1 h2 => sh _ (by have := off_end c id h1 h2; omega)
  have ld : ∀ id, 3 ≤ id → id ≤ 6 → m.load64 (B + 8 * id) = .ok (A + off c id) := fun id h1 h2 => by
    rw [h.load (by omega) (by omega), h.addr id h1 h2]
  have st : ∀ (mm : Mem) (o v : Nat), mm.blocks = m.blocks → o % 8 = 0 → o + 8 ≤ cap →
      mm.store64 (B + o) v = .ok (mm.put (B + o) v) := fun mm o v hb ho hc =>
    Mem.store64_ok (by have := h.alB; omega) ((Mem.valid_of_blocks hb).2 (h.valid (by omega)))
  have st0 : ∀ v : Nat, m.store64 B v = .ok (m.put B v) := fun v => by
    have := st m 0 v rfl rfl (by omega); simpa using this
  have l3 := ld 3 (by omega) (by omega)
  have l4 := ld 4 (by omega) (by omega)
  have l5 := ld 5 (by omega) (by omega)
  have l6 := ld 6 (by omega) (by omega)
  simp only [Nat.reduceMul] at l3 l4 l5 l6
  simp only [Buf.remapHeader]
  rw [if_pos ⟨nzB, by omega⟩, h.addrOffset hA]
  simp only [Res.ok_bind]
  rw [if_neg (by simp), if_pos d0, h.load0, Res.ok_bind, s0, if_pos ⟨nzB, rfl⟩]
  rw [l3, Res.ok_bind, l4, Res.ok_bind, l5, Res.ok_bind, l6, Res.ok_bind,
    sid 3 (by omega) (by omega), sid 4 (by omega) (by omega), sid 5 (by omega) (by omega),
    sid 6 (by omega) (by omega), if_pos (by omega), st0, Res.ok_bind,
    st _ 24 _ (by simp) (by omega) (by omega), Res.ok_bind,
    st _ 32 _ (by simp) (by omega) (by omega), Res.ok_bind, st _ 40 _ (by simp) (by omega) (by omega),
    Res.ok_bind, st _ 48 _ (by simp) (by omega) (by omega), Res.ok_bind]
  rfl

theorem Head.remapSlots {m : Mem} {B cap : Nat} {c n : Caps} (h : Head m B B cap c n) :
    remapSlots m B 8 = .ok true := by
  have nzB := h.nzB
  have e := off_end c 3 (by omega) (by omega)
  have f := h.fit
  simp only [off, ent, cnt] at e
  have mx := h.max 3 (by omega) (by omega)
  have nm := h.num 3 (by omega) (by omega)
  have le := h.le.slots
  simp only [off, ent, cnt] at mx nm
  simp only [Buf.remapSlots]
  rw [if_pos ⟨nzB, by omega, h.alB⟩, h.sectionPtr (by omega) (by omega), Res.ok_bind, if_pos (by omega)]
  simp only [off]
  rw [h.load (by omega) (by omega), Res.ok_bind, Nat.add_assoc, h.load (by omega) (by omega), Res.ok_bind, mx,
    ← Nat.add_assoc, nm, entitySize_8 3 (by omega) (by omega)]
  simp only [ent, Res.pure_eq]
  congr 1
  exact decide_eq_true (by omega)

/-! ## The sections -/

/-- During remapping, the parts have different base addresses. -/
structure Mixed (m : Mem) (A0 A1 A2 A3 B cap : Nat) (c : Caps) (k : Content) : Prop where
  head : Head m A0 B cap c k.counts
  ok : k.Ok
  recs : Recs m A1 B c k.recs
  ptrs : Ptrs m A2 B c k.ptrs
  gars : Gars m A3 B c k.gs
  data : Data m B k

theorem Layout.mixed {m : Mem} {A B cap : Nat} {c : Caps} {k : Content} (h : Layout m A B cap c k) :
    Mixed m A A A A B cap c k := ⟨h.head, h.ok, h.recs, h.ptrs, h.gars, h.data⟩

theorem Mixed.layout {m : Mem} {A B cap : Nat} {c : Caps} {k : Content} (h : Mixed m A A A A B cap c k) :
    Layout m A B cap c k := ⟨h.head, h.ok, h.recs, h.ptrs, h.gars, h.data⟩

/-- Sizes of the parts of a content that fits. -/
theorem Mixed.bounds {m : Mem} {A0 A1 A2 A3 B cap : Nat} {c : Caps} {k : Content}
    (h : Mixed m A0 A1 A2 A3 B cap c k) : k.nS ≤ c.slots ∧ k.recs.length ≤ c.objs ∧
      k.ptrs.length ≤ c.dataptrs ∧ k.gs.length ≤ c.garbage ∧
      128 + 8 * c.slots + 24 * c.objs + 8 * c.dataptrs + 16 * c.garbage ≤ cap :=
  ⟨h.head.le.slots, h.head.le.objs, h.head.le.dataptrs, h.head.le.garbage, h.head.fit⟩

theorem Mixed.withHead {m : Mem} {A0 A1 A2 A3 P cap : Nat} {c : Caps} {k : Content}
    (h : Mixed m A0 A1 A2 A3 P cap c k) {B : Nat} (nz : B ≠ 0) (lim : B + cap < W) :
    Mixed (headed m P B c) B A1 A2 A3 P cap c k := by
  obtain ⟨b1, b2, b3, b4, b5⟩ := h.bounds
  have e : ∀ o, 64 ≤ o → (headed m P B c).byte (P + o) = m.byte (P + o) := fun o ho =>
    headed_byte _ _ _ _ (by omega)
  refine ⟨h.head.headed nz lim, h.ok, h.recs.frame ?_, h.ptrs.frame ?_ ?_, h.gars.frame ?_, h.data.frame ?_⟩
  · intro x _; exact e _ (by simp only [off]; omega)
  · intro x _; exact e _ (by simp only [off]; omega)
  · intro p _ x _; exact e _ (by omega)
  · intro x _; exact e _ (by simp only [off]; omega)
  · intro x _ _; exact e _ (by omega)

/-- The records are given a new base address. -/
theorem Mixed.withRecs {m m' : Mem} {A0 A1 A2 A3 P cap : Nat} {c : Caps} {k : Content}
    (h : Mixed m A0 A1 A2 A3 P cap c k) {B : Nat} (hb : m'.blocks = m.blocks)
    (hw : ∀ (j : Nat) (r : Nat × Nat × Nat), k.recs[j]? = some r →
      m'.word (P + (off c 4 + 16) + 24 * j) = B + 80 + r.1)
    (hf : ∀ x, (∀ j, j < k.recs.length → x < P + (off c 4 + 16) + 24 * j ∨
      P + (off c 4 + 16) + 24 * j + 8 ≤ x) → m'.byte x = m.byte x) :
    Mixed m' A0 B A2 A3 P cap c k := by
  obtain ⟨b1, b2, b3, b4, b5⟩ := h.bounds
  refine ⟨h.head.frame ((Mem.valid_of_blocks hb).2 h.head.val) ?_ ?_, h.ok, ?_, h.ptrs.frame ?_ ?_,
    h.gars.frame ?_, h.data.frame ?_⟩
  · intro x hx; exact hf _ fun j hj => by simp only [off]; omega
  · refine forall_id ?_ ?_ ?_ ?_ <;> intro x hx <;> exact hf _ fun j hj => by simp only [off]; omega
  · intro i r hi
    have hl := (List.getElem?_eq_some_iff.mp hi).1
    have := h.recs i r hi
    have e : ∀ o, 8 ≤ o → o + 8 ≤ 24 → m'.word (P + (off c 4 + 16 + 24 * i + o)) =
        m.word (P + (off c 4 + 16 + 24 * i + o)) := fun o h1 h2 =>
      Mem.word_congr fun x h3 h4 => hf x fun j hj => by omega
    rw [e 8 (by omega) (by omega), e 16 (by omega) (by omega), ← Nat.add_assoc P, hw i r hi]
    exact ⟨rfl, this.2⟩
  · intro x hx; exact hf _ fun j hj => by simp only [off]; omega
  · intro p hp x hx
    have := h.ok.ptr_ok p hp
    exact hf _ fun j hj => by simp only [off]; omega
  · intro x hx; exact hf _ fun j hj => by simp only [off]; omega
  · intro x hx _; exact hf _ fun j hj => by simp only [off]; omega

/-- The data pointers are given a new base address. -/
theorem Mixed.withPtrs {m m' : Mem} {A0 A1 A2 A3 P cap : Nat} {c : Caps} {k : Content}
    (h : Mixed m A0 A1 A2 A3 P cap c k) {B : Nat} (hb : m'.blocks = m.blocks)
    (hw : ∀ (j : Nat) (p : Nat × Nat), k.ptrs[j]? = some p →
      m'.word (P + (off c 5 + 16) + 8 * j) = B + 80 + p.1 ∧ m'.word (P + 80 + p.1) = B + 80 + p.2)
    (hf : ∀ x, (x < P + (off c 5 + 16) ∨ P + (off c 5 + 16) + 8 * k.ptrs.length ≤ x) →
      (∀ p ∈ k.ptrs, x < P + 80 + p.1 ∨ P + 80 + p.1 + 8 ≤ x) → m'.byte x = m.byte x) :
    Mixed m' A0 A1 B A3 P cap c k := by
  obtain ⟨b1, b2, b3, b4, b5⟩ := h.bounds
  have hp := h.ok.ptr_ok
  refine ⟨h.head.frame ((Mem.valid_of_blocks hb).2 h.head.val) ?_ ?_, h.ok, h.recs.frame ?_, ?_,
    h.gars.frame ?_, h.data.frame ?_⟩
  · intro x hx; exact hf _ (by simp only [off]; omega) fun p hp' => by omega
  · refine forall_id ?_ ?_ ?_ ?_ <;> intro x hx <;>
      exact hf _ (by simp only [off]; omega) fun p hp' => by have := hp p hp'; simp only [off]; omega
  · intro x hx
    exact hf _ (by simp only [off]; omega) fun p hp' => by have := hp p hp'; simp only [off]; omega
  · intro i p hi
    have := hw i p hi
    rw [Nat.add_assoc P, Nat.add_assoc P] at this
    exact this
  · intro x hx
    exact hf _ (by simp only [off]; omega) fun p hp' => by have := hp p hp'; simp only [off]; omega
  · intro x hx hn
    refine hf _ (by simp only [off]; omega) fun p hp' => ?_
    have : ¬ (p.1 ≤ x ∧ x < p.1 + 8) := fun hh => hn ⟨p, hp', hh⟩
    omega

/-- The garbage ranges are given a new base address. -/
theorem Mixed.withGars {m m' : Mem} {A0 A1 A2 A3 P cap : Nat} {c : Caps} {k : Content}
    (h : Mixed m A0 A1 A2 A3 P cap c k) {B : Nat} (hb : m'.blocks = m.blocks)
    (hw : ∀ (j : Nat) (r : Nat × Nat), k.gs[j]? = some r →
      m'.word (P + (off c 6 + 16) + 16 * j) = B + 80 + r.1)
    (hf : ∀ x, (∀ j, j < k.gs.length → x < P + (off c 6 + 16) + 16 * j ∨
      P + (off c 6 + 16) + 16 * j + 8 ≤ x) → m'.byte x = m.byte x) :
    Mixed m' A0 A1 A2 B P cap c k := by
  obtain ⟨b1, b2, b3, b4, b5⟩ := h.bounds
  refine ⟨h.head.frame ((Mem.valid_of_blocks hb).2 h.head.val) ?_ ?_, h.ok, h.recs.frame ?_,
    h.ptrs.frame ?_ ?_, ?_, h.data.frame ?_⟩
  · intro x hx; exact hf _ fun j hj => by simp only [off]; omega
  · refine forall_id ?_ ?_ ?_ ?_ <;> intro x hx <;> exact hf _ fun j hj => by simp only [off]; omega
  · intro x hx; exact hf _ fun j hj => by simp only [off]; omega
  · intro x hx; exact hf _ fun j hj => by simp only [off]; omega
  · intro p hp x hx
    have := h.ok.ptr_ok p hp
    exact hf _ fun j hj => by simp only [off]; omega
  · intro i r hi
    have hl := (List.getElem?_eq_some_iff.mp hi).1
    have := h.gars i r hi
    rw [Mem.word_congr (m := m) (a := P + (off c 6 + 16 + 16 * i + 8)) (fun x h3 h4 => hf x fun j hj => by omega),
      ← Nat.add_assoc P, hw i r hi]
    exact ⟨rfl, this.2⟩
  · intro x hx _; exact hf _ fun j hj => by simp only [off]; omega

theorem Mixed.remapObjects {m : Mem} {A A2 A3 B cap d : Nat} {c : Caps} {k : Content}
    (h : Mixed m B A A2 A3 B cap c k) (sh : Shifts A B cap d) :
    ∃ m', remapObjects m B d 8 = .ok (m', true) ∧ m'.blocks = m.blocks ∧ Mixed m' B B A2 A3 B cap c k ∧
      ∀ x, x < B ∨ B + c.len ≤ x → m'.byte x = m.byte x := by
  obtain ⟨b1, b2, b3, b4, b5⟩ := h.bounds
  have nzB := h.head.nzB
  have al := h.head.alB
  have hL : c.len = 128 + 8 * c.slots + 24 * c.objs + 8 * c.dataptrs + 16 * c.garbage := rfl
  obtain ⟨m', i1, i2, i3, i4⟩ := remapObjectsLoop_ok (nS := k.nS) sh h.head.limB (by omega) k.recs m
    (B + (off c 4 + 16)) (B + 80) (by simp only [off]; omega)
    (h.head.valid (by simp only [off]; omega))
    (by
      intro j r hj
      have := h.recs j r hj
      rw [Nat.add_assoc B, Nat.add_assoc B]
      exact ⟨this.1, this.2.2⟩)
    (fun r hr => ⟨by omega, (h.ok.rec_ok r hr).2.1⟩) h.ok.rec_mono
  refine ⟨m', ?_, i2, h.withRecs i2 i3 i4, fun x hx => i4 x fun j hj => by simp only [off]; omega⟩
  simp only [Buf.remapObjects]
  rw [if_pos ⟨nzB, by omega⟩, h.head.sectionPtr (by omega) (by omega), Res.ok_bind,
    h.head.maxSize (by omega) (by omega), Res.ok_bind, h.head.sectionSize (by omega) (by omega), Res.ok_bind,
    h.head.sectionData (by omega) (by omega), Res.ok_bind, h.head.numEntities (by omega) (by omega), Res.ok_bind,
    h.head.sectionData (id := 3) (by omega) (by omega), h.head.sectionEnd (id := 3) (by omega) (by omega)]
  simp only [Res.ok_bind, ent, cnt, Content.counts]
  rw [if_pos (by omega)]
  by_cases hn : 0 < k.recs.length
  · rw [if_pos hn]
    simp only [off] at i1 ⊢
    rw [show B + 64 + 16 = B + 80 by omega, show B + 64 + (16 + 8 * k.nS) = B + 80 + 8 * k.nS by omega,
      show B + (80 + 8 * c.slots) + 16 = B + (80 + 8 * c.slots + 16) by omega]
    exact i1
  · rw [if_neg hn]
    have e : k.recs.length = 0 := by omega
    rw [e] at i1
    exact i1

theorem Mixed.remapDataptrs {m : Mem} {A A1 A3 B cap d : Nat} {c : Caps} {k : Content}
    (h : Mixed m B A1 A A3 B cap c k) (hs : k.Strict) (sh : Shifts A B cap d) :
    ∃ m', remapDataptrs m B d 8 = .ok (m', true) ∧ m'.blocks = m.blocks ∧ Mixed m' B A1 B A3 B cap c k ∧
      ∀ x, x < B ∨ B + c.len ≤ x → m'.byte x = m.byte x := by
  obtain ⟨b1, b2, b3, b4, b5⟩ := h.bounds
  have nzB := h.head.nzB
  have al := h.head.alB
  have hL : c.len = 128 + 8 * c.slots + 24 * c.objs + 8 * c.dataptrs + 16 * c.garbage := rfl
  obtain ⟨m', i1, i2, i3, i4⟩ := remapDataptrsLoop_ok (nS := k.nS) sh h.head.limB al nzB (by omega) k.ptrs m
    (B + (off c 5 + 16)) (by simp only [off]; omega) (h.head.valid (by simp only [off]; omega)) h.head.val
    (by simp only [off]; omega)
    (by
      intro j r hj
      have := h.ptrs j r hj
      rw [Nat.add_assoc B, Nat.add_assoc B]
      exact this)
    (fun r hr => ⟨(h.ok.ptr_ok r hr).1, (h.ok.ptr_ok r hr).2.1, hs.ptr r hr⟩) h.ok.ptr_ne
  refine ⟨m', ?_, i2, h.withPtrs i2 i3 i4, fun x hx => i4 x (by simp only [off]; omega) fun p hp => by
    have := h.ok.ptr_ok p hp; omega⟩
  simp only [Buf.remapDataptrs]
  rw [if_pos ⟨nzB, by omega⟩, h.head.sectionData (by omega) (by omega), Res.ok_bind,
    h.head.numEntities (by omega) (by omega), Res.ok_bind, h.head.sectionSize (by omega) (by omega), Res.ok_bind,
    h.head.maxSize (by omega) (by omega), Res.ok_bind,
    h.head.sectionData (id := 3) (by omega) (by omega), h.head.sectionEnd (id := 3) (by omega) (by omega)]
  simp only [Res.ok_bind, ent, cnt, Content.counts]
  rw [if_pos (by omega)]
  by_cases hn : 0 < k.ptrs.length
  · rw [if_pos hn]
    simp only [off] at i1 ⊢
    rw [show B + 64 + 16 = B + 80 by omega, show B + 64 + (16 + 8 * k.nS) = B + 80 + 8 * k.nS by omega,
      Nat.add_assoc B _ 16]
    exact i1
  · rw [if_neg hn]
    have e : k.ptrs.length = 0 := by omega
    rw [e] at i1
    exact i1

theorem Mixed.remapGarbage {m : Mem} {A A1 A2 B cap d : Nat} {c : Caps} {k : Content}
    (h : Mixed m B A1 A2 A B cap c k) (hs : k.Strict) (sh : Shifts A B cap d) :
    ∃ m', remapGarbage m B d 8 = .ok (m', true) ∧ m'.blocks = m.blocks ∧ Mixed m' B A1 A2 B B cap c k ∧
      ∀ x, x < B ∨ B + c.len ≤ x → m'.byte x = m.byte x := by
  obtain ⟨b1, b2, b3, b4, b5⟩ := h.bounds
  have nzB := h.head.nzB
  have al := h.head.alB
  have hL : c.len = 128 + 8 * c.slots + 24 * c.objs + 8 * c.dataptrs + 16 * c.garbage := rfl
  obtain ⟨m', i1, i2, i3, i4⟩ := remapGarbageLoop_ok (nS := k.nS) sh h.head.limB (by omega) k.gs m
    (B + (off c 6 + 16)) (by simp only [off]; omega) (h.head.valid (by simp only [off]; omega))
    (by
      intro j r hj
      have := h.gars j r hj
      rw [Nat.add_assoc B]
      exact this.1)
    (fun r hr => hs.gar r hr)
  refine ⟨m', ?_, i2, h.withGars i2 i3 i4, fun x hx => i4 x fun j hj => by simp only [off]; omega⟩
  simp only [Buf.remapGarbage]
  rw [if_pos ⟨nzB, by omega, al⟩, h.head.sectionData (by omega) (by omega), Res.ok_bind,
    h.head.numEntities (by omega) (by omega), Res.ok_bind, h.head.sectionSize (by omega) (by omega), Res.ok_bind,
    h.head.maxSize (by omega) (by omega), Res.ok_bind,
    h.head.sectionData (id := 3) (by omega) (by omega), h.head.sectionEnd (id := 3) (by omega) (by omega)]
  simp only [Res.ok_bind, ent, cnt, Content.counts]
  rw [if_pos (by omega)]
  by_cases hn : 0 < k.gs.length
  · rw [if_pos hn]
    simp only [off] at i1 ⊢
    rw [show B + 64 + 16 = B + 80 by omega, show B + 64 + (16 + 8 * k.nS) = B + 80 + 8 * k.nS by omega,
      Nat.add_assoc B _ 16]
    exact i1
  · rw [if_neg hn]
    have e : k.gs.length = 0 := by omega
    rw [e] at i1
    exact i1

/-- Nothing happens to a buffer that has not been moved. -/
theorem remap_same {m : Mem} {B cap : Nat} {c : Caps} {k : Content} (h : Layout m B B cap c k) :
    remap m B 8 = .ok (m, true) := by
  have limB := h.head.limB
  have hw : B ≠ B + W / 2 := by have : 0 < W / 2 := by decide
                                omega
  simp only [remap, h.head.addrOffset hw, Res.ok_bind]
  rw [if_neg (by simp [(diff_eq_zero (A := B) (B := B) (by omega) (by omega)).2 rfl])]
  rfl

/-- A moved buffer whose pointers all point before the end of the used slots is remapped. -/
theorem remap_ok {m : Mem} {A B cap : Nat} {c : Caps} {k : Content} (h : Layout m A B cap c k)
    (hs : k.Strict) (hA : A ≠ B + W / 2) :
    ∃ m', remap m B 8 = .ok (m', true) ∧ m'.blocks = m.blocks ∧ Layout m' B B cap c k ∧
      ∀ x, x < B ∨ B + c.len ≤ x → m'.byte x = m.byte x := by
  have limA := h.head.limA
  have limB := h.head.limB
  have hL : 128 ≤ c.len := by simp only [Caps.len]; omega
  by_cases e : A = B
  · subst e
    refine ⟨m, ?_, rfl, h, fun _ _ => rfl⟩
    simp only [remap, h.head.addrOffset hA, Res.ok_bind]
    rw [if_neg (by simp [(diff_eq_zero (A := A) (B := A) (by omega) (by omega)).2 rfl])]
    rfl
  have sh := shifts_of limA limB
  have d0 : (B + (W - A % W)) % W ≠ 0 := by
    rw [ne_eq, diff_eq_zero (by omega) (by omega)]; exact e
  have M0 := h.mixed.withHead h.head.nzB limB
  obtain ⟨m1, r1, b1, M1, f1⟩ := M0.remapObjects sh
  obtain ⟨m2, r2, b2, M2, f2⟩ := M1.remapDataptrs hs sh
  obtain ⟨m3, r3, b3, M3, f3⟩ := M2.remapGarbage hs sh
  refine ⟨m3, ?_, by rw [b3, b2, b1, headed_blocks], M3.layout, fun x hx => ?_⟩
  · simp only [remap, h.head.addrOffset hA, Res.ok_bind]
    rw [if_pos d0, h.head.remapHeader hA e]
    simp only [Res.ok_bind, M0.head.remapSlots, r1, r2, r3]
    rfl
  · rw [f3 x hx, f2 x hx, f1 x hx, headed_byte _ _ _ _ (by omega)]

end SixTrack.Buf
