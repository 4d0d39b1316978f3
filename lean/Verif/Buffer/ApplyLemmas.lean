import Verif.Buffer.RemapLemmas

/-!
# Shifting all addresses of a buffer
-/

namespace SixTrack.Buf

theorem applyObjectsLoop_ok {B N cap d nS : Nat} (sh : Shifts B N cap d) (limN : N + cap < W) (nz : N ≠ 0)
    (hS : 80 + 8 * nS ≤ cap) :
    ∀ (rs : List (Nat × Nat × Nat)) (m : Mem) (it : Nat), it % 8 = 0 → m.valid it (24 * rs.length) →
      (∀ (j : Nat) (r : Nat × Nat × Nat), rs[j]? = some r → m.word (it + 24 * j) = B + 80 + r.1) →
      (∀ r ∈ rs, r.1 ≤ 8 * nS) →
      ∃ m', applyObjectsLoop m d it rs.length = .ok (m', true) ∧
        m'.blocks = m.blocks ∧
        (∀ (j : Nat) (r : Nat × Nat × Nat), rs[j]? = some r → m'.word (it + 24 * j) = N + 80 + r.1) ∧
        ∀ x, (∀ j, j < rs.length → x < it + 24 * j ∨ it + 24 * j + 8 ≤ x) → m'.byte x = m.byte x
  | [], m, it, _, _, _, _ => ⟨m, rfl, rfl, by simp, fun _ _ => rfl⟩
  | r :: rs, m, it, al, val, hw, hr => by
    rw [List.length_cons] at val
    have hv : ∀ o k, o + k ≤ 24 * (rs.length + 1) → m.valid (it + o) k := fun o k ho =>
      Mem.valid_sub val (by omega) (by omega)
    have w0 := hw 0 r (by simp)
    rw [Nat.mul_zero, Nat.add_zero] at w0
    have r0 := hr r (by simp)
    have e : shift (B + 80 + r.1) d = N + 80 + r.1 := by
      rw [Nat.add_assoc, Nat.add_assoc]; exact sh _ (by omega)
    obtain ⟨m', i1, i2, i3, i4⟩ := applyObjectsLoop_ok sh limN nz hS rs (m.put it (N + 80 + r.1)) (it + 24)
      (by omega) (by simp only [Mem.put_valid]; exact hv 24 _ (by omega))
      (by
        intro j q hj
        have := hw (j + 1) q (by simpa using hj)
        rw [show it + 24 * (j + 1) = it + 24 + 24 * j by omega] at this
        rw [Mem.word_put_other _ (by omega)]
        exact this)
      (fun q hq => hr q (by simp [hq]))
    refine ⟨m', ?_, by rw [i2]; simp, ?_, ?_⟩
    · simp only [List.length_cons, applyObjectsLoop]
      rw [Mem.load64_ok al (hv 0 8 (by omega)), Res.ok_bind, w0, e, if_pos (by omega),
        Mem.store64_ok al (hv 0 8 (by omega)), Res.ok_bind]
      exact i1
    · intro j q hj
      cases j with
      | zero =>
        simp only [List.getElem?_cons_zero, Option.some.injEq] at hj
        subst hj
        rw [Nat.mul_zero, Nat.add_zero, Mem.word_congr (m := m.put it (N + 80 + r.1)) (fun x h1 h2 => i4 x
          (fun j _ => by omega))]
        exact Mem.word_put_same _ _ _ (by omega)
      | succ j =>
        rw [show it + 24 * (j + 1) = it + 24 + 24 * j by omega]
        exact i3 j q (by simpa using hj)
    · intro x hx
      rw [i4 x (fun j hj => by have := hx (j + 1) (by simp; omega); omega)]
      exact Mem.byte_put_of_lt _ (by have := hx 0 (by simp); omega)

theorem applyDataptrsLoop_ok {B N cap d nS : Nat} (sh : Shifts B N cap d) (limN : N + cap < W)
    (alB : B % 8 = 0) (nz : N ≠ 0) (hS : 80 + 8 * nS ≤ cap) :
    ∀ (ps : List (Nat × Nat)) (m : Mem) (it : Nat), it % 8 = 0 → m.valid it (8 * ps.length) →
      m.valid B cap → B + 80 + 8 * nS ≤ it →
      (∀ (j : Nat) (p : Nat × Nat), ps[j]? = some p → m.word (it + 8 * j) = B + 80 + p.1 ∧
        m.word (B + 80 + p.1) = B + 80 + p.2) →
      (∀ p ∈ ps, p.1 % 8 = 0 ∧ p.1 + 8 ≤ 8 * nS ∧ p.2 ≤ 8 * nS) →
      ps.Pairwise (fun a b => a.1 ≠ b.1) →
      ∃ m', applyDataptrsLoop m d it ps.length = .ok (m', true) ∧
        m'.blocks = m.blocks ∧
        (∀ (j : Nat) (p : Nat × Nat), ps[j]? = some p → m'.word (it + 8 * j) = N + 80 + p.1 ∧
          m'.word (B + 80 + p.1) = N + 80 + p.2) ∧
        ∀ x, (x < it ∨ it + 8 * ps.length ≤ x) → (∀ p ∈ ps, x < B + 80 + p.1 ∨ B + 80 + p.1 + 8 ≤ x) →
          m'.byte x = m.byte x
  | [], m, it, _, _, _, _, _, _, _ => ⟨m, rfl, rfl, by simp, fun _ _ _ => rfl⟩
  | p :: ps, m, it, al, val, valB, hit, hw, hr, hp => by
    rw [List.length_cons] at val
    have hv : ∀ o k, o + k ≤ 8 * (ps.length + 1) → m.valid (it + o) k := fun o k ho =>
      Mem.valid_sub val (by omega) (by omega)
    have w0 := hw 0 p (by simp)
    rw [Nat.mul_zero, Nat.add_zero] at w0
    have r0 := hr p (by simp)
    rw [List.pairwise_cons] at hp
    have e1 : shift (B + 80 + p.1) d = N + 80 + p.1 := by
      rw [Nat.add_assoc, Nat.add_assoc]; exact sh _ (by omega)
    have e2 : shift (B + 80 + p.2) d = N + 80 + p.2 := by
      rw [Nat.add_assoc, Nat.add_assoc]; exact sh _ (by omega)
    have vp : m.valid (B + 80 + p.1) 8 := Mem.valid_sub valB (by omega) (by omega)
    let m1 := (m.put (B + 80 + p.1) (N + 80 + p.2)).put it (N + 80 + p.1)
    obtain ⟨m', i1, i2, i3, i4⟩ := applyDataptrsLoop_ok sh limN alB nz hS ps m1 (it + 8) (by omega)
      (by simp only [m1, Mem.put_valid]; exact hv 8 _ (by omega))
      (by simp only [m1, Mem.put_valid]; exact valB) (by omega)
      (by
        intro j q hj
        have := hw (j + 1) q (by simpa using hj)
        have hq := hr q (by simp [List.mem_of_getElem? hj])
        have hne := hp.1 q (List.mem_of_getElem? hj)
        rw [show it + 8 * (j + 1) = it + 8 + 8 * j by omega] at this
        simp only [m1]
        rw [Mem.word_put_other _ (by omega), Mem.word_put_other _ (by omega),
          Mem.word_put_other _ (by omega), Mem.word_put_other _ (by omega)]
        exact this)
      (fun q hq => hr q (by simp [hq])) hp.2
    refine ⟨m', ?_, by rw [i2]; simp [m1], ?_, ?_⟩
    · simp only [List.length_cons, applyDataptrsLoop]
      rw [Mem.load64_ok al (hv 0 8 (by omega)), Res.ok_bind, w0.1,
        Mem.load64_ok (by omega) vp, Res.ok_bind, w0.2, e1, e2,
        if_pos (by omega), Mem.store64_ok (by omega) vp, Res.ok_bind,
        Mem.store64_ok al (by simp only [Mem.put_valid]; exact hv 0 8 (by omega)), Res.ok_bind]
      exact i1
    · intro j q hj
      cases j with
      | zero =>
        simp only [List.getElem?_cons_zero, Option.some.injEq] at hj
        subst hj
        have f : ∀ q ∈ ps, q.1 % 8 = 0 ∧ q.1 + 8 ≤ 8 * nS ∧ p.1 ≠ q.1 := fun q hq =>
          ⟨(hr q (by simp [hq])).1, (hr q (by simp [hq])).2.1, hp.1 q hq⟩
        rw [Nat.mul_zero, Nat.add_zero,
          Mem.word_congr (m := m1) (a := it) (fun x h1 h2 => i4 x (by omega)
            (fun q hq => by have := f q hq; omega)),
          Mem.word_congr (m := m1) (a := B + 80 + p.1) (fun x h1 h2 => i4 x (by omega)
            (fun q hq => by have := f q hq; omega))]
        simp only [m1]
        rw [Mem.word_put_same _ _ _ (by omega), Mem.word_put_other _ (by omega),
          Mem.word_put_same _ _ _ (by omega)]
        exact ⟨rfl, rfl⟩
      | succ j =>
        rw [show it + 8 * (j + 1) = it + 8 + 8 * j by omega]
        exact i3 j q (by simpa using hj)
    · intro x hx hx'
      rw [List.length_cons] at hx
      have := hx' p (by simp)
      rw [i4 x (by omega) (fun q hq => hx' q (by simp [hq]))]
      simp only [m1]
      rw [Mem.byte_put_of_lt _ (by omega), Mem.byte_put_of_lt _ (by omega)]

theorem Head.applyHeader {m : Mem} {B N cap d : Nat} {c n : Caps} (h : Head m B B cap c n)
    (sh : Shifts B N cap d) (nz : N ≠ 0) : applyHeader m B d = .ok (Buf.headed m B N c, true) := by
  have l := h.len_ge
  have f := h.fit
  have s0 : shift B d = N := sh 0 (by omega)
  have sid : ∀ id, 3 ≤ id → id ≤ 6 → shift (B + off c id) d = N + off c id :=
    fun id h1 h2 => sh _ (by have := off_end c id h1 h2; omega)
  have ld : ∀ id, 3 ≤ id → id ≤ 6 → m.load64 (B + 8 * id) = .ok (B + off c id) := fun id h1 h2 => by
    rw [h.load (by omega) (by omega), h.addr id h1 h2]
  have st : ∀ (mm : Mem) (o v : Nat), mm.blocks = m.blocks → o % 8 = 0 → o + 8 ≤ cap →
      mm.store64 (B + o) v = .ok (mm.put (B + o) v) := fun mm o v hb ho hc =>
    Mem.store64_ok (by have := h.alB; omega) ((Mem.valid_of_blocks hb).2 (h.valid (by omega)))
  have st0 : ∀ v : Nat, m.store64 B v = .ok (m.put B v) := fun v => by
    have := st m 0 v rfl rfl (by omega); simpa using this
  have l3 := ld 3 (by omega) (by omega)
  have l4 := ld 4 (by omega) (by omega)
  have l5 := ld 5 (by omega) (by omega)
  have l6 := ld 6 (by omega) (by omega)
  simp only [Nat.reduceMul] at l3 l4 l5 l6
  simp only [Buf.applyHeader]
  rw [h.load0, Res.ok_bind, l3, Res.ok_bind, l4, Res.ok_bind, l5, Res.ok_bind, l6, Res.ok_bind, s0,
    sid 3 (by omega) (by omega), sid 4 (by omega) (by omega), sid 5 (by omega) (by omega),
    sid 6 (by omega) (by omega), if_pos (by omega), st0, Res.ok_bind,
    st _ 24 _ (by simp) (by omega) (by omega), Res.ok_bind,
    st _ 32 _ (by simp) (by omega) (by omega), Res.ok_bind, st _ 40 _ (by simp) (by omega) (by omega),
    Res.ok_bind, st _ 48 _ (by simp) (by omega) (by omega), Res.ok_bind]
  rfl

/-- `NS(ManagedBuffer_apply_addr_offset)` on a buffer without garbage. -/
theorem applyAddrOffset_ok {m : Mem} {B N cap d : Nat} {c : Caps} {k : Content} (h : Layout m B B cap c k)
    (hg : k.gs = []) (nz : N ≠ 0) (limN : N + cap < W) (sh : Shifts B N cap d) (hd : d ≠ 0) :
    ∃ m', applyAddrOffset m B d 8 = .ok (m', true) ∧ m'.blocks = m.blocks ∧ Layout m' N B cap c k ∧
      ∀ x, x < B ∨ B + c.len ≤ x → m'.byte x = m.byte x := by
  have M := h.mixed
  obtain ⟨b1, b2, b3, b4, b5⟩ := M.bounds
  have nzB := h.head.nzB
  have al := h.head.alB
  have hL : c.len = 128 + 8 * c.slots + 24 * c.objs + 8 * c.dataptrs + 16 * c.garbage := rfl
  obtain ⟨m1, i1, i2, i3, i4⟩ := applyDataptrsLoop_ok (nS := k.nS) sh limN al nz (by omega) k.ptrs m
    (B + (off c 5 + 16)) (by simp only [off]; omega) (h.head.valid (by simp only [off]; omega)) h.head.val
    (by simp only [off]; omega)
    (by
      intro j r hj
      have := h.ptrs j r hj
      rw [Nat.add_assoc B (off c 5 + 16), Nat.add_assoc B 80] at *
      exact this)
    (fun r hr => ⟨(h.ok.ptr_ok r hr).1, (h.ok.ptr_ok r hr).2.1, (h.ok.ptr_ok r hr).2.2.2⟩) h.ok.ptr_ne
  have M1 := M.withPtrs i2 i3 i4
  obtain ⟨m2, j1, j2, j3, j4⟩ := applyObjectsLoop_ok (nS := k.nS) sh limN nz (by omega) k.recs m1
    (B + (off c 4 + 16)) (by simp only [off]; omega)
    (M1.head.valid (by simp only [off]; omega))
    (by
      intro j r hj
      have := M1.recs j r hj
      rw [Nat.add_assoc B]
      exact this.1)
    (fun r hr => by have := (h.ok.rec_ok r hr).2.1; omega)
  have M2 := M1.withRecs j2 j3 j4
  have M3 := M2.withHead nz limN
  have gz : k.counts.garbage = 0 := by simp [Content.counts, hg]
  refine ⟨headed m2 B N c, ?_, by rw [headed_blocks, j2, i2], ?_, fun x hx => ?_⟩
  · simp only [applyAddrOffset]
    rw [if_pos ⟨nzB, by omega, al⟩, h.head.needsRemapping, Res.ok_bind]
    simp only [ne_eq, not_true_eq_false, decide_false, Bool.false_eq_true, if_false]
    rw [if_pos hd, h.head.numEntities (by omega) (by omega), Res.ok_bind,
      h.head.numEntities (by omega) (by omega), Res.ok_bind,
      h.head.numEntities (id := 6) (by omega) (by omega), Res.ok_bind,
      h.head.sectionPtr (by omega) (by omega), Res.ok_bind]
    simp only [cnt, gz, applyGarbageLoop, Res.ok_bind, if_true]
    rw [h.head.sectionData (by omega) (by omega), Res.ok_bind, Nat.add_assoc B]
    rw [show applyDataptrsLoop m d (B + (off c 5 + 16)) k.counts.dataptrs = .ok (m1, true) from i1]
    simp only [Res.ok_bind, if_true]
    rw [M1.head.sectionData (by omega) (by omega), Res.ok_bind, Nat.add_assoc B]
    rw [show applyObjectsLoop m1 d (B + (off c 4 + 16)) k.counts.objs = .ok (m2, true) from j1]
    simp only [Res.ok_bind, if_true]
    exact M2.head.applyHeader sh nz
  · refine ⟨M3.head, M3.ok, M3.recs, M3.ptrs, ?_, M3.data⟩
    rw [hg]; intro i q hi; simp at hi
  · rw [headed_byte _ _ _ _ (by omega), j4 x (fun j hj => by simp only [off]; omega),
      i4 x (by simp only [off]; omega) (fun p hp => by have := h.ok.ptr_ok p hp; omega)]

end SixTrack.Buf
