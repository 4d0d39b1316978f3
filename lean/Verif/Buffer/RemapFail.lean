import Verif.Buffer.RemapLemmas

/-!
# When remapping fails

A data pointer that points to the end of the used slots, as the last attribute of an
object does if it has no elements, makes remapping fail.
-/

namespace SixTrack.Buf

theorem remapDataptrsLoop_fail {A B cap d nS : Nat} (sh : Shifts A B cap d) (limB : B + cap < W)
    (alB : B % 8 = 0) (nz : B ≠ 0) (hS : 80 + 8 * nS ≤ cap) :
    ∀ (ps : List (Nat × Nat)) (m : Mem) (it : Nat), it % 8 = 0 → m.valid it (8 * ps.length) →
      m.valid B cap → B + 80 + 8 * nS ≤ it →
      (∀ (j : Nat) (p : Nat × Nat), ps[j]? = some p → m.word (it + 8 * j) = A + 80 + p.1 ∧
        m.word (B + 80 + p.1) = A + 80 + p.2) →
      (∀ p ∈ ps, p.1 % 8 = 0 ∧ p.1 + 8 ≤ 8 * nS ∧ p.2 ≤ 8 * nS) →
      ps.Pairwise (fun a b => a.1 ≠ b.1) → (∃ p ∈ ps, 8 * nS ≤ p.2) →
      ∃ m', remapDataptrsLoop m (B + 80) (B + 80 + 8 * nS) d it ps.length = .ok (m', false) ∧
        m'.blocks = m.blocks ∧
        ∀ x, (x < it ∨ it + 8 * ps.length ≤ x) → (∀ p ∈ ps, x < B + 80 + p.1 ∨ B + 80 + p.1 + 8 ≤ x) →
          m'.byte x = m.byte x
  | [], m, it, _, _, _, _, _, _, _, hbad => by obtain ⟨p, hp, -⟩ := hbad; simp at hp
  | p :: ps, m, it, al, val, valB, hit, hw, hr, hp, hbad => by
    rw [List.length_cons] at val
    have hv : ∀ o k, o + k ≤ 8 * (ps.length + 1) → m.valid (it + o) k := fun o k ho =>
      Mem.valid_sub val (by omega) (by omega)
    have w0 := hw 0 p (by simp)
    rw [Nat.mul_zero, Nat.add_zero] at w0
    have r0 := hr p (by simp)
    rw [List.pairwise_cons] at hp
    have e1 : shift (A + 80 + p.1) d = B + 80 + p.1 := by
      rw [Nat.add_assoc, Nat.add_assoc]; exact sh _ (by omega)
    have e2 : shift (A + 80 + p.2) d = B + 80 + p.2 := by
      rw [Nat.add_assoc, Nat.add_assoc]; exact sh _ (by omega)
    have vp : m.valid (B + 80 + p.1) 8 := Mem.valid_sub valB (by omega) (by omega)
    by_cases hlt : p.2 < 8 * nS
    · let m1 := (m.put (B + 80 + p.1) (B + 80 + p.2)).put it (B + 80 + p.1)
      obtain ⟨m', i1, i2, i4⟩ := remapDataptrsLoop_fail sh limB alB nz hS ps m1 (it + 8) (by omega)
        (by simp only [m1, Mem.put_valid]; exact hv 8 _ (by omega))
        (by simp only [m1, Mem.put_valid]; exact valB) (by omega)
        (by
          intro j q hj
          have := hw (j + 1) q (by simpa using hj)
          have hq := hr q (by simp [List.mem_of_getElem? hj])
          have hne := hp.1 q (List.mem_of_getElem? hj)
          rw [show it + 8 * (j + 1) = it + 8 + 8 * j by omega] at this
          simp only [m1]
          rw [Mem.word_put_other _ (by omega), Mem.word_put_other _ (by omega),
            Mem.word_put_other _ (by omega), Mem.word_put_other _ (by omega)]
          exact this)
        (fun q hq => hr q (by simp [hq])) hp.2
        (by
          obtain ⟨q, hq, h8⟩ := hbad
          rcases List.mem_cons.1 hq with rfl | hq
          · omega
          · exact ⟨q, hq, h8⟩)
      refine ⟨m', ?_, by rw [i2]; simp [m1], ?_⟩
      · simp only [List.length_cons, remapDataptrsLoop]
        rw [Mem.load64_ok al (hv 0 8 (by omega)), Res.ok_bind, w0.1, e1, if_pos (by omega),
          Mem.load64_ok (by omega) vp, Res.ok_bind, w0.2, e2, Res.pure_eq, Res.ok_bind,
          if_pos (by omega), Mem.store64_ok (by omega) vp, Res.ok_bind,
          Mem.store64_ok al (by simp only [Mem.put_valid]; exact hv 0 8 (by omega)), Res.ok_bind]
        exact i1
      · intro x hx hx'
        rw [List.length_cons] at hx
        have := hx' p (by simp)
        rw [i4 x (by omega) (fun q hq => hx' q (by simp [hq]))]
        simp only [m1]
        rw [Mem.byte_put_of_lt _ (by omega), Mem.byte_put_of_lt _ (by omega)]
    · refine ⟨m, ?_, rfl, fun _ _ _ => rfl⟩
      simp only [List.length_cons, remapDataptrsLoop]
      rw [Mem.load64_ok al (hv 0 8 (by omega)), Res.ok_bind, w0.1, e1, if_pos (by omega),
        Mem.load64_ok (by omega) vp, Res.ok_bind, w0.2, e2, Res.pure_eq, Res.ok_bind, if_neg (by omega)]
      rfl

/-- A moved buffer without garbage ranges with a pointer to the end of the used slots is not
remapped. -/
theorem remap_fail_head {m : Mem} {A B cap : Nat} {c : Caps} {k : Content} (h : Layout m A B cap c k)
    (hg : k.gs = []) (hbad : ∃ p ∈ k.ptrs, 8 * k.nS ≤ p.2) (hA : A ≠ B + W / 2) (hne : A ≠ B) :
    ∃ m', remap m B 8 = .ok (m', false) ∧ m'.blocks = m.blocks ∧ Head m' B B cap c k.counts ∧
      ∀ x, x < B ∨ B + c.len ≤ x → m'.byte x = m.byte x := by
  have limA := h.head.limA
  have limB := h.head.limB
  have hL : c.len = 128 + 8 * c.slots + 24 * c.objs + 8 * c.dataptrs + 16 * c.garbage := rfl
  have sh := shifts_of limA limB
  have d0 : (B + (W - A % W)) % W ≠ 0 := by
    rw [ne_eq, diff_eq_zero (by omega) (by omega)]; exact hne
  have M0 := h.mixed.withHead h.head.nzB limB
  obtain ⟨m1, r1, b1, M1, f1⟩ := M0.remapObjects sh
  obtain ⟨q1, q2, q3, q4, q5⟩ := M1.bounds
  have nzB := h.head.nzB
  have al := h.head.alB
  obtain ⟨m2, i1, i2, i4⟩ := remapDataptrsLoop_fail (nS := k.nS) sh limB al nzB (by omega) k.ptrs m1
    (B + (off c 5 + 16)) (by simp only [off]; omega) (M1.head.valid (by simp only [off]; omega)) M1.head.val
    (by simp only [off]; omega)
    (by
      intro j r hj
      have := M1.ptrs j r hj
      rw [Nat.add_assoc B, Nat.add_assoc B]
      exact this)
    (fun r hr => ⟨(h.ok.ptr_ok r hr).1, (h.ok.ptr_ok r hr).2.1, (h.ok.ptr_ok r hr).2.2.2⟩) h.ok.ptr_ne hbad
  have hpos : 0 < k.ptrs.length := by
    obtain ⟨p, hp, -⟩ := hbad
    exact List.length_pos_of_mem hp
  have r2 : remapDataptrs m1 B ((B + (W - A % W)) % W) 8 = .ok (m2, false) := by
    have hh := M1.head
    simp only [remapDataptrs]
    rw [if_pos ⟨nzB, by omega⟩, hh.sectionData (by omega) (by omega), Res.ok_bind,
      hh.numEntities (by omega) (by omega), Res.ok_bind, hh.sectionSize (by omega) (by omega), Res.ok_bind,
      hh.maxSize (by omega) (by omega), Res.ok_bind,
      hh.sectionData (id := 3) (by omega) (by omega), hh.sectionEnd (id := 3) (by omega) (by omega)]
    simp only [Res.ok_bind, ent, cnt, Content.counts]
    rw [if_pos (by omega), if_pos hpos]
    simp only [off] at i1 ⊢
    rw [show B + 64 + 16 = B + 80 by omega, show B + 64 + (16 + 8 * k.nS) = B + 80 + 8 * k.nS by omega,
      Nat.add_assoc B _ 16]
    exact i1
  have H2 : Head m2 B B cap c k.counts := by
    have hp := h.ok.ptr_ok
    refine M1.head.frame ((Mem.valid_of_blocks i2).2 M1.head.val) ?_ ?_
    · intro x hx; exact i4 _ (by simp only [off]; omega) fun p hp' => by omega
    · refine forall_id ?_ ?_ ?_ ?_ <;> intro x hx <;>
        exact i4 _ (by simp only [off]; omega) fun p hp' => by have := hp p hp'; simp only [off]; omega
  have r3 : remapGarbage m2 B ((B + (W - A % W)) % W) 8 = .ok (m2, true) := by
    simp only [remapGarbage]
    rw [if_pos ⟨nzB, by omega, al⟩, H2.sectionData (by omega) (by omega), Res.ok_bind,
      H2.numEntities (by omega) (by omega), Res.ok_bind, H2.sectionSize (by omega) (by omega), Res.ok_bind,
      H2.maxSize (by omega) (by omega), Res.ok_bind]
    simp only [ent, cnt, Content.counts, hg, List.length_nil]
    rw [if_pos (by omega), if_neg (by omega)]
    rfl
  refine ⟨m2, ?_, by rw [i2, b1, headed_blocks], H2, fun x hx => ?_⟩
  · simp only [remap, h.head.addrOffset hA, Res.ok_bind]
    rw [if_pos d0, h.head.remapHeader hA hne]
    simp only [Res.ok_bind, M0.head.remapSlots, r1, r2, r3]
    rfl
  · rw [i4 x (by simp only [off]; omega) (fun p hp => by have := h.ok.ptr_ok p hp; omega), f1 x hx,
      headed_byte _ _ _ _ (by omega)]

theorem remap_fail {m : Mem} {A B cap : Nat} {c : Caps} {k : Content} (h : Layout m A B cap c k)
    (hg : k.gs = []) (hbad : ∃ p ∈ k.ptrs, 8 * k.nS ≤ p.2) (hA : A ≠ B + W / 2) (hne : A ≠ B) :
    ∃ m', remap m B 8 = .ok (m', false) ∧ m'.blocks = m.blocks ∧
      ∀ x, x < B ∨ B + c.len ≤ x → m'.byte x = m.byte x := by
  obtain ⟨m', h1, h2, -, h3⟩ := remap_fail_head h hg hbad hA hne
  exact ⟨m', h1, h2, h3⟩

end SixTrack.Buf
