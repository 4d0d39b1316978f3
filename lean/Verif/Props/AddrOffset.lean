import Verif.Buffer.ApplyGarbage
import Verif.Props.RemapChecks

/-!
# Property C70: shifting the addresses of a buffer shifts all of them

`NS(ManagedBuffer_apply_addr_offset)` is used before a buffer is written to a file: it is to turn the buffer at `B` into what it would be
at `N` (`Buf.Layout m' N B …`: stored for `N`, located at `B`).
-/

namespace SixTrack
open Buf

namespace Buf

/-- The words of a buffer at `2^20` with two slots, one object, one data pointer and two garbage ranges. -/
def garbageWords : List Nat :=
  [2 ^ 20, 208, 64, 2 ^ 20 + 64, 2 ^ 20 + 96, 2 ^ 20 + 136, 2 ^ 20 + 160, 0,
    32, 2, 2 ^ 20 + 88, 7,
    40, 1, 2 ^ 20 + 80, 5, 16,
    24, 1, 2 ^ 20 + 80,
    48, 2, 2 ^ 20 + 80, 8, 2 ^ 20 + 88, 8]

/-- The memory with these words. -/
def garbageMem : Mem := ofWords [(2 ^ 20, 208)] (2 ^ 20) garbageWords

/-- What the buffer holds. -/
def garbageContent : Content :=
  ⟨2, [(0, 5, 16)], [(0, 8)], [(0, 8), (8, 8)], fun x => garbageMem.byte (2 ^ 20 + (80 + x))⟩

theorem garbage_layout : Layout garbageMem (2 ^ 20) (2 ^ 20) 208 ⟨1, 2, 1, 2⟩ garbageContent := by
  have w : ∀ i v, garbageWords[i]? = some v → v < W → garbageMem.word (2 ^ 20 + 8 * i) = v := fun i v h hv =>
    ofWords_word _ _ _ _ _ h hv
  refine ⟨⟨by decide, by decide, by decide, by decide, by decide, by decide, ?_,
    ⟨Nat.le_refl _, Nat.le_refl _, Nat.le_refl _, Nat.le_refl _⟩, w 0 _ rfl (by decide), w 1 _ rfl (by decide), w 2 _ rfl (by decide),
    ?_, ?_, ?_⟩, ⟨by decide, by decide, by decide, by decide, by decide⟩, ?_, ?_, ?_, fun _ _ _ => rfl⟩
  · refine Or.inr ⟨(2 ^ 20, 208), ?_, Nat.le_refl _, Nat.le_refl _⟩
    rw [garbageMem, ofWords_blocks]; simp
  · exact forall_id (w 3 _ rfl (by decide)) (w 4 _ rfl (by decide)) (w 5 _ rfl (by decide)) (w 6 _ rfl (by decide))
  · exact forall_id (w 8 _ rfl (by decide)) (w 12 _ rfl (by decide)) (w 17 _ rfl (by decide)) (w 20 _ rfl (by decide))
  · exact forall_id (w 9 _ rfl (by decide)) (w 13 _ rfl (by decide)) (w 18 _ rfl (by decide)) (w 21 _ rfl (by decide))
  · intro i r hr
    match i, hr with
    | 0, hr => cases hr; exact ⟨w 14 _ rfl (by decide), w 15 _ rfl (by decide), w 16 _ rfl (by decide)⟩
    | i + 1, hr => simp [garbageContent] at hr
  · intro i r hr
    match i, hr with
    | 0, hr => cases hr; exact ⟨w 19 _ rfl (by decide), w 10 _ rfl (by decide)⟩
    | i + 1, hr => simp [garbageContent] at hr
  · intro i r hr
    match i, hr with
    | 0, hr => cases hr; exact ⟨w 22 _ rfl (by decide), w 23 _ rfl (by decide)⟩
    | 1, hr => cases hr; exact ⟨w 24 _ rfl (by decide), w 25 _ rfl (by decide)⟩
    | i + 2, hr => simp [garbageContent] at hr

theorem garbage_shifts : Shifts (2 ^ 20) 4096 208 ((4096 + (W - 2 ^ 20 % W)) % W) :=
  shifts_of (by decide) (by decide)

end Buf

/-- **C70.** (Partial: for buffers without garbage ranges.)  If the offset leads from `B` to `N`, every address in the buffer is
shifted: the result is the buffer as it would be at `N`, with the same contents, and nothing outside the buffer is changed. -/
theorem C70_shifted_partial {m : Mem} {B N cap d : Nat} {c : Caps} {k : Content} (h : Layout m B B cap c k)
    (hg : k.gs = []) (nz : N ≠ 0) (limN : N + cap < W) (sh : Shifts B N cap d) (hd : d ≠ 0) :
    ∃ m', applyAddrOffset m B d 8 = .ok (m', true) ∧ m'.blocks = m.blocks ∧ Layout m' N B cap c k ∧
      ∀ x, x < B ∨ B + c.len ≤ x → m'.byte x = m.byte x :=
  applyAddrOffset_ok h hg nz limN sh hd

/-- The hypotheses can be met by a buffer with an object and a data pointer. -/
example : ∃ m k d, Layout m (2 ^ 20) (2 ^ 20) 208 ⟨1, 2, 1, 2⟩ k ∧ k.gs = [] ∧ k.recs ≠ [] ∧ k.ptrs ≠ [] ∧
    Shifts (2 ^ 20) 4096 208 d ∧ d ≠ 0 := by
  have h := garbage_layout
  have hw : ∀ a, a + 8 ≤ 2 ^ 20 + 168 ∨ 2 ^ 20 + 176 ≤ a → (garbageMem.put (2 ^ 20 + 168) 0).word a = garbageMem.word a :=
    fun a ha => Mem.word_put_other _ (by omega)
  refine ⟨garbageMem.put (2 ^ 20 + 168) 0, { garbageContent with gs := [] }, _, ⟨⟨h.head.nzA, h.head.nzB, h.head.alB,
    h.head.limA, h.head.limB, h.head.fit, (Mem.put_valid ..).2 h.head.val, ⟨by decide, by decide, by decide, by decide⟩,
    (hw _ (by omega)).trans h.head.h0, (hw _ (by omega)).trans h.head.h1, (hw _ (by omega)).trans h.head.h2, ?_, ?_, ?_⟩,
    ⟨by decide, by decide, by decide, by decide, by decide⟩, ?_, ?_, ?_, ?_⟩,
    rfl, by decide, by decide, garbage_shifts, by decide⟩
  · exact fun id h1 h2 => (hw _ (by omega)).trans (h.head.addr id h1 h2)
  · refine forall_id ?_ ?_ ?_ ?_ <;> exact (hw _ (by decide)).trans (h.head.max _ (by decide) (by decide))
  · refine forall_id ?_ ?_ ?_ ?_
    · exact (hw _ (by decide)).trans (h.head.num 3 (by decide) (by decide))
    · exact (hw _ (by decide)).trans (h.head.num 4 (by decide) (by decide))
    · exact (hw _ (by decide)).trans (h.head.num 5 (by decide) (by decide))
    · exact Mem.word_put_same _ _ _ (by decide)
  · intro i r hr
    match i, hr with
    | 0, hr =>
      obtain ⟨a, b, e⟩ := h.recs 0 r hr
      exact ⟨(hw _ (by decide)).trans a, (hw _ (by decide)).trans b, (hw _ (by decide)).trans e⟩
    | i + 1, hr => simp [garbageContent] at hr
  · intro i r hr
    match i, hr with
    | 0, hr =>
      have hr' := hr
      obtain ⟨a, b⟩ := h.ptrs 0 r hr
      cases hr'
      exact ⟨(hw _ (by decide)).trans a, (hw _ (by decide)).trans b⟩
    | i + 1, hr => simp [garbageContent] at hr
  · intro i r hr; simp at hr
  · intro x hx _
    have : x < 16 := hx
    exact Mem.byte_put_of_lt _ (by omega)

/-- **C70.** An offset of zero changes nothing. -/
theorem C70_zero {m : Mem} {B cap : Nat} {c : Caps} {k : Content} (h : Layout m B B cap c k) :
    applyAddrOffset m B 0 8 = .ok (m, true) := by
  have nzB := h.head.nzB
  have al := h.head.alB
  simp only [applyAddrOffset]
  rw [if_pos ⟨nzB, by omega, al⟩, h.head.needsRemapping, Res.ok_bind]
  simp only [ne_eq, not_true_eq_false, decide_false, Bool.false_eq_true, if_false]
  rfl

example : Layout garbageMem (2 ^ 20) (2 ^ 20) 208 ⟨1, 2, 1, 2⟩ garbageContent := garbage_layout

/-- **C70 (violated).** With garbage ranges the loop begins at the header of their section.  The call reports success (unless one of the
shifted values happens to be zero), all addresses of objects, data pointers and sections are shifted, but so is the *size* of the garbage
section, and the address of the last range keeps its old value; the result is not the buffer as it would be at `N`. -/
theorem C70_garbage_violated {m : Mem} {B N cap d : Nat} {c : Caps} {k : Content} (h : Layout m B B cap c k)
    {q : Nat × Nat} (hq : k.gs.getLast? = some q) (nz : N ≠ 0) (limN : N + cap < W) (sh : Shifts B N cap d) (hd : d ≠ 0) (hNB : N ≠ B)
    (hs : shift (16 + 16 * c.garbage) d ≠ 0) :
    ∃ m', applyAddrOffset m B d 8 = .ok (m', true) ∧ m'.blocks = m.blocks ∧
      m'.word B = N ∧ (∀ id, 3 ≤ id → id ≤ 6 → m'.word (B + 8 * id) = N + off c id) ∧
      Recs m' N B c k.recs ∧ Ptrs m' N B c k.ptrs ∧ Data m' B k ∧
      m'.word (B + off c 6) = shift (16 + 16 * c.garbage) d ∧
      (∀ (i : Nat) (p : Nat × Nat), i + 1 < k.gs.length → k.gs[i]? = some p → m'.word (B + (off c 6 + 16 + 16 * i)) = N + 80 + p.1) ∧
      m'.word (B + (off c 6 + 16 + 16 * (k.gs.length - 1))) = B + 80 + q.1 ∧
      ¬ Layout m' N B cap c k := by
  obtain ⟨b1, b2, b3, b4, b5⟩ := h.mixed.bounds
  have hL : c.len = 128 + 8 * c.slots + 24 * c.objs + 8 * c.dataptrs + 16 * c.garbage := rfl
  have hne : k.gs ≠ [] := by rintro e; simp [e] at hq
  have hpos : 0 < k.gs.length := List.length_pos_iff.2 hne
  have w0 : m.word (B + off c 6 + 16 * 0) = 16 + 16 * c.garbage := by
    rw [Nat.mul_zero, Nat.add_zero, h.head.max 6 (by omega) (by omega)]; rfl
  have hgar : ∀ (i : Nat) (p : Nat × Nat), k.gs[i]? = some p → m.word (B + off c 6 + 16 * (i + 1)) = B + 80 + p.1 := fun i p hp => by
    rw [show B + off c 6 + 16 * (i + 1) = B + (off c 6 + 16 + 16 * i) by omega]
    exact (h.gars i p hp).1
  have hsh : ∀ (i : Nat) (p : Nat × Nat), k.gs[i]? = some p → shift (B + 80 + p.1) d = N + 80 + p.1 := fun i p hp => by
    have := (h.ok.gar_ok p (List.mem_of_getElem? hp)).1
    rw [Nat.add_assoc, sh (80 + p.1) (by omega), Nat.add_assoc]
  obtain ⟨m', ok, e1, e2, e3, e4⟩ := applyAddrOffset_garbage h nz limN sh hd
  have hok : ok = true := by
    refine e3.2 fun j hj => ?_
    cases j with
    | zero => rw [w0]; exact hs
    | succ j =>
      have hp : k.gs[j]? = some k.gs[j] := List.getElem?_eq_getElem (by omega)
      rw [hgar j _ hp, hsh j _ hp]
      omega
  subst hok
  obtain ⟨a1, a2, a3, a4, a5, a6⟩ := e4 rfl
  have hlast : m'.word (B + (off c 6 + 16 + 16 * (k.gs.length - 1))) = B + 80 + q.1 := by
    rw [List.getLast?_eq_getElem?] at hq
    rw [← (h.gars _ _ hq).1]
    exact Mem.word_congr fun x h1 h2 => a6 x (by omega) fun j hj => by omega
  refine ⟨m', e1, e2, a1.h0, a1.addr, a2, a3, a4, ?_, ?_, hlast, ?_⟩
  · have := a5 0 hpos
    rw [w0] at this
    simpa using this
  · intro i p hi hp
    rw [show B + (off c 6 + 16 + 16 * i) = B + off c 6 + 16 * (i + 1) by omega, a5 (i + 1) hi, hgar i p hp, hsh i p hp]
  · intro hl
    rw [List.getLast?_eq_getElem?] at hq
    have := (hl.gars _ _ hq).1
    omega

/-- The hypotheses can be met: a buffer with two garbage ranges. -/
example : Layout garbageMem (2 ^ 20) (2 ^ 20) 208 ⟨1, 2, 1, 2⟩ garbageContent ∧ garbageContent.gs.getLast? = some (8, 8) ∧
    Shifts (2 ^ 20) 4096 208 ((4096 + (W - 2 ^ 20 % W)) % W) ∧ (4096 + (W - 2 ^ 20 % W)) % W ≠ 0 ∧
    shift (16 + 16 * 2) ((4096 + (W - 2 ^ 20 % W)) % W) ≠ 0 :=
  ⟨garbage_layout, rfl, garbage_shifts, by decide, by decide⟩

/-- **C70 (violated).** If the shifted size of the garbage section is zero the call fails. -/
theorem C70_garbage_zero_violated {m : Mem} {B N cap d : Nat} {c : Caps} {k : Content} (h : Layout m B B cap c k) (hg : k.gs ≠ [])
    (nz : N ≠ 0) (limN : N + cap < W) (sh : Shifts B N cap d) (hd : d ≠ 0) (hs : shift (16 + 16 * c.garbage) d = 0) :
    ∃ m', applyAddrOffset m B d 8 = .ok (m', false) := by
  obtain ⟨m', ok, e1, e2, e3, e4⟩ := applyAddrOffset_garbage h nz limN sh hd
  cases ok with
  | false => exact ⟨m', e1⟩
  | true =>
    have := e3.1 rfl 0 (List.length_pos_iff.2 hg)
    rw [Nat.mul_zero, Nat.add_zero, h.head.max 6 (by omega) (by omega)] at this
    exact absurd hs this

/-- The hypotheses can be met: the buffer at `2^20` and the address `2^20 - 48`. -/
example : Layout garbageMem (2 ^ 20) (2 ^ 20) 208 ⟨1, 2, 1, 2⟩ garbageContent ∧ garbageContent.gs ≠ [] ∧
    Shifts (2 ^ 20) (2 ^ 20 - 48) 208 (W - 48) ∧ shift (16 + 16 * 2) (W - 48) = 0 := by
  refine ⟨garbage_layout, by decide, ?_, by decide⟩
  have := shifts_of (A := 2 ^ 20) (B := 2 ^ 20 - 48) (cap := 208) (by decide) (by decide)
  exact this

end SixTrack
