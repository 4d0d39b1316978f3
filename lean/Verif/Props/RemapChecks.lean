import Verif.Buffer.RemapAny

/-!
# Property C68: remapping checks what it finds

`NS(ManagedBuffer_remap)` is applied to bytes that come from elsewhere (a file, another process).  Here the header and the
four sections are in order (`Buf.Head`: sizes, counts and section addresses, written for the address `A`), but the
records in the sections are arbitrary.
-/

namespace SixTrack
open Buf

namespace Buf

/-- A memory with one block of `8 * ws.length` bytes at `B` that holds the given words. -/
def ofWords (bs : List (Nat × Nat)) (B : Nat) : List Nat → Mem
  | [] => ⟨bs, fun _ => 0⟩
  | w :: ws => (ofWords bs (B + 8) ws).put B w

theorem ofWords_blocks (bs : List (Nat × Nat)) : ∀ (ws : List Nat) (B : Nat), (ofWords bs B ws).blocks = bs
  | [], _ => rfl
  | _ :: ws, B => by rw [ofWords, Mem.put_blocks]; exact ofWords_blocks bs ws (B + 8)

theorem ofWords_word (bs : List (Nat × Nat)) : ∀ (ws : List Nat) (B i w : Nat), ws[i]? = some w → w < W →
    (ofWords bs B ws).word (B + 8 * i) = w
  | [], _, _, _, h, _ => by simp at h
  | v :: ws, B, 0, w, h, hw => by
    simp only [List.getElem?_cons_zero, Option.some.injEq] at h
    subst h
    exact Mem.word_put_same _ _ _ hw
  | v :: ws, B, i + 1, w, h, hw => by
    rw [ofWords, Mem.word_put_other _ (by omega), show B + 8 * (i + 1) = B + 8 + 8 * i by omega]
    exact ofWords_word bs ws (B + 8) i w (by simpa using h) hw

/-- The words of a buffer with room for two slots, two objects and one data pointer, written for the address `2^30`; two slots,
`no` objects with the given addresses and sizes and `np` data pointers are in use. -/
def raw (no np a0 s0 a1 s1 p : Nat) : List Nat :=
  [2 ^ 30, 200, 64, 2 ^ 30 + 64, 2 ^ 30 + 96, 2 ^ 30 + 160, 2 ^ 30 + 184, 0,
    32, 2, 2 ^ 30 + 80, 0,
    64, no, a0, 1, s0, a1, 1, s1,
    24, np, p,
    16, 0]

/-- The memory with these words at `2^20`. -/
def rawMem (no np a0 s0 a1 s1 p : Nat) : Mem := ofWords [(2 ^ 20, 200)] (2 ^ 20) (raw no np a0 s0 a1 s1 p)

theorem rawMem_word (no np a0 s0 a1 s1 p i : Nat) {w : Nat} (h : (raw no np a0 s0 a1 s1 p)[i]? = some w) (hw : w < W) :
    (rawMem no np a0 s0 a1 s1 p).word (2 ^ 20 + 8 * i) = w :=
  ofWords_word _ _ _ _ _ h hw

theorem rawMem_head {no np a0 s0 a1 s1 p : Nat} (ho : no ≤ 2) (hp : np ≤ 1) :
    Head (rawMem no np a0 s0 a1 s1 p) (2 ^ 30) (2 ^ 20) 200 ⟨2, 2, 1, 0⟩ ⟨no, 2, np, 0⟩ := by
  have w : ∀ i v, (raw no np a0 s0 a1 s1 p)[i]? = some v → v < W →
      (rawMem no np a0 s0 a1 s1 p).word (2 ^ 20 + 8 * i) = v := fun i v => rawMem_word _ _ _ _ _ _ _ i
  refine ⟨by decide, by decide, by decide, by decide, by decide, by decide, ?_, ⟨ho, Nat.le_refl _, hp, Nat.le_refl _⟩,
    w 0 _ rfl (by decide), w 1 _ rfl (by decide), w 2 _ rfl (by decide), ?_, ?_, ?_⟩
  · refine Or.inr ⟨(2 ^ 20, 200), ?_, Nat.le_refl _, Nat.le_refl _⟩
    rw [rawMem, ofWords_blocks]; simp
  · exact forall_id (w 3 _ rfl (by decide)) (w 4 _ rfl (by decide)) (w 5 _ rfl (by decide)) (w 6 _ rfl (by decide))
  · exact forall_id (w 8 _ rfl (by decide)) (w 12 _ rfl (by decide)) (w 20 _ rfl (by decide)) (w 23 _ rfl (by decide))
  · exact forall_id (w 9 _ rfl (by simp only [cnt, W]; omega)) (w 13 _ rfl (by simp only [cnt, W]; omega))
      (w 21 _ rfl (by simp only [cnt, W]; omega)) (w 24 _ rfl (by simp only [cnt, W]; omega))

end Buf

/-- **C68.** Whatever the records say: if the remapping of a buffer written for `A` and found at `B` is defined, it touches
nothing outside the buffer and leaves its sections in order; and if it reports success then all addresses in the records have been
moved by `B - A` (modulo `2^64`), every object begins in the slots, no object begins before the (64-bit) end of the
previous one, and all data pointers, what they point at and all garbage ranges are in the used slots. -/
theorem C68_remap_checks {m m' : Mem} {A B cap : Nat} {c n : Caps} {ok : Bool} (h : Head m A B cap c n)
    (hA : A ≠ B + W / 2) (hne : A ≠ B) (hr : remap m B 8 = .ok (m', ok)) :
    Head m' B B cap c n ∧ (∀ x, x < B ∨ B + c.len ≤ x → m'.byte x = m.byte x) ∧
      (ok = true → Checked m' B c n ∧ Shifted m m' B ((B + (W - A % W)) % W) c n) :=
  ⟨(h.remap_any hA hne hr).2.1, (h.remap_any hA hne hr).2.2.1, (h.remap_any hA hne hr).2.2.2⟩

/-- The hypotheses can be met: two objects and a data pointer in the first of them. -/
theorem Buf.raw_remapped : ∃ m m', Head m (2 ^ 30) (2 ^ 20) 200 ⟨2, 2, 1, 0⟩ ⟨2, 2, 1, 0⟩ ∧
    remap m (2 ^ 20) 8 = .ok (m', true) := by
  have key : (match remap (rawMem 2 1 (2 ^ 30 + 80) 8 (2 ^ 30 + 88) 8 (2 ^ 30 + 80)) (2 ^ 20) 8 with
    | .ok (_, b) => b
    | .ub => false) = true := by decide +kernel
  split at key
  · rename_i m' b e
    subst key
    exact ⟨_, m', rawMem_head (by omega) (by omega), e⟩
  · cases key

example : ∃ (m m' : Mem) (ok : Bool), Head m (2 ^ 30) (2 ^ 20) 200 ⟨2, 2, 1, 0⟩ ⟨2, 2, 1, 0⟩ ∧ 2 ^ 30 ≠ 2 ^ 20 + W / 2 ∧
    remap m (2 ^ 20) 8 = .ok (m', ok) ∧ ok = true := by
  obtain ⟨m, m', h, e⟩ := raw_remapped
  exact ⟨m, m', true, h, by decide, e, rfl⟩

theorem Buf.shift_move {A B x : Nat} (hA : A < W) (hx : B + x < W) : shift (A + x) ((B + (W - A % W)) % W) = B + x := by
  unfold shift
  rw [Nat.mod_eq_of_lt hA, Nat.add_mod_mod, show A + x + (B + (W - A)) = B + x + W by omega, Nat.add_mod_right]
  exact Nat.mod_eq_of_lt hx

/-- **C68.** An object whose address is outside the slots, or inside the previous object, is rejected. -/
theorem C68_bad_object {m m' : Mem} {A B cap : Nat} {c n : Caps} {ok : Bool} (h : Head m A B cap c n)
    (hA : A ≠ B + W / 2) (hne : A ≠ B) (hr : remap m B 8 = .ok (m', ok)) {j x : Nat} (hj : j < n.objs)
    (hx : m.word (B + (off c 4 + 16) + 24 * j) = A + x) (hxW : B + x < W)
    (hbad : x < 80 ∨ 80 + 8 * n.slots < x ∨
      ∃ i y z, i + 1 = j ∧ m.word (B + (off c 4 + 16) + 24 * i) = A + y ∧
        m.word (B + (off c 4 + 16) + 24 * i + 16) = z ∧ B + y + (z + 7) < W ∧ x < y + z) : ok = false := by
  rw [← Bool.not_eq_true]
  intro ht
  obtain ⟨-, -, -, k⟩ := h.remap_any hA hne hr
  obtain ⟨kc, ks⟩ := k ht
  have limA := h.limA
  have hj' := ks.objs j hj
  rw [hx, shift_move (by omega) hxW] at hj'
  have k1 := kc.objs j hj
  rw [hj'] at k1
  rcases hbad with hb | hb | ⟨i, y, z, rfl, hy, hz, hw, hlt⟩
  · omega
  · omega
  · have hi := ks.objs i (by omega)
    rw [hy, shift_move (by omega) (by omega)] at hi
    have k2 := kc.next i hj
    rw [hj', hi, ks.size i (by omega), hz, roundUp_8, Nat.mod_eq_of_lt (by omega)] at k2
    omega

/-- The hypotheses can be met: the second object begins inside the first one. -/
example : ∃ m m' ok, Head m (2 ^ 30) (2 ^ 20) 200 ⟨2, 2, 1, 0⟩ ⟨2, 2, 0, 0⟩ ∧ remap m (2 ^ 20) 8 = .ok (m', ok) ∧
    m.word (2 ^ 20 + (off ⟨2, 2, 1, 0⟩ 4 + 16) + 24 * 1) = 2 ^ 30 + 88 ∧
    m.word (2 ^ 20 + (off ⟨2, 2, 1, 0⟩ 4 + 16) + 24 * 0) = 2 ^ 30 + 80 ∧
    m.word (2 ^ 20 + (off ⟨2, 2, 1, 0⟩ 4 + 16) + 24 * 0 + 16) = 16 := by
  have h := rawMem_head (no := 2) (np := 0) (a0 := 2 ^ 30 + 80) (s0 := 16) (a1 := 2 ^ 30 + 88) (s1 := 8) (p := 0)
    (by omega) (by omega)
  obtain ⟨m', ok, e, -⟩ := h.remap_noptrs (by decide) (by decide) rfl
  exact ⟨_, m', ok, h, e, rawMem_word _ _ _ _ _ _ _ 17 rfl (by decide), rawMem_word _ _ _ _ _ _ _ 14 rfl (by decide),
    rawMem_word _ _ _ _ _ _ _ 16 rfl (by decide)⟩

/-- **C68.** For a buffer without data pointers remapping is defined whatever the records say, and it succeeds exactly if the
moved addresses of the objects and of the garbage ranges pass the checks. -/
theorem C68_without_pointers {m : Mem} {A B cap : Nat} {c n : Caps} (h : Head m A B cap c n)
    (hA : A ≠ B + W / 2) (hne : A ≠ B) (h0 : n.dataptrs = 0) :
    ∃ m' ok, remap m B 8 = .ok (m', ok) ∧
      (ok = true ↔
        ObjectsOk m (B + 80) (B + 80 + 8 * n.slots) ((B + (W - A % W)) % W) (B + 80) (B + (off c 4 + 16)) n.objs ∧
        ∀ j < n.garbage, B + 80 ≤ shift (m.word (B + (off c 6 + 16) + 16 * j)) ((B + (W - A % W)) % W) ∧
          shift (m.word (B + (off c 6 + 16) + 16 * j)) ((B + (W - A % W)) % W) < B + 80 + 8 * n.slots) :=
  h.remap_noptrs hA hne h0

example : ∃ (m : Mem), Head m (2 ^ 30) (2 ^ 20) 200 ⟨2, 2, 1, 0⟩ ⟨2, 2, 0, 0⟩ :=
  ⟨rawMem 2 0 (2 ^ 30 + 80) 8 (2 ^ 30 + 88) 8 0, rawMem_head (by omega) (by omega)⟩

/-- **C68 is violated for sizes.** The size of the last object is not checked: whatever it is, and even if the object begins where
the slots end, a buffer with this object alone is accepted. -/
theorem C68_size_violated {m : Mem} {A B cap : Nat} {c n : Caps} (h : Head m A B cap c n)
    (hA : A ≠ B + W / 2) (hne : A ≠ B) (h1 : n.objs = 1) (h0 : n.dataptrs = 0) (hg : n.garbage = 0) {x : Nat}
    (hx : m.word (B + (off c 4 + 16)) = A + x) (hlo : 80 ≤ x) (hhi : x ≤ 80 + 8 * n.slots) :
    ∃ m', remap m B 8 = .ok (m', true) ∧ m'.word (B + (off c 4 + 16)) = B + x ∧
      m'.word (B + (off c 4 + 16) + 16) = m.word (B + (off c 4 + 16) + 16) := by
  have limA := h.limA
  have limB := h.limB
  have f := h.fit
  have le := h.le.slots
  have hL : c.len = 128 + 8 * c.slots + 24 * c.objs + 8 * c.dataptrs + 16 * c.garbage := rfl
  have e : shift (A + x) ((B + (W - A % W)) % W) = B + x := shift_move (by omega) (by omega)
  obtain ⟨m', ok, hr, hok⟩ := h.remap_noptrs hA hne h0
  have ht : ok = true := by
    refine hok.2 ⟨⟨fun j hj => ?_, fun _ => ?_, fun j hj => ?_⟩, fun j hj => ?_⟩
    · obtain rfl : j = 0 := by omega
      rw [show B + (off c 4 + 16) + 24 * 0 = B + (off c 4 + 16) from rfl, hx, e]; omega
    · rw [hx, e]; omega
    · omega
    · omega
  subst ht
  obtain ⟨-, -, -, k⟩ := h.remap_any hA hne hr
  have k1 := (k rfl).2.objs 0 (by omega)
  have k2 := (k rfl).2.size 0 (by omega)
  rw [Nat.mul_zero, Nat.add_zero, hx, e] at k1
  rw [Nat.mul_zero, Nat.add_zero] at k2
  exact ⟨m', hr, k1, k2⟩

/-- The hypotheses can be met: an object of 2^63 bytes at the end of two slots. -/
example : ∃ (m : Mem) (x : Nat), Head m (2 ^ 30) (2 ^ 20) 200 ⟨2, 2, 1, 0⟩ ⟨1, 2, 0, 0⟩ ∧
    m.word (2 ^ 20 + (off ⟨2, 2, 1, 0⟩ 4 + 16)) = 2 ^ 30 + x ∧ 80 ≤ x ∧ x = 80 + 8 * 2 ∧
    m.word (2 ^ 20 + (off ⟨2, 2, 1, 0⟩ 4 + 16) + 16) = 2 ^ 63 :=
  ⟨rawMem 1 0 (2 ^ 30 + 96) (2 ^ 63) 0 0 0, 96, rawMem_head (by omega) (by omega),
    rawMem_word _ _ _ _ _ _ _ 14 rfl (by decide), by omega, rfl, rawMem_word _ _ _ _ _ _ _ 16 rfl (by decide)⟩

/-- **C68 is violated for the order of the objects.** The end of an object is computed modulo `2^64`: a large size makes a buffer
acceptable whose second object begins before the first one. -/
theorem C68_order_violated : ∃ m m', Head m (2 ^ 30) (2 ^ 20) 200 ⟨2, 2, 1, 0⟩ ⟨2, 2, 0, 0⟩ ∧
    remap m (2 ^ 20) 8 = .ok (m', true) ∧
    m'.word (2 ^ 20 + (off ⟨2, 2, 1, 0⟩ 4 + 16) + 24 * 1) < m'.word (2 ^ 20 + (off ⟨2, 2, 1, 0⟩ 4 + 16) + 24 * 0) := by
  have h := rawMem_head (no := 2) (np := 0) (a0 := 2 ^ 30 + 88) (s0 := W - 8) (a1 := 2 ^ 30 + 80) (s1 := 8) (p := 0)
    (by omega) (by omega)
  have w0 : (rawMem 2 0 (2 ^ 30 + 88) (W - 8) (2 ^ 30 + 80) 8 0).word (2 ^ 20 + (off ⟨2, 2, 1, 0⟩ 4 + 16) + 24 * 0) =
    2 ^ 30 + 88 := rawMem_word _ _ _ _ _ _ _ 14 rfl (by decide)
  have w1 : (rawMem 2 0 (2 ^ 30 + 88) (W - 8) (2 ^ 30 + 80) 8 0).word (2 ^ 20 + (off ⟨2, 2, 1, 0⟩ 4 + 16) + 24 * 1) =
    2 ^ 30 + 80 := rawMem_word _ _ _ _ _ _ _ 17 rfl (by decide)
  have s0 : (rawMem 2 0 (2 ^ 30 + 88) (W - 8) (2 ^ 30 + 80) 8 0).word (2 ^ 20 + (off ⟨2, 2, 1, 0⟩ 4 + 16) + 24 * 0 + 16) =
    W - 8 := rawMem_word _ _ _ _ _ _ _ 16 rfl (by decide)
  obtain ⟨m', ok, hr, hok⟩ := h.remap_noptrs (by decide) (by decide) rfl
  have ht : ok = true := by
    refine hok.2 ⟨⟨fun j hj => ?_, fun _ => ?_, fun j hj => ?_⟩, fun j hj => ?_⟩
    · dsimp only at hj
      obtain rfl | rfl : j = 0 ∨ j = 1 := by omega
      · rw [w0]; decide
      · rw [w1]; decide
    · have w0' : (rawMem 2 0 (2 ^ 30 + 88) (W - 8) (2 ^ 30 + 80) 8 0).word (2 ^ 20 + (off ⟨2, 2, 1, 0⟩ 4 + 16)) =
        2 ^ 30 + 88 := w0
      rw [w0']; decide
    · dsimp only at hj
      obtain rfl : j = 0 := by omega
      rw [w0, s0, w1]; decide
    · dsimp only at hj
      omega
  subst ht
  obtain ⟨-, -, -, k⟩ := h.remap_any (by decide) (by decide) hr
  have k0 := (k rfl).2.objs 0 (by decide)
  have k1 := (k rfl).2.objs 1 (by decide)
  rw [w0] at k0
  rw [w1] at k1
  exact ⟨_, m', h, hr, by rw [k0, k1]; decide⟩

/-- **C68 is violated for data pointers.** A data pointer is followed before it is checked: if it leads to memory that cannot be read,
remapping is undefined instead of failing. -/
theorem C68_pointer_violated {m : Mem} {A B cap : Nat} {c n : Caps} (h : Head m A B cap c n)
    (hA : A ≠ B + W / 2) (hne : A ≠ B) (h0 : 0 < n.dataptrs) {x : Nat}
    (hx : m.word (B + (off c 5 + 16)) = A + x) (hw : B + x < W) (hv : ¬ m.valid (B + x) 8) : remap m B 8 = .ub := by
  have limA := h.limA
  have nz := h.nzB
  have e : shift (A + x) ((B + (W - A % W)) % W) = B + x := shift_move (by omega) hw
  refine h.remap_ub hA hne h0 ?_ ?_
  · rw [hx, e]; omega
  · rw [hx, e]; exact hv

/-- The hypotheses can be met: a pointer behind the buffer. -/
example : ∃ (m : Mem) (x : Nat), Head m (2 ^ 30) (2 ^ 20) 200 ⟨2, 2, 1, 0⟩ ⟨0, 2, 1, 0⟩ ∧
    m.word (2 ^ 20 + (off ⟨2, 2, 1, 0⟩ 5 + 16)) = 2 ^ 30 + x ∧ 2 ^ 20 + x < W ∧ ¬ m.valid (2 ^ 20 + x) 8 := by
  refine ⟨rawMem 0 1 0 0 0 0 (2 ^ 30 + 2 ^ 25), 2 ^ 25, rawMem_head (by omega) (by omega),
    rawMem_word _ _ _ _ _ _ _ 22 rfl (by decide), by decide, ?_⟩
  rintro (h | ⟨b, hb, h1, h2⟩)
  · omega
  · rw [rawMem, ofWords_blocks, List.mem_singleton] at hb
    subst hb
    revert h2; decide

end SixTrack
