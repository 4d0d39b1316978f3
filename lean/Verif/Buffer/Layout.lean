import Verif.Buffer.Generic

/-!
# The layout of a managed buffer

What a managed buffer with slot size 8 (the default, and the only size the
constructors use) looks like in memory.  The buffer is located at address `B`, but
all addresses stored in it are relative to a base address `A`: after copying a
buffer from `A` to `B` its addresses still refer to `A`, remapping makes `A = B`.

`Content` is what a buffer holds, independent of addresses and capacities.
-/

namespace SixTrack.Buf

/-! ## Geometry -/

/-- Offset of section `id` for capacities `c`. -/
def off (c : Caps) : Nat → Nat
  | 3 => 64
  | 4 => 80 + 8 * c.slots
  | 5 => 96 + 8 * c.slots + 24 * c.objs
  | 6 => 112 + 8 * c.slots + 24 * c.objs + 8 * c.dataptrs
  | _ => 0

/-- The number for section `id`. -/
def cnt (c : Caps) : Nat → Nat
  | 3 => c.slots
  | 4 => c.objs
  | 5 => c.dataptrs
  | 6 => c.garbage
  | _ => 0

/-- Entity sizes. -/
def ent : Nat → Nat
  | 3 => 8
  | 4 => 24
  | 5 => 8
  | 6 => 16
  | _ => 0

/-- Length of a managed buffer with capacities `c`. -/
def Caps.len (c : Caps) : Nat :=
  128 + 8 * c.slots + 24 * c.objs + 8 * c.dataptrs + 16 * c.garbage

/-- All four numbers of `n` are at most those of `c`. -/
structure Caps.Le (n c : Caps) : Prop where
  objs : n.objs ≤ c.objs
  slots : n.slots ≤ c.slots
  dataptrs : n.dataptrs ≤ c.dataptrs
  garbage : n.garbage ≤ c.garbage

theorem forall_id {P : Nat → Prop} (h3 : P 3) (h4 : P 4) (h5 : P 5) (h6 : P 6) :
    ∀ id, 3 ≤ id → id ≤ 6 → P id := by
  intro id h1 h2
  rcases (by omega : id = 3 ∨ id = 4 ∨ id = 5 ∨ id = 6) with h | h | h | h <;> subst h <;> assumption

theorem roundUp_8 (n : Nat) : roundUp n 8 = (n + 7) / 8 * 8 := by
  unfold roundUp
  simp only [if_pos (by omega : 0 < 8)]
  split <;> omega

theorem entitySize_8 : ∀ id, 3 ≤ id → id ≤ 6 → entitySize id 8 = ent id :=
  forall_id rfl rfl rfl rfl

theorem sectionHeaderLength_8 : sectionHeaderLength 8 = 16 := rfl

theorem calcSectionSize_8 (n : Nat) : ∀ id, 3 ≤ id → id ≤ 6 →
    calcSectionSize id n 8 = 16 + ent id * n := by
  intro id h1 h2
  unfold calcSectionSize
  rw [if_pos (by omega), entitySize_8 id h1 h2, sectionHeaderLength_8, Nat.mul_comm, Nat.add_comm]

/-! ## Layout -/

/-- What a buffer holds: the number of used slots, the objects' records (start
relative to the slots' begin, type, size), the data pointers (position of the
pointer and where it points to, relative to the slots' begin), the garbage ranges,
and the bytes of the slots. -/
structure Content where
  nS : Nat
  recs : List (Nat × Nat × Nat)
  ptrs : List (Nat × Nat)
  gs : List (Nat × Nat)
  data : Nat → UInt8

/-- The used numbers of entries. -/
def Content.counts (k : Content) : Caps := ⟨k.recs.length, k.nS, k.ptrs.length, k.gs.length⟩

/-- Slot byte `x` belongs to a pointer. -/
def Content.InPtr (k : Content) (x : Nat) : Prop := ∃ p ∈ k.ptrs, p.1 ≤ x ∧ x < p.1 + 8

/-- Contents as the library makes them. -/
structure Content.Ok (k : Content) : Prop where
  rec_ok : ∀ r ∈ k.recs, r.1 % 8 = 0 ∧ r.1 + roundUp r.2.2 8 ≤ 8 * k.nS ∧ r.2.1 < W ∧ r.2.2 < W
  rec_mono : k.recs.Pairwise fun a b => a.1 + roundUp a.2.2 8 ≤ b.1
  ptr_ok : ∀ p ∈ k.ptrs, p.1 % 8 = 0 ∧ p.1 + 8 ≤ 8 * k.nS ∧ p.2 % 8 = 0 ∧ p.2 ≤ 8 * k.nS
  ptr_ne : k.ptrs.Pairwise fun a b => a.1 ≠ b.1
  gar_ok : ∀ q ∈ k.gs, q.1 ≤ 8 * k.nS ∧ q.2 < W

/-- Every pointer target and every garbage range begins before the end of the used
slots. -/
structure Content.Strict (k : Content) : Prop where
  ptr : ∀ p ∈ k.ptrs, p.2 < 8 * k.nS
  gar : ∀ q ∈ k.gs, q.1 < 8 * k.nS

/-- Header and section headers: stored base `A`, location `B`, `cap` bytes of memory,
capacities `c`, used numbers `n`. -/
structure Head (m : Mem) (A B cap : Nat) (c n : Caps) : Prop where
  nzA : A ≠ 0
  nzB : B ≠ 0
  alB : B % 8 = 0
  limA : A + cap < W
  limB : B + cap < W
  fit : c.len ≤ cap
  val : m.valid B cap
  le : n.Le c
  h0 : m.word B = A
  h1 : m.word (B + 8) = c.len
  h2 : m.word (B + 16) = 64
  addr : ∀ id, 3 ≤ id → id ≤ 6 → m.word (B + 8 * id) = A + off c id
  max : ∀ id, 3 ≤ id → id ≤ 6 → m.word (B + off c id) = 16 + ent id * cnt c id
  num : ∀ id, 3 ≤ id → id ≤ 6 → m.word (B + off c id + 8) = cnt n id

/-- The objects' records. -/
def Recs (m : Mem) (A B : Nat) (c : Caps) (recs : List (Nat × Nat × Nat)) : Prop :=
  ∀ (i : Nat) (r : Nat × Nat × Nat), recs[i]? = some r →
    m.word (B + (off c 4 + 16 + 24 * i)) = A + 80 + r.1 ∧
    m.word (B + (off c 4 + 16 + 24 * i + 8)) = r.2.1 ∧
    m.word (B + (off c 4 + 16 + 24 * i + 16)) = r.2.2

/-- The data pointers and the pointers they refer to. -/
def Ptrs (m : Mem) (A B : Nat) (c : Caps) (ptrs : List (Nat × Nat)) : Prop :=
  ∀ (i : Nat) (p : Nat × Nat), ptrs[i]? = some p →
    m.word (B + (off c 5 + 16 + 8 * i)) = A + 80 + p.1 ∧ m.word (B + (80 + p.1)) = A + 80 + p.2

/-- The garbage ranges. -/
def Gars (m : Mem) (A B : Nat) (c : Caps) (gs : List (Nat × Nat)) : Prop :=
  ∀ (i : Nat) (q : Nat × Nat), gs[i]? = some q →
    m.word (B + (off c 6 + 16 + 16 * i)) = A + 80 + q.1 ∧
    m.word (B + (off c 6 + 16 + 16 * i + 8)) = q.2

/-- The bytes of the slots that are not part of a pointer. -/
def Data (m : Mem) (B : Nat) (k : Content) : Prop :=
  ∀ x, x < 8 * k.nS → ¬ k.InPtr x → m.byte (B + (80 + x)) = k.data x

/-- A managed buffer with content `k`. -/
structure Layout (m : Mem) (A B cap : Nat) (c : Caps) (k : Content) : Prop where
  head : Head m A B cap c k.counts
  ok : k.Ok
  recs : Recs m A B c k.recs
  ptrs : Ptrs m A B c k.ptrs
  gars : Gars m A B c k.gs
  data : Data m B k

/-! ## Geometry facts -/

theorem off_mod (c : Caps) : ∀ id, 3 ≤ id → id ≤ 6 → off c id % 8 = 0 :=
  forall_id (by simp only [off]) (by simp only [off]; omega) (by simp only [off]; omega)
    (by simp only [off]; omega)

theorem off_end (c : Caps) : ∀ id, 3 ≤ id → id ≤ 6 → off c id + 16 + ent id * cnt c id ≤ c.len :=
  forall_id (by simp only [off, ent, cnt, Caps.len]; omega) (by simp only [off, ent, cnt, Caps.len]; omega)
    (by simp only [off, ent, cnt, Caps.len]; omega) (by simp only [off, ent, cnt, Caps.len]; omega)

theorem off_ge (c : Caps) : ∀ id, 3 ≤ id → id ≤ 6 → 64 ≤ off c id :=
  forall_id (by simp only [off]; omega) (by simp only [off]; omega) (by simp only [off]; omega)
    (by simp only [off]; omega)

theorem ent_pos : ∀ id, 3 ≤ id → id ≤ 6 → 0 < ent id :=
  forall_id (by decide) (by decide) (by decide) (by decide)

/-- A section ends where the next one starts. -/
theorem off_next (c : Caps) : ∀ id, 3 ≤ id → id ≤ 5 →
    off c id + 16 + ent id * cnt c id = off c (id + 1) := by
  intro id h1 h2
  rcases (by omega : id = 3 ∨ id = 4 ∨ id = 5) with h | h | h <;> subst h <;>
    simp only [off, ent, cnt] <;> omega

theorem Caps.Le.cnt {n c : Caps} (h : n.Le c) : ∀ id, 3 ≤ id → id ≤ 6 → cnt n id ≤ cnt c id :=
  forall_id h.slots h.objs h.dataptrs h.garbage

/-! ## Getters -/

namespace Head

variable {m : Mem} {A B cap : Nat} {c n : Caps}

theorem len_ge (h : Head m A B cap c n) : 128 ≤ cap := by
  have := h.fit; simp only [Caps.len] at this; omega

theorem valid (h : Head m A B cap c n) {o k : Nat} (ho : o + k ≤ cap) : m.valid (B + o) k :=
  Mem.valid_sub h.val (by omega) (by omega)

theorem load (h : Head m A B cap c n) {o : Nat} (ho : o + 8 ≤ cap) (hm : o % 8 = 0) :
    m.load64 (B + o) = .ok (m.word (B + o)) :=
  Mem.load64_ok (by have := h.alB; omega) (h.valid ho)

theorem load0 (h : Head m A B cap c n) : m.load64 B = .ok A := by
  have := h.load (o := 0) (by have := h.len_ge; omega) rfl
  rw [Nat.add_zero] at this
  rw [this, h.h0]

theorem store (h : Head m A B cap c n) {o v : Nat} (ho : o + 8 ≤ cap) (hm : o % 8 = 0) :
    m.store64 (B + o) v = .ok (m.put (B + o) v) :=
  Mem.store64_ok (by have := h.alB; omega) (h.valid ho)

theorem headerLength (h : Head m A B cap c n) : headerLength m B 8 = .ok 64 := by
  simp only [Buf.headerLength, if_pos (by omega : 0 < 8), if_pos h.nzB]
  rw [h.load (o := 16) (by have := h.len_ge; omega) rfl, h.h2]
  rfl

theorem bufferLength (h : Head m A B cap c n) : bufferLength m B 8 = .ok c.len := by
  simp only [Buf.bufferLength]
  rw [if_pos ⟨h.nzB, by omega⟩, h.load (o := 8) (by have := h.len_ge; omega) rfl, h.h1]

theorem sectionPtr (h : Head m A B cap c n) {id : Nat} (h1 : 3 ≤ id) (h2 : id ≤ 6) :
    sectionPtr m B id 8 = .ok (A + off c id) := by
  simp only [Buf.sectionPtr]
  rw [if_pos ⟨h.nzB, by omega, h1, h2⟩, h.load (o := 8 * id) (by have := h.len_ge; omega) (by omega),
    h.addr id h1 h2]

theorem sectionData (h : Head m A B cap c n) {id : Nat} (h1 : 3 ≤ id) (h2 : id ≤ 6) :
    sectionData m B id 8 = .ok (A + off c id + 16) := by
  simp only [Buf.sectionData, h.sectionPtr h1 h2, Res.ok_bind, Res.pure_eq]
  rw [if_pos (by have := off_ge c id h1 h2; omega), sectionHeaderLength_8]

theorem needsRemapping (h : Head m A B cap c n) : needsRemapping m B 8 = .ok (decide (A ≠ B)) := by
  simp only [Buf.needsRemapping, if_pos (by omega : 0 < 8), h.load0, Res.ok_bind, Res.pure_eq]
  have := h.nzA
  simp [this]

theorem sectionOffset (h : Head m A B cap c n) {id : Nat} (h1 : 3 ≤ id) (h2 : id ≤ 6) :
    sectionOffset m B id 8 = .ok (off c id) := by
  simp only [Buf.sectionOffset]
  rw [if_pos ⟨h.nzB, by omega⟩, h.load (o := 8 * id) (by have := h.len_ge; omega) (by omega),
    h.addr id h1 h2]
  simp only [Res.ok_bind, h.load0, Res.pure_eq]
  rw [if_pos (by omega)]
  congr 1; omega

/-! The following need the stored base to be the actual one. -/

theorem numEntities (h : Head m B B cap c n) {id : Nat} (h1 : 3 ≤ id) (h2 : id ≤ 6) :
    numEntities m B id 8 = .ok (cnt n id) := by
  have e := off_end c id h1 h2
  have g := off_mod c id h1 h2
  have f := h.fit
  simp only [Buf.numEntities, h.sectionPtr h1 h2, Res.ok_bind]
  rw [if_pos (by have := h.nzB; omega), Nat.add_assoc, h.load (by omega) (by omega), ← Nat.add_assoc,
    h.num id h1 h2]

theorem sectionSize (h : Head m B B cap c n) {id : Nat} (h1 : 3 ≤ id) (h2 : id ≤ 6) :
    sectionSize m B id 8 = .ok (16 + ent id * cnt n id) := by
  simp only [Buf.sectionSize, h.numEntities h1 h2, Res.ok_bind, Res.pure_eq, sectionHeaderLength_8,
    entitySize_8 id h1 h2, Nat.mul_comm]

theorem sectionEnd (h : Head m B B cap c n) {id : Nat} (h1 : 3 ≤ id) (h2 : id ≤ 6) :
    sectionEnd m B id 8 = .ok (B + off c id + (16 + ent id * cnt n id)) := by
  simp only [Buf.sectionEnd, h.sectionPtr h1 h2, Res.ok_bind, h.sectionSize h1 h2]
  rw [if_pos (by have := h.nzB; omega)]; rfl

theorem maxSize (h : Head m B B cap c n) {id : Nat} (h1 : 3 ≤ id) (h2 : id ≤ 6) :
    maxSize m B id 8 = .ok (16 + ent id * cnt c id) := by
  have e := off_end c id h1 h2
  have g := off_mod c id h1 h2
  have f := h.fit
  simp only [Buf.maxSize, h.sectionPtr h1 h2, Res.ok_bind]
  rw [if_pos (by have := h.nzB; omega), h.load (by omega) (by omega), h.max id h1 h2]

theorem maxNumEntities (h : Head m B B cap c n) {id : Nat} (h1 : 3 ≤ id) (h2 : id ≤ 6) :
    maxNumEntities m B id 8 = .ok (cnt c id) := by
  have hp : 0 < ent id := ent_pos id h1 h2
  simp only [Buf.maxNumEntities, h.maxSize h1 h2, Res.ok_bind, entitySize_8 id h1 h2]
  rw [if_neg (by omega), if_pos (by rw [sectionHeaderLength_8]; omega), sectionHeaderLength_8,
    Nat.add_sub_cancel_left, Nat.mul_div_cancel_left _ hp]
  rfl

theorem setMaxSize (h : Head m B B cap c n) {id v : Nat} (h1 : 3 ≤ id) (h2 : id ≤ 6) :
    setMaxSize m B id v 8 = .ok (m.put (B + off c id) v) := by
  have e := off_end c id h1 h2
  have g := off_mod c id h1 h2
  have f := h.fit
  simp only [Buf.setMaxSize, h.sectionPtr h1 h2, Res.ok_bind]
  rw [if_pos (by have := h.nzB; omega), h.store (by omega) (by omega)]

theorem setNumEntities (h : Head m B B cap c n) {id v : Nat} (h1 : 3 ≤ id) (h2 : id ≤ 6) :
    setNumEntities m B id v 8 = .ok (m.put (B + (off c id + 8)) v) := by
  have e := off_end c id h1 h2
  have g := off_mod c id h1 h2
  have f := h.fit
  simp only [Buf.setNumEntities, h.sectionPtr h1 h2, Res.ok_bind]
  rw [if_pos (by have := h.nzB; omega), Nat.add_assoc, h.store (by omega) (by omega)]

end Head

theorem calcBufferLength_8 {m : Mem} {A B cap : Nat} {c n : Caps} (h : Head m A B cap c n) (c' : Caps) :
    calcBufferLength m B c' 8 = fits c'.len := by
  simp only [calcBufferLength, h.headerLength, Res.ok_bind,
    calcSectionSize_8 _ 3 (by omega) (by omega), calcSectionSize_8 _ 4 (by omega) (by omega),
    calcSectionSize_8 _ 5 (by omega) (by omega), calcSectionSize_8 _ 6 (by omega) (by omega), ent,
    Caps.len]
  congr 1; omega

end SixTrack.Buf
