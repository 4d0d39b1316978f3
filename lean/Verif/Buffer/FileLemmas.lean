import Verif.Buffer.NewLemmas
import Verif.Buffer.File

/-!
# Reading files
-/

namespace SixTrack.Buf

open MemPool (Pool Alloc)

@[simp] theorem Mem.write_blocks (m : Mem) (a : Nat) (f : List UInt8) : (m.write a f).blocks = m.blocks := rfl

theorem Mem.byte_write_out (m : Mem) {a x : Nat} {f : List UInt8} (h : x < a ∨ a + f.length ≤ x) :
    (m.write a f).byte x = m.byte x := if_neg (by omega)

theorem Mem.write_loaded (m : Mem) (a : Nat) (f : List UInt8) : Loaded (m.write a f) a f := by
  intro i v hi
  obtain ⟨hl, -⟩ := List.getElem?_eq_some_iff.1 hi
  show (if a ≤ a + i ∧ a + i < a + f.length then (f[a + i - a]?).getD 0 else m.byte (a + i)) = v
  rw [if_pos ⟨by omega, by omega⟩, Nat.add_sub_cancel_left, hi]
  rfl

/-- The file holds the bytes of a buffer with base address `A`. -/
structure Image (file : List UInt8) (A : Nat) (c : Caps) (k : Content) : Prop where
  len : file.length = c.len
  nz : A ≠ 0
  low : A + c.len ≤ W / 2
  lay : ∀ (m : Mem) (B cap : Nat), Loaded m B file → B ≠ 0 → B % 8 = 0 → B + cap < W → A + cap < W → c.len ≤ cap →
    m.valid B cap → Layout m A B cap c k

/-- Writing a buffer as it is. -/
theorem writeToFp_ok {s : St} {c : Caps} {k : Content} (h : Good s c k) :
    ∃ file, writeToFp s = .ok (some file) ∧ Image file s.buf.dataAddr c k := by
  have hh := h.lay.head
  have fit := hh.fit
  have hp := h.pcap
  have lim := h.lim
  refine ⟨s.mem.bytes s.buf.dataAddr c.len, ?_, by simp [Mem.bytes], hh.nzB, by omega, ?_⟩
  · unfold writeToFp
    rw [if_pos ⟨hh.nzB, by rw [h.size]; simp only [Caps.len]; omega⟩, h.size,
      if_pos (Mem.valid_sub hh.val (Nat.le_refl _) (by omega))]
  · intro m B cap hload nzB alB limB limA hfit hval
    exact h.lay.copy nzB alB limA limB hfit hval fun x hx => hload x _ (bytes_getElem? _ _ _ _ hx)

/-- Writing a buffer with another base address. -/
theorem writeNormalized_image {s : St} {c : Caps} {k : Content} {N : Nat} (h : Good s c k) (hg : k.gs = [])
    (hs : k.Strict) (nz : N ≠ 0) (limN : N + s.buf.capacity ≤ W / 2) :
    ∃ s' file, writeNormalized s N = .ok (s', some file, true) ∧ Image file N c k := by
  have hw0 : W / 2 < W := by decide
  have fit := h.lay.head.fit
  have hL : c.len = 128 + 8 * c.slots + 24 * c.objs + 8 * c.dataptrs + 16 * c.garbage := rfl
  obtain ⟨s', file, e, -, hl, hi⟩ := writeNormalized_ok h hg hs nz (by omega) (by omega)
  exact ⟨s', file, e, hl, nz, by omega, hi⟩

theorem Good.read {t : St} {c0 c : Caps} {k0 k : Content} {file : List UInt8} {A : Nat} (h : Core t c0 k0)
    (hi : Image file A c k) (hl : file.length ≤ t.buf.capacity) :
    ∃ m, t.mem.fread t.buf.dataAddr file = .ok m ∧ m.blocks = t.mem.blocks ∧
      Layout m A t.buf.dataAddr t.buf.capacity c k ∧ A ≠ t.buf.dataAddr + W / 2 ∧
      Keeps t.mem m t.buf.dataAddr t.buf.dataAddr := by
  have hh := h.lay.head
  have hp := h.pcap
  have lim := h.lim
  have low := hi.low
  have hL : c.len = 128 + 8 * c.slots + 24 * c.objs + 8 * c.dataptrs + 16 * c.garbage := rfl
  have hw0 : W / 2 + W / 2 = W := by decide
  have hlen := hi.len
  have hv : t.mem.valid t.buf.dataAddr file.length := Mem.valid_sub hh.val (Nat.le_refl _) (by omega)
  refine ⟨t.mem.write t.buf.dataAddr file, if_pos hv, rfl, ?_, by have := hh.nzB; omega,
    Keeps.inside h.wf h.blk rfl fun x hx => Mem.byte_write_out _ (by omega)⟩
  exact hi.lay _ _ _ (Mem.write_loaded _ _ _) hh.nzB hh.alB hh.limB (by omega) (by omega)
    ((Mem.valid_of_blocks (m := t.mem) rfl).2 hh.val)

/-- Remapping a buffer with contents for another base address. -/
theorem Core.remap_other {t : St} {c0 c : Caps} {k0 k : Content} {m : Mem} {A : Nat} (h : Core t c0 k0)
    (hb : m.blocks = t.mem.blocks) (lay : Layout m A t.buf.dataAddr t.buf.capacity c k) (hs : k.Strict)
    (hA : A ≠ t.buf.dataAddr + W / 2) (hne : A ≠ t.buf.dataAddr) :
    ∃ t', bufRemap { t with mem := m } = .ok (t', 0) ∧ Good t' c k ∧ t'.pool = t.pool ∧
      t'.buf.dataAddr = t.buf.dataAddr ∧ t'.buf.capacity = t.buf.capacity ∧
      Keeps m t'.mem t.buf.dataAddr t.buf.dataAddr := by
  obtain ⟨m2, r2, b2, l2, f2⟩ := remap_ok lay hs hA
  have hb2 : m2.blocks = t.mem.blocks := b2.trans hb
  have hle := lay.head.len_ge
  have fit := lay.head.fit
  have hp := h.pcap
  have hL : c.len = 128 + 8 * c.slots + 24 * c.objs + 8 * c.dataptrs + 16 * c.garbage := rfl
  have wfm : m.Wf := by intro x hx d hd; rw [hb] at hx hd; exact h.wf x hx d hd
  refine ⟨{ t with
      mem := m2
      buf := { t.buf with
        dataAddr := t.buf.dataAddr, dataSize := c.len, headerSize := 64,
        objectAddr := t.buf.dataAddr + (off c 4 + 16), numObjects := k.recs.length } }, ?_, ?_, rfl, rfl, rfl, ?_⟩
  · have ha := h.remappable
    simp only [Bool.and_eq_true] at ha
    unfold bufRemap
    dsimp only
    rw [if_pos ha.2, lay.head.load0, Res.ok_bind, if_neg (by omega), h.slot,
      if_pos ⟨lay.head.nzA, by omega, lay.head.nzB⟩, r2]
    simp only [Res.ok_bind, if_true, l2.head.load0, l2.head.load (o := 8) (by omega) rfl, l2.head.h1,
      l2.head.load (o := 16) (by omega) rfl, l2.head.h2, l2.head.sectionData (id := 4) (by omega) (by omega),
      l2.head.numEntities (id := 4) (by omega) (by omega), Res.pure_eq, cnt, Content.counts, Nat.add_assoc]
  · refine ⟨⟨h.slot, h.flags, h.ds, l2, rfl, rfl, h.pbuf, h.pbeg, h.psize, h.pchunk, h.pcap, h.pmod, h.cmod,
      h.lim, by dsimp only; rw [hb2]; exact h.blk, ?_⟩, rfl⟩
    dsimp only; intro x hx d hd; rw [hb2] at hx hd; exact h.wf x hx d hd
  · exact Keeps.inside wfm (by rw [hb]; exact h.blk) b2 fun x hx => f2 x (by omega)

/-- Remapping a buffer with contents for its own base address does nothing. -/
theorem Core.remap_own {t : St} {c0 c : Caps} {k0 k : Content} {m : Mem} (h : Core t c0 k0)
    (lay : Layout m t.buf.dataAddr t.buf.dataAddr t.buf.capacity c k) :
    bufRemap { t with mem := m } = .ok ({ t with mem := m }, 0) := by
  have ha := h.remappable
  simp only [Bool.and_eq_true] at ha
  unfold bufRemap
  dsimp only
  rw [if_pos ha.2, lay.head.load0, Res.ok_bind, if_pos ⟨lay.head.nzA, rfl⟩]
  rfl

/-- Remapping a buffer with a pointer to the end of the slots fails. -/
theorem Core.remap_bad {t : St} {c0 c : Caps} {k0 k : Content} {m : Mem} {A : Nat} (h : Core t c0 k0)
    (lay : Layout m A t.buf.dataAddr t.buf.capacity c k) (hg : k.gs = []) (hs : ¬ k.Strict)
    (hA : A ≠ t.buf.dataAddr + W / 2) (hne : A ≠ t.buf.dataAddr) :
    ∃ m', bufRemap { t with mem := m } = .ok ({ t with mem := m' }, -1) := by
  have hbad : ∃ p ∈ k.ptrs, 8 * k.nS ≤ p.2 := by
    by_contra hcon
    exact hs (Content.strict_of hg fun p hp => Nat.lt_of_not_le fun hle => hcon ⟨p, hp, hle⟩)
  obtain ⟨m2, r2, -⟩ := remap_fail lay hg hbad hA hne
  have ha := h.remappable
  simp only [Bool.and_eq_true] at ha
  refine ⟨m2, ?_⟩
  unfold bufRemap
  dsimp only
  rw [if_pos ha.2, lay.head.load0, Res.ok_bind, if_neg (by omega), h.slot,
    if_pos ⟨lay.head.nzA, by omega, lay.head.nzB⟩, r2]
  simp [Res.ok_bind, Res.pure_eq]

/-- A buffer from a file: no memory; or an address other than that of the file, with or without an empty
attribute at the end; or the address of the file. -/
theorem newFromFile_spec {malloc : Nat → Nat} {m : Mem} {ds : Nat} {file : List UInt8} {A : Nat} {c : Caps}
    {k : Content} (hw : m.Wf) (hds : ds ≠ 0) (hm : MallocOk malloc m) (hi : Image file A c k) (hg : k.gs = []) :
    (malloc (MemPool.initBytes file.length 8 8) = 0 ∧ newFromFile malloc m ds file = .ok (m, none)) ∨
    (malloc (MemPool.initBytes file.length 8 8) ≠ 0 ∧ malloc (MemPool.initBytes file.length 8 8) ≠ A ∧ k.Strict ∧
      ∃ m' b q, newFromFile malloc m ds file = .ok (m', some (b, q)) ∧ Good ⟨m', b, q⟩ c k ∧
        b.dataAddr = malloc (MemPool.initBytes file.length 8 8) ∧ Keeps m m' 0 b.dataAddr) ∨
    (malloc (MemPool.initBytes file.length 8 8) ≠ 0 ∧ malloc (MemPool.initBytes file.length 8 8) ≠ A ∧ ¬ k.Strict ∧
      ∃ m', newFromFile malloc m ds file = .ok (m', none)) ∨
    (malloc (MemPool.initBytes file.length 8 8) = A ∧
      ∃ m' b q, newFromFile malloc m ds file = .ok (m', some (b, q)) ∧ Layout m' A A b.capacity c k ∧
        b.dataAddr = A ∧ b.slot = 8 ∧ b.numObjects = 0 ∧ b.dataSize = 128) := by
  have low := hi.low
  have hlen := hi.len
  have hL : c.len = 128 + 8 * c.slots + 24 * c.objs + 8 * c.dataptrs + 16 * c.garbage := rfl
  have hw0 : W / 2 + 1000 < W := by decide
  have hnr : newRequ file.length = file.length := if_pos (by omega)
  have hpos : 0 < file.length := by omega
  have sp := newBuffer_spec (cap := file.length) hw hds (by omega) hm
  rw [hnr] at sp
  unfold newFromFile
  rw [if_pos hpos]
  rcases sp with ⟨h0, e⟩ | ⟨h0, m1, b, q, e, g, hc1, -, hk, hb, hq, -⟩
  · left
    rw [e]
    exact ⟨h0, rfl⟩
  · obtain ⟨m2, e2, b2, lay, hA, hk2⟩ := Good.read g.toCore hi hc1
    have hd : b.dataAddr = malloc (MemPool.initBytes file.length 8 8) := by rw [← hq]; exact g.pbuf.symm
    right
    rw [← hd]
    rw [← hd] at h0
    rw [e, Res.ok_bind]
    dsimp only
    rw [e2, Res.ok_bind]
    by_cases hne : b.dataAddr = A
    · right; right
      refine ⟨hne, m2, b, q, ?_, ?_, hne, g.slot, g.num, g.size⟩
      · subst hne
        have := Core.remap_own (t := ⟨m1, b, q⟩) g.toCore lay
        dsimp only at this
        rw [this]
        rfl
      · dsimp only at lay
        rw [hne] at lay
        exact lay
    · by_cases hs : k.Strict
      · left
        obtain ⟨t', e3, g3, p3, d3, c3, k3⟩ := Core.remap_other (t := ⟨m1, b, q⟩) g.toCore b2 lay hs hA (Ne.symm hne)
        refine ⟨h0, hne, hs, t'.mem, t'.buf, t'.pool, ?_, g3, d3, ?_⟩
        · dsimp only at e3
          rw [e3]
          rfl
        · rw [d3]
          exact hk.trans (hk2.trans k3)
      · right; left
        obtain ⟨m', e3⟩ := Core.remap_bad (t := ⟨m1, b, q⟩) g.toCore lay hg hs hA (Ne.symm hne)
        refine ⟨h0, hne, hs, m', ?_⟩
        dsimp only at e3
        rw [e3]
        rfl

/-- The room for a file: there is room, or no memory, or the growing has failed. -/
theorem roomFor_spec {malloc : Nat → Nat} {t : St} {c : Caps} {k : Content} {len : Nat} (h : Core t c k)
    (hg : k.gs = []) (lim : len + 16 < W) (hm : MallocOk malloc t.mem) :
    (∃ t', roomFor malloc t len = .ok (t', t'.buf.capacity) ∧ Core t' c k ∧ len ≤ t'.buf.capacity ∧
      Keeps t.mem t'.mem t.buf.dataAddr t'.buf.dataAddr ∧ (len ≤ t.buf.capacity → t' = t)) ∨
    (t.pool.capacity < len ∧ malloc (MemPool.initBytes len 8 8) = 0 ∧
      roomFor malloc t len = .ok (t, t.buf.capacity) ∧ t.buf.capacity < len) ∨
    (t.pool.capacity < len ∧ ¬ k.Strict ∧ ∃ t', roomFor malloc t len = .ok (t', t.buf.capacity) ∧
      t'.buf = t.buf ∧ t.buf.capacity < len) := by
  unfold roomFor reserveCapacity
  by_cases hl : len ≤ t.buf.capacity
  · left
    rw [if_pos hl]
    exact ⟨t, rfl, h, hl, Keeps.refl _ _, fun _ => rfl⟩
  · rw [if_neg hl]
    have hf : (t.buf.usesDatastore && t.buf.allowResize) = true := by
      have h1 := h.flags
      have h2 := h.ds
      simp only [Buffer.usesDatastore, Buffer.hasDatastore, Buffer.allowResize, Buffer.has, h1]
      simp [h2, FLAGS]
    rw [if_pos hf]
    rcases bufReserveCapacity_spec h hg (Nat.lt_of_not_le hl) lim hm with ⟨h1, h2, e⟩ | ⟨t', e, g, h1, -, hk, -⟩ |
      ⟨h1, -, h3, t', e, hb, -⟩
    · right; left
      rw [e]
      exact ⟨h1, h2, rfl, Nat.lt_of_not_le hl⟩
    · left
      rw [e]
      exact ⟨t', rfl, g, h1, hk, fun h => absurd h hl⟩
    · right; right
      rw [e]
      exact ⟨h1, h3, t', rfl, hb, Nat.lt_of_not_le hl⟩

/-- The flags of a managed buffer allow to replace its contents. -/
theorem Core.readable {t : St} {c : Caps} {k : Content} (h : Core t c k) :
    (t.buf.allowClear && t.buf.allowModify) = true := by
  have h1 := h.flags
  simp only [Buffer.allowModify, Buffer.allowClear, Buffer.allowAppend, Buffer.has, h1]
  simp [FLAGS]

/-- Reading a file into a buffer after there is room for it. -/
theorem readFromFile_run {malloc : Nat → Nat} {t t1 : St} {c0 c1 c : Caps} {k0 k1 k : Content} {file : List UInt8} {A : Nat}
    (h : Core t c0 k0) (hi : Image file A c k) (hg : k.gs = []) (h1 : Core t1 c1 k1)
    (hr : roomFor malloc t file.length = .ok (t1, t1.buf.capacity)) (hl : file.length ≤ t1.buf.capacity) :
    (t1.buf.dataAddr ≠ A ∧ k.Strict ∧ ∃ t', readFromFile malloc t file = .ok (t', false) ∧ Good t' c k ∧
      t'.buf.dataAddr = t1.buf.dataAddr ∧ t'.buf.capacity = t1.buf.capacity ∧ t'.pool = t1.pool ∧
      Keeps t1.mem t'.mem t1.buf.dataAddr t1.buf.dataAddr) ∨
    (t1.buf.dataAddr ≠ A ∧ ¬ k.Strict ∧ ∃ m', readFromFile malloc t file = .ok ({ t1 with mem := m' }, true)) ∨
    (t1.buf.dataAddr = A ∧ ∃ m', readFromFile malloc t file = .ok ({ t1 with mem := m' }, false) ∧
      Layout m' A A t1.buf.capacity c k) := by
  have hlen := hi.len
  have hL : c.len = 128 + 8 * c.slots + 24 * c.objs + 8 * c.dataptrs + 16 * c.garbage := rfl
  obtain ⟨m2, e2, b2, lay, hA, hk2⟩ := Good.read h1 hi hl
  unfold readFromFile
  rw [if_pos h.readable, if_pos (by omega : 0 < file.length), hr, Res.ok_bind]
  dsimp only
  rw [if_pos hl, e2, Res.ok_bind]
  by_cases hne : t1.buf.dataAddr = A
  · right; right
    subst hne
    rw [Core.remap_own h1 lay]
    exact ⟨rfl, m2, rfl, lay⟩
  · by_cases hs : k.Strict
    · left
      obtain ⟨t', e3, g3, p3, d3, c3, k3⟩ := Core.remap_other h1 b2 lay hs hA (Ne.symm hne)
      rw [e3]
      exact ⟨hne, hs, t', rfl, g3, d3, c3, p3, hk2.trans k3⟩
    · right; left
      obtain ⟨m', e3⟩ := Core.remap_bad h1 lay hg hs hA (Ne.symm hne)
      rw [e3]
      exact ⟨hne, hs, m', rfl⟩

/-! ## Buffers of given capacities -/

/-- A buffer of given capacities: no memory; or at most one garbage range; or more. -/
theorem newDetailed_spec {malloc : Nat → Nat} {m : Mem} {ds : Nat} {c : Caps} (hw : m.Wf) (hds : ds ≠ 0)
    (lim : detailedCapacity c + 16 < W) (hm : MallocOk malloc m) :
    (malloc (MemPool.initBytes (detailedCapacity c) 8 8) = 0 ∧ newDetailed malloc m ds c = .ok (m, none)) ∨
    (malloc (MemPool.initBytes (detailedCapacity c) 8 8) ≠ 0 ∧ c.garbage ≤ 1 ∧
      ∃ m' b q, newDetailed malloc m ds c = .ok (m', some (b, q)) ∧ Good ⟨m', b, q⟩ c Content.empty ∧
        b.capacity = detailedCapacity c ∧ b.dataAddr = malloc (MemPool.initBytes (detailedCapacity c) 8 8) ∧
        Keeps m m' 0 b.dataAddr) ∨
    (malloc (MemPool.initBytes (detailedCapacity c) 8 8) ≠ 0 ∧ 2 ≤ c.garbage ∧
      ∀ m' r, newDetailed malloc m ds c = .ok (m', r) → r = none) := by
  have hD : detailedCapacity c = 136 + 8 * c.slots + 24 * c.objs + 8 * c.dataptrs + 8 * c.garbage := by
    unfold detailedCapacity; omega
  have hL : c.len = 128 + 8 * c.slots + 24 * c.objs + 8 * c.dataptrs + 16 * c.garbage := rfl
  have hr : newRequ (detailedCapacity c) = detailedCapacity c := if_pos (by omega)
  have sp := allocateBuffer_spec (cap := detailedCapacity c) hw hds lim hm
  rw [hr] at sp
  unfold newDetailed
  rw [fits_ok (by omega), Res.ok_bind]
  rcases sp with ⟨h0, e⟩ | ⟨h0, m1, b, q, e, g, hc, hk, -, hq, -⟩
  · left
    rw [e]
    exact ⟨h0, rfl⟩
  · right
    rw [e, Res.ok_bind]
    dsimp only
    have hc' : b.capacity = detailedCapacity c := by omega
    by_cases hg : c.garbage ≤ 1
    · left
      obtain ⟨s', r', g', p', d', c', -, k'⟩ := bufReset_ok (c' := c) g.toCore (by dsimp only; omega)
      refine ⟨h0, hg, s'.mem, s'.buf, s'.pool, ?_, g', by rw [c']; exact hc', ?_, ?_⟩
      · rw [r']
        simp [Res.ok_bind, Res.pure_eq]
      · rw [d', ← hq]
        exact g.pbuf.symm
      · rw [d']
        exact hk.trans k'
    · right
      refine ⟨h0, by omega, fun m' r h => ?_⟩
      obtain ⟨⟨s', rc⟩, h1, h2⟩ := Res.bind_eq_ok.1 h
      dsimp only at h2
      by_cases hrc : rc = 0
      · subst hrc
        exact absurd h1 (bufReset_big g.toCore (by dsimp only; omega))
      · rw [if_neg hrc] at h2
        simp only [Res.pure_eq, Res.ok.injEq, Prod.mk.injEq] at h2
        exact h2.2.symm

end SixTrack.Buf
