import Verif.Buffer.AddLemmas

/-!
# Making, clearing, resetting, copying and writing buffers
-/

namespace SixTrack.Buf

open MemPool (Pool Alloc)

/-! ## Clearing and resetting -/

theorem Core.clearable {s : St} {c : Caps} {k : Content} (h : Core s c k) :
    (s.buf.hasDatastore && s.buf.allowClear) = true := by
  have := h.ds
  simp [Buffer.hasDatastore, Buffer.allowClear, Buffer.has, h.flags, FLAGS, this]

theorem Core.remappable {s : St} {c : Caps} {k : Content} (h : Core s c k) :
    (s.buf.hasDatastore && s.buf.allowRemapping) = true := by
  have := h.ds
  simp [Buffer.hasDatastore, Buffer.allowRemapping, Buffer.has, h.flags, FLAGS, this]

theorem bufClear_ok {s : St} {c : Caps} {k : Content} (h : Good s c k) (z : Bool) :
    ∃ m', bufClear s z = .ok ({ s with mem := m', buf := { s.buf with numObjects := 0 } }, 0) ∧
      Good { s with mem := m', buf := { s.buf with numObjects := 0 } } c Content.empty ∧
      Keeps s.mem m' s.buf.dataAddr s.buf.dataAddr ∧
      (z = true → ∀ id, 3 ≤ id → id ≤ 6 → ∀ x, x < ent id * cnt k.counts id →
        m'.byte (s.buf.dataAddr + (off c id + 16 + x)) = 0) := by
  have hp := h.pcap
  have fit := h.lay.head.fit
  obtain ⟨m', r, b, lay, hz, f⟩ := clear_ok h.lay z
  refine ⟨m', ?_, ⟨⟨h.slot, h.flags, h.ds, lay, h.size, rfl, h.pbuf, h.pbeg, h.psize, h.pchunk, h.pcap, h.pmod,
    h.cmod, h.lim, by dsimp only; rw [b]; exact h.blk, ?_⟩, h.objs⟩,
    Keeps.inside h.wf h.blk b fun x hx => f x (by omega), hz⟩
  · unfold bufClear
    rw [if_pos h.clearable, h.slot, r]
    rfl
  · dsimp only; intro x hx d hd; rw [b] at hx hd; exact h.wf x hx d hd

/-- Resetting to new capacities that fit. -/
theorem bufReset_ok {s : St} {c c' : Caps} {k : Content} (h : Core s c k) (hc : c'.len ≤ s.buf.capacity) :
    ∃ s', bufReset s c' = .ok (s', 0) ∧ Good s' c' Content.empty ∧ s'.pool = s.pool ∧
      s'.buf.dataAddr = s.buf.dataAddr ∧ s'.buf.capacity = s.buf.capacity ∧
      s'.mem.blocks = s.mem.blocks ∧
      Keeps s.mem s'.mem s.buf.dataAddr s.buf.dataAddr := by
  have hp := h.pcap
  have hh := h.lay.head
  have i1 := init_spec (c := c') hh.nzB hh.alB hh.limB hh.val (Or.inr hh.h2) hc
  have lay := initMem_layout (c := c') hh.nzB hh.alB hh.limB hh.val hc
  have hb : (initMem s.mem s.buf.dataAddr c').blocks = s.mem.blocks := initMem_blocks _ _ _
  refine ⟨⟨initMem s.mem s.buf.dataAddr c',
    { s.buf with
      dataSize := c'.len, numObjects := 0, objectAddr := s.buf.dataAddr + (off c' 4 + 16) }, s.pool⟩,
    ?_, ⟨⟨h.slot, h.flags, h.ds, lay, rfl, rfl, h.pbuf, h.pbeg, h.psize, h.pchunk, h.pcap, h.pmod, h.cmod, h.lim,
      by dsimp only; rw [hb]; exact h.blk, ?_⟩, rfl⟩, rfl, rfl, rfl, hb,
    Keeps.inside h.wf h.blk hb fun x hx => initMem_byte _ (by omega)⟩
  · unfold bufReset
    have h2 := h.clearable
    simp only [Bool.and_eq_true] at h2
    rw [h.modify, h2.2]
    simp only [Bool.and_self, if_true, h.slot, i1, Res.ok_bind, lay.head.sectionData (id := 4) (by omega) (by omega),
      Res.pure_eq, Nat.add_assoc]
  · dsimp only; intro x hx d hd; rw [hb] at hx hd; exact h.wf x hx d hd

theorem init_big {m : Mem} {B cap : Nat} {c : Caps} (nz : B ≠ 0) (hH : headerLength m B 8 = .ok 64)
    (hc : cap < c.len) : init m B c cap 8 = (fits c.len >>= fun l => .ok (m, -1, l)) := by
  have hL : c.len = 128 + 8 * c.slots + 24 * c.objs + 8 * c.dataptrs + 16 * c.garbage := rfl
  have e3 := calcSectionSize_8 c.slots 3 (by omega) (by omega)
  have e4 := calcSectionSize_8 c.objs 4 (by omega) (by omega)
  have e5 := calcSectionSize_8 c.dataptrs 5 (by omega) (by omega)
  have e6 := calcSectionSize_8 c.garbage 6 (by omega) (by omega)
  simp only [ent] at e3 e4 e5 e6
  unfold init
  rw [if_pos ⟨nz, by omega⟩, hH]
  simp only [Res.ok_bind, e3, e4, e5, e6]
  rw [show 64 + (16 + 8 * c.slots) + (16 + 24 * c.objs) + (16 + 8 * c.dataptrs) + (16 + 16 * c.garbage) = c.len by omega]
  by_cases hw : c.len < W
  · rw [fits_ok hw]
    simp only [Res.ok_bind, if_neg (by omega : ¬ c.len ≤ cap), Res.pure_eq]
  · unfold fits
    rw [if_neg hw]
    rfl

/-- Resetting to capacities that do not fit is no success. -/
theorem bufReset_big {s : St} {c c' : Caps} {k : Content} (h : Core s c k) (hc : s.buf.capacity < c'.len) {s' : St} :
    bufReset s c' ≠ .ok (s', 0) := by
  have hh := h.lay.head
  have h2 := h.clearable
  simp only [Bool.and_eq_true] at h2
  unfold bufReset
  rw [h.modify, h2.2, h.slot]
  simp only [Bool.and_self, if_true]
  rw [init_big hh.nzB hh.headerLength hc]
  unfold fits
  by_cases hw : c'.len < W
  · simp [hw, Res.ok_bind, Res.pure_eq]
  · simp [hw, Res.ub_bind]

/-! ## New buffers -/

/-- Capacity of the pool of a new buffer. -/
def newRequ (cap : Nat) : Nat := if 128 ≤ cap then cap else 128

/-- An allocated buffer is empty, or there is no memory. -/
theorem allocateBuffer_spec {malloc : Nat → Nat} {m : Mem} {ds cap : Nat} (hw : m.Wf) (hds : ds ≠ 0)
    (lim : cap + 16 < W) (hm : MallocOk malloc m) :
    (malloc (MemPool.initBytes (newRequ cap) 8 8) = 0 ∧ allocateBuffer malloc m ds cap = .ok (m, none)) ∨
    (malloc (MemPool.initBytes (newRequ cap) 8 8) ≠ 0 ∧
      ∃ m' b q, allocateBuffer malloc m ds cap = .ok (m', some (b, q)) ∧ Good ⟨m', b, q⟩ ⟨0, 0, 0, 0⟩ Content.empty ∧
        b.capacity = (newRequ cap + 7) / 8 * 8 ∧ Keeps m m' 0 b.dataAddr ∧
        m'.blocks = (b.dataAddr, q.capacity) :: m.blocks ∧ q.buffer = malloc (MemPool.initBytes (newRequ cap) 8 8) ∧
        q.capacity = MemPool.initBytes (newRequ cap) 8 8) := by
  have hw0 : W / 2 < W := by decide
  have hW1 : 1000 < W := by decide
  have hr : 128 ≤ newRequ cap := by unfold newRequ; split <;> omega
  have hr2 : cap ≤ newRequ cap := by unfold newRequ; split <;> omega
  have hrl : newRequ cap + 16 < W := by unfold newRequ; split <;> omega
  have hN := initBytes_8 (n := newRequ cap) (by omega) hrl
  have hpre : allocateBuffer malloc m ds cap =
      (do
        let (m, q, changed) ← poolReserve malloc m ⟨0, 0, 0, 0, 0, 8⟩ (newRequ cap) 8
        if changed then do
          let (q, r) ← MemPool.appendAligned q (newRequ cap) 8
          if r.valid then do
            let m ← m.memzero r.p r.length
            let (m, b, rc) ← initOnFlatMemory m presetBuffer r.p r.length ⟨0, 0, 0, 0⟩
            if rc = 0 then
              return (m, some ({ b with
                datastore := ds
                flags := 0x10000 ||| 0x1 ||| 0x2 ||| 0x4 ||| 0x8 ||| 0x20 ||| 0x40 }, q))
            else return (m, none)
          else return (m, none)
        else return (m, none)) := rfl
  rw [hpre]
  unfold poolReserve
  dsimp only
  rw [if_pos ⟨by omega, by omega⟩]
  by_cases h0 : malloc (MemPool.initBytes (newRequ cap) 8 8) = 0
  · left
    refine ⟨h0, ?_⟩
    have : (MemPool.initAligned malloc (newRequ cap) 8 8).buffer = 0 := by
      simp only [MemPool.initAligned]
      rw [if_pos ⟨by omega, by omega⟩, h0]
      simp [MemPool.preset]
    rw [if_neg (by rw [this]; simp)]
    simp [Res.ok_bind, Res.pure_eq]
  right
  refine ⟨h0, ?_⟩
  obtain ⟨a1, a2, a3⟩ := (hm (MemPool.initBytes (newRequ cap) 8 8)).resolve_left h0
  have hinit := initAligned_8 (malloc := malloc) hrl (by omega) h0 a1
  rw [hinit]
  generalize hA : malloc (MemPool.initBytes (newRequ cap) 8 8) = a at *
  generalize hNN : MemPool.initBytes (newRequ cap) 8 8 = N at *
  dsimp only
  let m1 : Mem := { m with blocks := (a, N) :: m.blocks }
  have hal : m.alloc a N = .ok m1 := if_pos ⟨h0, a1, a2, a3⟩
  let L := (newRequ cap + 7) / 8 * 8
  have hL : L ≤ N := by simp only [L]; omega
  have hL2 : newRequ cap ≤ L := by simp only [L]; omega
  have happ := appendAligned_8 (q := ⟨a, a, 0, N, 0, 8⟩) (n := newRequ cap) rfl a1 h0 rfl (by omega)
    (by dsimp only; omega) (by dsimp only; omega)
  dsimp only at happ
  rw [Nat.zero_add, Nat.add_zero] at happ
  have v1 : m1.valid a L := Or.inr ⟨(a, N), by simp [m1], Nat.le_refl _, by dsimp only; omega⟩
  let m2 := m1.zero a L
  have v2 : m2.valid a L := by simp only [m2, Mem.zero_valid]; exact v1
  have hz : m2.word (a + 16) = 0 := Mem.word_zero_in _ ⟨by omega, by omega⟩
  have i2 := init_spec (m := m2) (B := a) (cap := L) (c := ⟨0, 0, 0, 0⟩) h0 a1 (by omega) v2 (Or.inl hz)
    (by simp only [Caps.len]; omega)
  have lay := initMem_layout (m := m2) (B := a) (cap := L) (c := ⟨0, 0, 0, 0⟩) h0 a1 (by omega) v2
    (by simp only [Caps.len]; omega)
  let m3 := initMem m2 a ⟨0, 0, 0, 0⟩
  let b : Buffer := ⟨a, (⟨0, 0, 0, 0⟩ : Caps).len, 64, L, 8, a + (off ⟨0, 0, 0, 0⟩ 4 + 16), 0, FLAGS, ds⟩
  have hb3 : m3.blocks = (a, N) :: m.blocks := by simp [m3, m2, m1]
  have wf3 : m3.Wf := by
    intro x hx y hy
    rw [hb3, List.mem_cons] at hx hy
    rcases hx with rfl | hx <;> rcases hy with rfl | hy
    · exact Or.inl rfl
    · exact Or.inr (a3 y hy)
    · have := a3 x hx
      unfold disjoint at this ⊢
      right; dsimp only at this ⊢; omega
    · exact hw x hx y hy
  have core : Core ⟨m3, b, ⟨a, a, 0, N, L, 8⟩⟩ ⟨0, 0, 0, 0⟩ Content.empty :=
    ⟨rfl, rfl, hds, lay, rfl, rfl, rfl, rfl, rfl, rfl, hL, by dsimp only; omega, by dsimp only [b, L]; omega, a2,
      by dsimp only; rw [hb3]; simp [b], wf3⟩
  refine ⟨m3, b, ⟨a, a, 0, N, L, 8⟩, ?_, ⟨core, rfl⟩, rfl, ?_, hb3, rfl, rfl⟩
  · rw [if_pos h0, hal, Res.ok_bind]
    simp only [ne_eq, not_true_eq_false, if_false, Res.pure_eq, Res.ok_bind, if_true, happ, Nat.add_zero]
    have hv : (Alloc.mk a 0 ((newRequ cap + 7) / 8 * 8)).valid = true := by
      simp only [Alloc.valid]; simp [h0]; omega
    rw [if_pos hv, Mem.memzero_ok v1, Res.ok_bind]
    have hi : initOnFlatMemory m2 presetBuffer a L ⟨0, 0, 0, 0⟩ = .ok (m3, { b with
        datastore := a, flags := 0x4 ||| 0x1 ||| 0x8 ||| 0x10 ||| 0x20 }, 0) := by
      unfold initOnFlatMemory
      rw [show presetBuffer.slot = 8 from rfl, i2]
      simp only [Res.ok_bind, if_true, lay.head.sectionData (id := 4) (by omega) (by omega),
        lay.head.numEntities (id := 4) (by omega) (by omega), Res.pure_eq]
      rfl
    change (initOnFlatMemory m2 presetBuffer a L ⟨0, 0, 0, 0⟩ >>= _) = _
    rw [hi]
    simp only [Res.ok_bind, if_true]
    rfl
  · refine ⟨fun x n hx => ?_, fun x hx => ?_⟩
    · by_cases hn : n = 0
      · exact Or.inl hn
      · rcases hx with hx | ⟨d, h1, h2, h3, h4⟩
        · exact Or.inl hx
        · have := a3 d h1
          unfold disjoint at this
          exact Or.inr ⟨d, by rw [hb3]; simp [h1], by dsimp only [b]; omega, h3, h4⟩
    · rcases hx with hx | ⟨d, h1, h2, h3, h4⟩
      · omega
      · have := a3 d h1
        unfold disjoint at this
        simp only [m3]
        rw [initMem_byte _ (by simp only [Caps.len]; omega)]
        simp only [m2]
        rw [Mem.byte_zero_out _ (by omega)]

/-- A new buffer is empty, or there is no memory. -/
theorem newBuffer_spec {malloc : Nat → Nat} {m : Mem} {ds cap : Nat} (hw : m.Wf) (hds : ds ≠ 0)
    (lim : cap + 16 < W) (hm : MallocOk malloc m) :
    (malloc (MemPool.initBytes (newRequ cap) 8 8) = 0 ∧ newBuffer malloc m ds cap = .ok (m, none)) ∨
    (malloc (MemPool.initBytes (newRequ cap) 8 8) ≠ 0 ∧
      ∃ m' b q, newBuffer malloc m ds cap = .ok (m', some (b, q)) ∧ Good ⟨m', b, q⟩ ⟨0, 0, 0, 0⟩ Content.empty ∧
        cap ≤ b.capacity ∧ 128 ≤ b.capacity ∧ Keeps m m' 0 b.dataAddr ∧
        m'.blocks = (b.dataAddr, q.capacity) :: m.blocks ∧ q.buffer = malloc (MemPool.initBytes (newRequ cap) 8 8) ∧
        q.capacity = MemPool.initBytes (newRequ cap) 8 8) := by
  have hr : 128 ≤ newRequ cap := by unfold newRequ; split <;> omega
  have hr2 : cap ≤ newRequ cap := by unfold newRequ; split <;> omega
  unfold newBuffer
  rcases allocateBuffer_spec hw hds lim hm with ⟨h0, e⟩ | ⟨h0, m', b, q, e, g, hc, hk, hb, h1, h2⟩
  · left
    rw [e]
    exact ⟨h0, rfl⟩
  · right
    obtain ⟨s', r', g', p', d', c', bl', k'⟩ := bufReset_ok (c' := ⟨0, 0, 0, 0⟩) g.toCore
      (by simp only [Caps.len]; omega)
    refine ⟨h0, s'.mem, s'.buf, s'.pool, ?_, g', by rw [c']; dsimp only; omega, by rw [c']; dsimp only; omega, ?_, ?_,
      by rw [p']; exact h1, by rw [p']; exact h2⟩
    · rw [e, Res.ok_bind]
      dsimp only
      rw [r']
      simp [Res.ok_bind]
    · rw [d']
      exact hk.trans k'
    · rw [bl', d', p']
      exact hb

/-! ## Remapping and refreshing -/

/-- Refreshing a buffer whose bytes come from base address `A`. -/
theorem bufRefresh_ok {s : St} {A : Nat} {c : Caps} {k : Content} (hslot : s.buf.slot = 8)
    (hf : (s.buf.hasDatastore && s.buf.allowRemapping) = true)
    (h : Layout s.mem A s.buf.dataAddr s.buf.capacity c k) (hs : k.Strict) (hA : A ≠ s.buf.dataAddr + W / 2) :
    ∃ m', bufRefresh s = .ok ({ s with
        mem := m'
        buf := { s.buf with
          dataSize := c.len
          objectAddr := s.buf.dataAddr + (off c 4 + 16)
          numObjects := k.recs.length } }, 0) ∧
      m'.blocks = s.mem.blocks ∧ Layout m' s.buf.dataAddr s.buf.dataAddr s.buf.capacity c k ∧
      ∀ x, x < s.buf.dataAddr ∨ s.buf.dataAddr + c.len ≤ x → m'.byte x = s.mem.byte x := by
  obtain ⟨m', r, b, lay, f⟩ := remap_ok h hs hA
  have hh := h.head
  have fit := hh.fit
  by_cases e : A = s.buf.dataAddr
  · subst e
    refine ⟨s.mem, ?_, rfl, h, fun _ _ => rfl⟩
    unfold bufRefresh
    rw [if_pos hf, hslot]
    dsimp only
    rw [if_pos ⟨hh.nzB, by omega, hh.alB⟩, hh.needsRemapping]
    simp only [Res.ok_bind, remapIf, ne_eq, not_true_eq_false, decide_false, Bool.false_eq_true, if_false, if_true,
      hh.bufferLength, hh.sectionData (id := 4) (by omega) (by omega),
      hh.numEntities (id := 4) (by omega) (by omega), Res.pure_eq, if_neg (by omega : ¬ s.buf.capacity < c.len),
      Nat.add_assoc, cnt, Content.counts]
  · refine ⟨m', ?_, b, lay, f⟩
    have hh' := lay.head
    unfold bufRefresh
    rw [if_pos hf, hslot]
    dsimp only
    rw [if_pos ⟨hh.nzB, by omega, hh.alB⟩, hh.needsRemapping]
    simp only [Res.ok_bind, remapIf, ne_eq, e, not_false_eq_true, decide_true, if_true, r,
      hh'.bufferLength, hh'.sectionData (id := 4) (by omega) (by omega),
      hh'.numEntities (id := 4) (by omega) (by omega), Res.pure_eq, if_neg (by omega : ¬ s.buf.capacity < c.len),
      Nat.add_assoc, cnt, Content.counts]

/-- Refreshing fails if a pointer points to the end of the used slots. -/
theorem bufRefresh_fail {s : St} {A : Nat} {c : Caps} {k : Content} (hslot : s.buf.slot = 8)
    (hf : (s.buf.hasDatastore && s.buf.allowRemapping) = true)
    (h : Layout s.mem A s.buf.dataAddr s.buf.capacity c k) (hg : k.gs = [])
    (hbad : ∃ p ∈ k.ptrs, 8 * k.nS ≤ p.2) (hA : A ≠ s.buf.dataAddr + W / 2) (hne : A ≠ s.buf.dataAddr) :
    ∃ m', bufRefresh s = .ok ({ s with mem := m' }, -1) ∧ m'.blocks = s.mem.blocks ∧
      ∀ x, x < s.buf.dataAddr ∨ s.buf.dataAddr + c.len ≤ x → m'.byte x = s.mem.byte x := by
  obtain ⟨m', r, b, f⟩ := remap_fail h hg hbad hA hne
  have hh := h.head
  refine ⟨m', ?_, b, f⟩
  unfold bufRefresh
  rw [if_pos hf, hslot]
  dsimp only
  rw [if_pos ⟨hh.nzB, by omega, hh.alB⟩, hh.needsRemapping]
  simp [Res.ok_bind, remapIf, hne, r, Res.pure_eq]

/-! ## Copies -/

/-- A buffer is not touched by what happens outside of its block. -/
theorem Good.outside {s : St} {c : Caps} {k : Content} (h : Good s c k) {m' : Mem} (hw : m'.Wf)
    (hb : (s.buf.dataAddr, s.pool.capacity) ∈ m'.blocks)
    (hf : ∀ x, s.buf.dataAddr ≤ x → x < s.buf.dataAddr + s.pool.capacity → m'.byte x = s.mem.byte x) :
    Good { s with mem := m' } c k := by
  have hp := h.pcap
  have hh := h.lay.head
  have fit := hh.fit
  refine ⟨⟨h.slot, h.flags, h.ds, ?_, h.size, h.num, h.pbuf, h.pbeg, h.psize, h.pchunk, h.pcap, h.pmod, h.cmod,
    h.lim, hb, hw⟩, h.objs⟩
  refine h.lay.copy hh.nzB hh.alB hh.limB hh.limB hh.fit ?_
    fun x hx => hf _ (by dsimp only; omega) (by dsimp only; omega)
  exact Or.inr ⟨_, hb, Nat.le_refl _, by dsimp only; omega⟩

/-- `NS(Buffer_new_from_copy)`: no memory, a second buffer with the same content, or - if a
pointer points to the end of the used slots - failure. -/
theorem newFromCopy_spec {malloc : Nat → Nat} {s : St} {c : Caps} {k : Content} {ds : Nat} (h : Good s c k)
    (hg : k.gs = []) (hds : ds ≠ 0) (hm : MallocOk malloc s.mem) :
    (malloc (MemPool.initBytes s.buf.capacity 8 8) = 0 ∧
      newFromCopy malloc s.mem ds s.buf = .ok (s.mem, none)) ∨
    (malloc (MemPool.initBytes s.buf.capacity 8 8) ≠ 0 ∧ k.Strict ∧
      ∃ m' b q, newFromCopy malloc s.mem ds s.buf = .ok (m', some (b, q)) ∧ Good ⟨m', b, q⟩ c k ∧
        Good { s with mem := m' } c k ∧ b.dataAddr ≠ s.buf.dataAddr) ∨
    (malloc (MemPool.initBytes s.buf.capacity 8 8) ≠ 0 ∧ ¬ k.Strict ∧
      ∃ m', newFromCopy malloc s.mem ds s.buf = .ok (m', none) ∧ Good { s with mem := m' } c k) := by
  have hw0 : W / 2 < W := by decide
  have hh := h.lay.head
  have fit := hh.fit
  have hl := hh.len_ge
  have hl2 : 128 ≤ c.len := by simp only [Caps.len]; omega
  have hp := h.pcap
  have lim := h.lim
  have hlast : 1000 < W / 2 := by decide
  have hreq : newRequ s.buf.capacity = s.buf.capacity := by unfold newRequ; rw [if_pos (by omega)]
  have hsl := h.slot
  have hnz := hh.nzB
  unfold newFromCopy
  rw [if_pos ⟨by omega, by omega, hnz⟩]
  rcases newBuffer_spec (ds := ds) (cap := s.buf.capacity) h.wf hds (by omega) hm with
    ⟨h0, r⟩ | ⟨h0, m1, b, q, r, g, hcap, -, kp, hbl, hqb, hqc⟩
  · left
    rw [hreq] at h0
    exact ⟨h0, by rw [r]; simp [Res.ok_bind, Res.pure_eq]⟩
  right
  rw [hreq] at h0 hqb hqc
  obtain ⟨a1, a2, a3⟩ := (hm _).resolve_left h0
  rw [r]
  have gb := g.pbuf
  have gblk := g.blk
  have gwf := g.wf
  have gp := g.pcap
  have glim := g.lim
  have gh := g.lay.head
  dsimp only at gb gblk gwf gp glim gh
  have glimB := gh.limB
  have gv := gh.val
  have gnz := gh.nzB
  have hdis := a3 _ h.blk
  unfold disjoint at hdis
  rw [← hqb, ← hqc, gb] at hdis
  dsimp only at hdis
  have hob : (s.buf.dataAddr, s.pool.capacity) ∈ m1.blocks := by rw [hbl]; simp [h.blk]
  have hv : m1.valid s.buf.dataAddr c.len := Or.inr ⟨_, hob, Nat.le_refl _, by dsimp only; omega⟩
  have eold : ∀ x, s.buf.dataAddr ≤ x → x < s.buf.dataAddr + s.pool.capacity → m1.byte x = s.mem.byte x := by
    intro x h1 h2
    exact kp.byte x (Or.inr ⟨_, h.blk, hnz, h1, by dsimp only; omega⟩)
  let m2 := m1.move b.dataAddr s.buf.dataAddr c.len
  have hcp : m1.memcpy b.dataAddr s.buf.dataAddr c.len = .ok m2 :=
    Mem.memcpy_ok (Mem.valid_sub gv (Nat.le_refl _) (by omega)) hv (by omega)
  have b2 : m2.blocks = m1.blocks := by simp [m2]
  have lay2 : Layout m2 s.buf.dataAddr b.dataAddr b.capacity c k := by
    refine h.lay.copy gnz gh.alB (by omega) glimB (by omega) ((Mem.valid_of_blocks b2).2 gv) fun x hx => ?_
    simp only [m2]
    rw [Mem.byte_move_in _ (by omega), Nat.add_sub_cancel_left, eold _ (by omega) (by omega)]
  have hsz : 0 < s.buf.dataSize := by rw [h.size]; omega
  have gsl := g.slot
  have grm := g.remappable
  dsimp only at gsl grm
  have wfof : ∀ m' : Mem, m'.blocks = m1.blocks → m'.Wf := fun m' e x hx y hy => by
    rw [e] at hx hy; exact gwf x hx y hy
  have goodold : ∀ m' : Mem, m'.blocks = m1.blocks →
      (∀ x, x < b.dataAddr ∨ b.dataAddr + c.len ≤ x → m'.byte x = m2.byte x) → Good { s with mem := m' } c k :=
    fun m' e hf => h.outside (wfof m' e) (by rw [e]; exact hob) fun x h1 h2 => by
      rw [hf x (by omega)]
      simp only [m2]
      rw [Mem.byte_move_out _ (by omega), eold x h1 h2]
  rw [h.size] at hsz ⊢
  simp only [Res.ok_bind, if_pos hsz, if_pos gnz, hcp]
  by_cases hs : k.Strict
  · left
    refine ⟨h0, hs, ?_⟩
    obtain ⟨m3, r3, b3, lay3, f3⟩ := bufRefresh_ok (s := ⟨m2, b, q⟩) gsl grm lay2 hs (by dsimp only; omega)
    rw [r3]
    have b31 : m3.blocks = m1.blocks := b3.trans b2
    refine ⟨m3, { b with
        dataSize := c.len
        objectAddr := b.dataAddr + (off c 4 + 16)
        numObjects := k.recs.length }, q, ?_, ?_, goodold m3 b31 f3, by dsimp only; omega⟩
    · simp [Res.ok_bind, Res.pure_eq]
    · exact ⟨⟨gsl, g.flags, g.ds, lay3, rfl, rfl, gb, g.pbeg, g.psize, g.pchunk, gp, g.pmod, g.cmod,
        glim, by dsimp only; rw [b31]; exact gblk, wfof m3 b31⟩, rfl⟩
  · right
    refine ⟨h0, hs, ?_⟩
    have hbad : ∃ p ∈ k.ptrs, 8 * k.nS ≤ p.2 := by
      by_contra hcon
      exact hs (Content.strict_of hg fun p hp => Nat.lt_of_not_le fun hle => hcon ⟨p, hp, hle⟩)
    obtain ⟨m3, r3, b3, f3⟩ := bufRefresh_fail (s := ⟨m2, b, q⟩) gsl grm lay2 hg hbad (by dsimp only; omega)
      (by dsimp only; omega)
    rw [r3]
    exact ⟨m3, by simp [Res.ok_bind, Res.pure_eq], goodold m3 (b3.trans b2) f3⟩

/-! ## Writing with another base address -/

/-- The contents of a file, loaded to address `B`. -/
def Loaded (m : Mem) (B : Nat) (file : List UInt8) : Prop :=
  ∀ (i : Nat) (v : UInt8), file[i]? = some v → m.byte (B + i) = v

theorem bytes_getElem? (m : Mem) (B n i : Nat) (h : i < n) : (m.bytes B n)[i]? = some (m.byte (B + i)) := by
  simp [Mem.bytes, h]

/-- `NS(Buffer_write_to_fp_normalized_addr)`: the file is the buffer with base address `N`, and
the buffer is as before. -/
theorem writeNormalized_ok {s : St} {c : Caps} {k : Content} {N : Nat} (h : Good s c k) (hg : k.gs = [])
    (hs : k.Strict) (nz : N ≠ 0) (limN : N + s.buf.capacity < W) (hN : N ≠ s.buf.dataAddr + W / 2) :
    ∃ s' file, writeNormalized s N = .ok (s', some file, true) ∧ Good s' c k ∧ file.length = c.len ∧
      ∀ (m : Mem) (B cap : Nat), Loaded m B file → B ≠ 0 → B % 8 = 0 → B + cap < W → N + cap < W → c.len ≤ cap →
        m.valid B cap → Layout m N B cap c k := by
  have hw0 : W / 2 < W := by decide
  have hh := h.lay.head
  have fit := hh.fit
  have hl := hh.len_ge
  have hl2 : 128 ≤ c.len := by simp only [Caps.len]; omega
  have hp := h.pcap
  have lim := h.lim
  have hnz := hh.nzB
  have file_ok : ∀ m1 : Mem, Layout m1 N s.buf.dataAddr s.buf.capacity c k →
      ∀ (m : Mem) (B cap : Nat), Loaded m B (m1.bytes s.buf.dataAddr c.len) → B ≠ 0 → B % 8 = 0 → B + cap < W →
        N + cap < W → c.len ≤ cap → m.valid B cap → Layout m N B cap c k := by
    intro m1 l1 m B cap hload nzB alB limB limA hfit hval
    exact l1.copy nzB alB limA limB hfit hval fun x hx => hload x _ (bytes_getElem? _ _ _ _ hx)
  have hvlen : ∀ m1 : Mem, m1.blocks = s.mem.blocks → m1.valid s.buf.dataAddr c.len := fun m1 e =>
    (Mem.valid_of_blocks e).2 (Mem.valid_sub hh.val (Nat.le_refl _) (by omega))
  unfold writeNormalized
  dsimp only
  rw [if_pos ⟨hnz, by rw [h.size]; omega⟩]
  by_cases e : s.buf.dataAddr = N
  · have es : shiftTo s.mem s.buf.dataAddr N s.buf.slot = .ok (s.mem, true) := if_neg (by simpa using e)
    refine ⟨s, s.mem.bytes s.buf.dataAddr c.len, ?_, h, by simp [Mem.bytes], file_ok s.mem (by
      have := h.lay; rw [← e]; exact this)⟩
    rw [es]
    simp only [Res.ok_bind, if_true, h.size]
    rw [if_pos (hvlen s.mem rfl)]
    have hr : bufNeedsRemapping s = .ok false := by
      unfold bufNeedsRemapping
      rw [if_pos h.remappable, h.slot, hh.needsRemapping]
      simp
    change (bufNeedsRemapping s >>= _) = _
    rw [hr]
    simp [Res.ok_bind, Res.pure_eq]
  · have sh := shifts_of (A := s.buf.dataAddr) (B := N) hh.limB limN
    have hd : (N + (W - s.buf.dataAddr % W)) % W ≠ 0 := by
      rw [ne_eq, diff_eq_zero (by omega) (by omega)]; exact e
    obtain ⟨m1, r1, b1, l1, f1⟩ := applyAddrOffset_ok h.lay hg nz limN sh hd
    obtain ⟨m2, r2, b2, l2, f2⟩ := remap_ok l1 hs hN
    have es : shiftTo s.mem s.buf.dataAddr N s.buf.slot = .ok (m1, true) := by
      unfold shiftTo
      rw [if_pos e, addrDiff_ok (by omega), Res.ok_bind, h.slot, r1]
    have hb2 : m2.blocks = s.mem.blocks := b2.trans b1
    refine ⟨{ s with
        mem := m2
        buf := { s.buf with
          dataAddr := s.buf.dataAddr, dataSize := c.len, headerSize := 64,
          objectAddr := s.buf.dataAddr + (off c 4 + 16), numObjects := k.recs.length } },
      m1.bytes s.buf.dataAddr c.len, ?_, ?_, by simp [Mem.bytes], file_ok m1 l1⟩
    · rw [es]
      simp only [Res.ok_bind, if_true, h.size]
      rw [if_pos (hvlen m1 b1)]
      have hr : bufNeedsRemapping { s with mem := m1 } = .ok true := by
        unfold bufNeedsRemapping
        dsimp only
        rw [if_pos h.remappable, h.slot, l1.head.needsRemapping]
        simp [Ne.symm e]
      have hrm : bufRemap { s with mem := m1 } = .ok ({ s with
          mem := m2
          buf := { s.buf with
            dataAddr := s.buf.dataAddr, dataSize := c.len, headerSize := 64,
            objectAddr := s.buf.dataAddr + (off c 4 + 16), numObjects := k.recs.length } }, 0) := by
        have ha := h.remappable
        simp only [Bool.and_eq_true] at ha
        unfold bufRemap
        dsimp only
        rw [if_pos ha.2, l1.head.load0, Res.ok_bind, if_neg (by omega), h.slot,
          if_pos ⟨nz, by omega, hnz⟩, r2]
        simp only [Res.ok_bind, if_true, l2.head.load0, l2.head.load (o := 8) (by omega) rfl, l2.head.h1,
          l2.head.load (o := 16) (by omega) rfl, l2.head.h2, l2.head.sectionData (id := 4) (by omega) (by omega),
          l2.head.numEntities (id := 4) (by omega) (by omega), Res.pure_eq, cnt, Content.counts, Nat.add_assoc]
      rw [hr]
      simp only [Res.ok_bind, if_true]
      rw [hrm]
      simp [Res.ok_bind, Res.pure_eq]
    · refine ⟨⟨h.slot, h.flags, h.ds, l2, rfl, rfl, h.pbuf, h.pbeg, h.psize, h.pchunk, h.pcap, h.pmod, h.cmod,
        h.lim, by dsimp only; rw [hb2]; exact h.blk, ?_⟩, rfl⟩
      dsimp only; intro x hx d hd; rw [hb2] at hx hd; exact h.wf x hx d hd

end SixTrack.Buf
