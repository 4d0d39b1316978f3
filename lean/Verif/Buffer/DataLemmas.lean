import Verif.Buffer.Objects

/-!
# Lemmas: buffers on existing data and copies of existing data
-/

namespace SixTrack.Buf

open MemPool (Pool Alloc)

/-! ## A buffer on existing data -/

/-- The structure that `NS(Buffer_new_on_data)` makes. -/
def onData (B cap : Nat) (c : Caps) (k : Content) : Buffer :=
  ⟨B, c.len, 64, cap, 8, B + (off c 4 + 16), k.recs.length, 0x1 ||| 0x4 ||| 0x8 ||| 0x20, 0⟩

theorem newOnData_same {malloc : Nat → Nat} {m : Mem} {B cap : Nat} {c : Caps} {k : Content}
    (h : Layout m B B cap c k) : newOnData malloc m B cap = .ok (m, some (onData B cap c k)) := by
  have hh := h.head
  have hl := hh.fit
  have hL : c.len = 128 + 8 * c.slots + 24 * c.objs + 8 * c.dataptrs + 16 * c.garbage := rfl
  unfold newOnData initFromData
  rw [if_pos ⟨hh.nzB, by omega⟩]
  dsimp only [presetBuffer]
  rw [if_pos ⟨by omega, hh.nzB⟩, hh.needsRemapping]
  simp only [Res.ok_bind, remapIf, ne_eq, not_true_eq_false, decide_false, Bool.false_eq_true, if_false, if_true,
    hh.bufferLength, hh.sectionData (id := 4) (by omega) (by omega), hh.numEntities (id := 4) (by omega) (by omega),
    Buffer.usesDatastore, Buffer.hasDatastore, Bool.false_and, Bool.not_false, Res.pure_eq, cnt, Content.counts,
    Nat.add_assoc, onData]

theorem newOnData_other {malloc : Nat → Nat} {m : Mem} {A B cap : Nat} {c : Caps} {k : Content}
    (h : Layout m A B cap c k) (hs : k.Strict) (hA : A ≠ B + W / 2) (hne : A ≠ B) :
    ∃ m', newOnData malloc m B cap = .ok (m', some (onData B cap c k)) ∧ Layout m' B B cap c k ∧
      m'.blocks = m.blocks ∧ ∀ x, x < B ∨ B + c.len ≤ x → m'.byte x = m.byte x := by
  have hh := h.head
  have hl := hh.fit
  have hL : c.len = 128 + 8 * c.slots + 24 * c.objs + 8 * c.dataptrs + 16 * c.garbage := rfl
  obtain ⟨m', r, b, lay, f⟩ := remap_ok h hs hA
  have hh' := lay.head
  refine ⟨m', ?_, lay, b, f⟩
  unfold newOnData initFromData
  rw [if_pos ⟨hh.nzB, by omega⟩]
  dsimp only [presetBuffer]
  rw [if_pos ⟨by omega, hh.nzB⟩, hh.needsRemapping]
  simp only [Res.ok_bind, remapIf, ne_eq, hne, not_false_eq_true, decide_true, not_true_eq_false, decide_false,
    if_true, r,
    hh'.bufferLength, hh'.sectionData (id := 4) (by omega) (by omega), hh'.numEntities (id := 4) (by omega) (by omega),
    Buffer.usesDatastore, Buffer.hasDatastore, Bool.false_and, Bool.not_false, Res.pure_eq, cnt, Content.counts,
    Nat.add_assoc, onData]

theorem newOnData_bad {malloc : Nat → Nat} {m : Mem} {A B cap : Nat} {c : Caps} {k : Content}
    (h : Layout m A B cap c k) (hg : k.gs = []) (hbad : ∃ p ∈ k.ptrs, 8 * k.nS ≤ p.2) (hA : A ≠ B + W / 2)
    (hne : A ≠ B) : ∃ m', newOnData malloc m B cap = .ok (m', none) := by
  have hh := h.head
  have hl := hh.fit
  have hL : c.len = 128 + 8 * c.slots + 24 * c.objs + 8 * c.dataptrs + 16 * c.garbage := rfl
  obtain ⟨m', r, b, f⟩ := remap_fail h hg hbad hA hne
  refine ⟨m', ?_⟩
  unfold newOnData initFromData
  rw [if_pos ⟨hh.nzB, by omega⟩]
  dsimp only [presetBuffer]
  rw [if_pos ⟨by omega, hh.nzB⟩, hh.needsRemapping]
  simp [Res.ok_bind, remapIf, hne, r, Res.pure_eq]

/-! ## Copying existing data into a buffer -/

/-- The flags of a managed buffer. -/
theorem Core.flags_all {t : St} {c : Caps} {k : Content} (h : Core t c k) :
    t.buf.usesDatastore = true ∧ t.buf.ownsDatastore = true ∧ t.buf.allowResize = true ∧ t.buf.usesMempool = true ∧
      t.buf.flags ||| (0x4 ||| 0x20) = t.buf.flags := by
  have h1 := h.flags
  have h2 := h.ds
  simp only [Buffer.usesDatastore, Buffer.hasDatastore, Buffer.ownsDatastore, Buffer.allowResize, Buffer.usesMempool,
    Buffer.has, h1]
  simp [h2, FLAGS]

/-- The data of `s` copied into the buffer `t` in the same memory, which is large enough. -/
theorem initFromData_fits {malloc : Nat → Nat} {s t : St} {c c0 : Caps} {k k0 : Content} {maxLen : Nat} (h : Good s c k)
    (ht : Good t c0 k0) (hg : k.gs = []) (hm : s.mem = t.mem) (hd : s.buf.dataAddr ≠ t.buf.dataAddr)
    (fit : s.buf.dataSize ≤ t.buf.capacity) :
    (k.Strict ∧ ∃ m', initFromData malloc t s.buf.dataAddr maxLen = .ok ({ t with
        mem := m'
        buf := { t.buf with
          dataSize := s.buf.dataSize, objectAddr := s.buf.objectAddr, numObjects := k.recs.length } }, 0) ∧
      Layout m' t.buf.dataAddr t.buf.dataAddr t.buf.capacity c k ∧ Good { s with mem := m' } c k ∧
      m'.blocks = t.mem.blocks) ∨
    (¬ k.Strict ∧ ∃ m', initFromData malloc t s.buf.dataAddr maxLen = .ok ({ t with mem := m' }, 0) ∧
      Good { s with mem := m' } c k) := by
  have hh := h.lay.head
  have th := ht.lay.head
  have hl := hh.fit
  have hsz := h.size
  have hL : c.len = 128 + 8 * c.slots + 24 * c.objs + 8 * c.dataptrs + 16 * c.garbage := rfl
  have hp := h.pcap
  have tp := ht.pcap
  have lim := h.lim
  have tlim := ht.lim
  have hw0 : W / 2 + W / 2 = W := by decide
  have hnz := hh.nzB
  have tnz := th.nzB
  have sblk := h.blk
  rw [hm] at sblk
  have hdis : disjoint s.buf.dataAddr s.pool.capacity t.buf.dataAddr t.pool.capacity := by
    rcases ht.wf _ sblk _ ht.blk with e | e
    · simp only [Prod.mk.injEq] at e
      exact absurd e.1 hd
    · exact e
  unfold disjoint at hdis
  let m2 := t.mem.move t.buf.dataAddr s.buf.dataAddr c.len
  have hv : t.mem.valid s.buf.dataAddr c.len := Or.inr ⟨_, sblk, Nat.le_refl _, by dsimp only; omega⟩
  have tv : t.mem.valid t.buf.dataAddr c.len := Mem.valid_sub th.val (Nat.le_refl _) (by omega)
  have hcp : t.mem.memcpy t.buf.dataAddr s.buf.dataAddr c.len = .ok m2 := Mem.memcpy_ok tv hv (by omega)
  have b2 : m2.blocks = t.mem.blocks := by simp [m2]
  have lay2 : Layout m2 s.buf.dataAddr t.buf.dataAddr t.buf.capacity c k := by
    refine h.lay.copy th.nzB th.alB (by omega) th.limB (by omega) ((Mem.valid_of_blocks b2).2 th.val) fun x hx => ?_
    simp only [m2]
    rw [Mem.byte_move_in _ (by omega), Nat.add_sub_cancel_left, hm]
  have wfof : ∀ m' : Mem, m'.blocks = t.mem.blocks → m'.Wf := fun m' e x hx y hy => by
    rw [e] at hx hy; exact ht.wf x hx y hy
  have goodold : ∀ m' : Mem, m'.blocks = t.mem.blocks →
      (∀ x, x < t.buf.dataAddr ∨ t.buf.dataAddr + c.len ≤ x → m'.byte x = m2.byte x) → Good { s with mem := m' } c k :=
    fun m' e hf => h.outside (wfof m' e) (by rw [e]; exact sblk) fun x h1 h2 => by
      rw [hf x (by omega)]
      simp only [m2]
      rw [Mem.byte_move_out _ (by omega), hm]
  obtain ⟨f1, f2, f3, f4, f5⟩ := ht.toCore.flags_all
  have hh' := hh
  rw [hm] at hh'
  have start : ∀ r, (remap m2 t.buf.dataAddr 8 = r) → initFromData malloc t s.buf.dataAddr maxLen = (do
      let (m, ok) ← r
      if ok then do
        let o ← sectionData m s.buf.dataAddr 4 8
        let n ← numEntities m s.buf.dataAddr 4 8
        return ({ t with
          mem := m
          buf := { t.buf with dataSize := c.len, objectAddr := o, numObjects := n } }, 0)
      else return ({ t with mem := m }, 0)) := by
    intro r hr
    unfold initFromData
    dsimp only
    rw [ht.slot, if_pos ⟨by omega, hnz⟩, hh'.needsRemapping]
    simp only [Res.ok_bind, remapIf, ne_eq, not_true_eq_false, decide_false, Bool.false_eq_true, if_false, if_true,
      hh'.bufferLength, f1, Bool.not_true, ht.toCore.readable,
      decide_eq_false (by omega : ¬ t.buf.capacity < c.len), Bool.false_and]
    rw [if_pos ⟨trivial, by omega⟩, hcp, Res.ok_bind, lay2.head.needsRemapping, Res.ok_bind, decide_eq_true hd]
    simp only [if_true, hr, f5, ht.slot]
  by_cases hs : k.Strict
  · left
    refine ⟨hs, ?_⟩
    obtain ⟨m3, r3, b3, lay3, f3⟩ := remap_ok lay2 hs (by omega)
    have g3 := goodold m3 (b3.trans b2) f3
    have hh3 := g3.lay.head
    dsimp only at hh3
    refine ⟨m3, ?_, lay3, g3, b3.trans b2⟩
    rw [start _ r3]
    simp only [Res.ok_bind, if_true, hh3.sectionData (id := 4) (by omega) (by omega),
      hh3.numEntities (id := 4) (by omega) (by omega), Res.pure_eq, cnt, Content.counts, h.size, h.objs, Nat.add_assoc]
  · right
    refine ⟨hs, ?_⟩
    have hbad : ∃ p ∈ k.ptrs, 8 * k.nS ≤ p.2 := by
      by_contra hcon
      exact hs (Content.strict_of hg fun p hp => Nat.lt_of_not_le fun hle => hcon ⟨p, hp, hle⟩)
    obtain ⟨m3, r3, b3, f3⟩ := remap_fail lay2 hg hbad (by omega) hd
    refine ⟨m3, ?_, goodold m3 (b3.trans b2) f3⟩
    rw [start _ r3]
    rfl

/-- The data of `s` do not fit into the memory of the buffer `t`. -/
theorem initFromData_big {malloc : Nat → Nat} {s t : St} {c c0 : Caps} {k k0 : Content} {maxLen : Nat} (h : Good s c k)
    (ht : Good t c0 k0) (hm : s.mem = t.mem)
    (big : t.pool.capacity < s.buf.dataSize) (hmal : MallocOk malloc t.mem) :
    (malloc (MemPool.initBytes s.buf.dataSize 8 8) = 0 ∧
      initFromData malloc t s.buf.dataAddr maxLen = .ok ({ t with pool := MemPool.clear t.pool }, 0)) ∨
    (malloc (MemPool.initBytes s.buf.dataSize 8 8) ≠ 0 ∧
      ∃ m' q', initFromData malloc t s.buf.dataAddr maxLen = .ok ({ t with mem := m', pool := q' }, 1) ∧
        ∀ x n, t.buf.dataAddr ≤ x → x < t.buf.dataAddr + t.pool.capacity → 0 < n → ¬ m'.valid x n) := by
  have hh := h.lay.head
  have th := ht.lay.head
  have hl := hh.fit
  have tl := th.len_ge
  have hsz := h.size
  have hL : c.len = 128 + 8 * c.slots + 24 * c.objs + 8 * c.dataptrs + 16 * c.garbage := rfl
  have hp := h.pcap
  have tp := ht.pcap
  have lim := h.lim
  have tlim := ht.lim
  have hw0 : W / 2 + 1000 < W := by decide
  have hnz := hh.nzB
  have tnz := th.nzB
  obtain ⟨f1, f2, f3, f4, f5⟩ := ht.toCore.flags_all
  have hh' := hh
  rw [hm] at hh'
  rw [hsz] at big ⊢
  have start : ∀ r, (refitPool malloc t c.len = r) → (∀ t' rc, r = .ok (t', rc) → t'.buf = t.buf) →
      initFromData malloc t s.buf.dataAddr maxLen = r := by
    intro r hr hbuf
    unfold initFromData
    dsimp only
    rw [ht.slot, if_pos ⟨by omega, hnz⟩, hh'.needsRemapping]
    simp only [Res.ok_bind, remapIf, ne_eq, not_true_eq_false, decide_false, Bool.false_eq_true, if_false, if_true,
      hh'.bufferLength, f1, Bool.not_true, ht.toCore.readable, f2, f3, f4,
      decide_eq_true (by omega : t.buf.capacity < c.len), Bool.and_self]
    rw [show (⟨t.mem, t.buf, t.pool⟩ : St) = t from rfl, hr]
    cases r with
    | ub => rfl
    | ok p =>
      obtain ⟨t', rc⟩ := p
      rw [Res.ok_bind]
      dsimp only
      rw [if_neg (by rw [hbuf t' rc rfl]; omega)]
      rfl
  have pch := ht.pchunk
  by_cases h0 : malloc (MemPool.initBytes c.len 8 8) = 0
  · left
    refine ⟨h0, start _ ?_ (by intro t' rc e; simp only [Res.ok.injEq, Prod.mk.injEq] at e; rw [← e.1])⟩
    have hpr : poolReserve malloc t.mem (MemPool.clear t.pool) c.len 8 = .ok (t.mem, MemPool.clear t.pool, false) := by
      unfold poolReserve
      have : MemPool.initAligned malloc c.len 8 8 = MemPool.preset := by
        simp only [MemPool.initAligned]
        rw [if_pos ⟨by omega, by omega⟩, if_neg (by simp [h0])]
      simp only [MemPool.clear, pch, this, MemPool.preset]
      rw [if_pos ⟨big, by omega⟩]
      simp
    have hap : MemPool.appendAligned (MemPool.clear t.pool) c.len 8 = .ok (MemPool.clear t.pool, Alloc.preset) := by
      have hcom : Align.common 8 8 = 8 := by
        rw [Align.common, C14_lcm_partial 8 8 (by decide)]; decide
      have al := th.alB
      have h1 : MemPool.nextBeginOffset (MemPool.clear t.pool) 8 = .ok 0 := by
        simp only [MemPool.nextBeginOffset, MemPool.clear, pch, hcom]
        rw [if_neg (by omega)]
        have : (t.pool.beginPos + 0) % 8 = 0 := by rw [ht.pbeg]; omega
        simp only [this, ne_eq, not_true_eq_false, if_false, false_and]
        rw [if_pos (by omega)]
      simp only [MemPool.appendAligned, h1, Res.ok_bind]
      have e : ∀ b0, (if c.len / 8 * 8 < c.len then Align.u64 (b0 + 8) else c.len / 8 * 8) = c.len := by
        intro b0; rw [if_neg (by omega)]; omega
      simp only [MemPool.clear, pch, e]
      rw [if_pos ⟨by rw [ht.pbeg]; exact tnz, by omega, by decide, by omega⟩,
        if_pos (by simp only [MemPool.U64MAX]; have hW : W / 2 = 2 ^ 63 := by decide
                   omega), if_neg (by omega)]
      rfl
    unfold refitPool
    rw [ht.slot, hpr, Res.ok_bind]
    simp only [Bool.false_eq_true, if_false, hap, Res.ok_bind]
    rfl
  · right
    refine ⟨h0, ?_⟩
    obtain ⟨a1, a2, a3⟩ := (hmal _).resolve_left h0
    have hinit := initAligned_8 (malloc := malloc) (n := c.len) (by omega) (by omega) h0 a1
    have hN := initBytes_8 (n := c.len) (by omega) (by omega)
    generalize hNe : MemPool.initBytes c.len 8 8 = N at *
    generalize malloc N = a at *
    let m1 : Mem := { t.mem with blocks := (a, N) :: t.mem.blocks }
    have hal : t.mem.alloc a N = .ok m1 := if_pos ⟨h0, a1, a2, a3⟩
    let m2 : Mem := { m1 with blocks := m1.blocks.filter (fun b => b.1 ≠ t.buf.dataAddr) }
    have hfr : m1.free t.buf.dataAddr = .ok m2 := by
      unfold Mem.free
      rw [if_neg tnz, if_pos ⟨(t.buf.dataAddr, t.pool.capacity), by simp [m1, ht.blk], rfl⟩]
    obtain ⟨-, -, -, hv⟩ := moved_blocks (m' := m2) ht.wf ht.blk (by omega) (by omega : 0 < N) a3 rfl
      (fun _ _ => rfl)
    refine ⟨m2, ⟨a, a, 0, N, 0, 8⟩, start _ ?_
      (by intro t' rc e; simp only [Res.ok.injEq, Prod.mk.injEq] at e; rw [← e.1]), hv⟩
    have hpr : poolReserve malloc t.mem (MemPool.clear t.pool) c.len 8 = .ok (m2, ⟨a, a, 0, N, 0, 8⟩, true) := by
      unfold poolReserve
      simp only [MemPool.clear, pch, hinit, ht.pbeg, ht.pbuf]
      rw [if_pos ⟨big, by omega⟩, if_pos h0, hNe, hal, Res.ok_bind, if_pos tnz]
      simp only [copyPool, Nat.lt_irrefl, if_false, Res.ok_bind, hfr]
      rfl
    unfold refitPool
    rw [ht.slot, hpr, Res.ok_bind]
    rfl

end SixTrack.Buf
