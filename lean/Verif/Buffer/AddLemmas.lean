import Verif.Buffer.GrowLemmas

/-!
# Reserving numbers of entries and adding objects
-/

namespace SixTrack.Buf

open MemPool (Pool Alloc)

/-- The end of `NS(Buffer_reserve_generic)`. -/
theorem Core.reserve_tail {s : St} {c c' : Caps} {k : Content} (h : Core s c k) (hw : c'.len < W) :
    (∃ s', (do
        let (m, rc, len) ← Buf.reserve s.mem s.buf.dataAddr c' s.buf.capacity 8
        if rc = 0 then do
          let o ← sectionData m s.buf.dataAddr 4 8
          let n ← numEntities m s.buf.dataAddr 4 8
          return ({ s with
            mem := m
            buf := { s.buf with dataSize := len, objectAddr := o, numObjects := n } }, 0)
        else return ({ s with mem := m }, rc)) = (.ok (s', 0) : Res (St × Int)) ∧ Good s' c' k ∧
      Keeps s.mem s'.mem s.buf.dataAddr s'.buf.dataAddr ∧ s'.pool = s.pool ∧ s'.buf.capacity = s.buf.capacity ∧
      s'.buf.dataAddr = s.buf.dataAddr ∧
      k.counts.Le c' ∧ c'.len ≤ s.buf.capacity ∧ ¬ StuckG c k.counts c' ∧ ¬ StuckD c k.counts c') ∨
    (∃ m', (do
        let (m, rc, len) ← Buf.reserve s.mem s.buf.dataAddr c' s.buf.capacity 8
        if rc = 0 then do
          let o ← sectionData m s.buf.dataAddr 4 8
          let n ← numEntities m s.buf.dataAddr 4 8
          return ({ s with
            mem := m
            buf := { s.buf with dataSize := len, objectAddr := o, numObjects := n } }, 0)
        else return ({ s with mem := m }, rc)) = (.ok ({ s with mem := m' }, -1) : Res (St × Int)) ∧
      ¬ (k.counts.Le c' ∧ c'.len ≤ s.buf.capacity ∧ ¬ StuckG c k.counts c' ∧ ¬ StuckD c k.counts c')) := by
  by_cases hr : k.counts.Le c' ∧ c'.len ≤ s.buf.capacity ∧ ¬ StuckG c k.counts c' ∧ ¬ StuckD c k.counts c'
  · left
    obtain ⟨h1, h2, h3, h4⟩ := hr
    obtain ⟨m', r, g, kp⟩ := h.reserve h1 h2 h3 h4
    refine ⟨_, ?_, g, kp, rfl, rfl, rfl, h1, h2, h3, h4⟩
    have hh := g.lay.head
    dsimp only at hh
    rw [r]
    simp only [Res.ok_bind, if_true, hh.sectionData (id := 4) (by omega) (by omega),
      hh.numEntities (id := 4) (by omega) (by omega), cnt, Content.counts, Res.pure_eq, Nat.add_assoc]
  · right
    obtain ⟨m', l, r⟩ := h.reserve_fails hw hr
    exact ⟨m', by rw [r]; simp [Res.ok_bind, Res.pure_eq], hr⟩

/-- `NS(Buffer_reserve_generic)` on a buffer: success with the requested numbers, or failure. -/
theorem bufReserve_spec {malloc : Nat → Nat} {s : St} {c c' : Caps} {k : Content} (h : Good s c k)
    (hg : k.gs = []) (lim : c'.len + 16 < W) (hm : MallocOk malloc s.mem) :
    (∃ s', bufReserve malloc s c' = .ok (s', 0) ∧ Good s' c' k ∧
      Keeps s.mem s'.mem s.buf.dataAddr s'.buf.dataAddr) ∨
    (∃ s', bufReserve malloc s c' = .ok (s', -1)) := by
  by_cases hne : c' = c
  · right
    have hh := h.lay.head
    refine ⟨s, ?_⟩
    subst hne
    simp only [bufReserve, h.slot, h.modify, if_true]
    rw [hh.maxNumEntities (by omega) (by omega), Res.ok_bind, hh.maxNumEntities (by omega) (by omega), Res.ok_bind,
      hh.maxNumEntities (by omega) (by omega), Res.ok_bind, hh.maxNumEntities (by omega) (by omega), Res.ok_bind]
    simp [cnt, Res.pure_eq]
  rw [bufReserve_run h.toCore hne (by omega)]
  unfold growTo
  by_cases hcap : s.buf.capacity < c'.len
  · rw [if_pos hcap]
    rcases bufReserveCapacity_spec h.toCore hg hcap lim hm with ⟨-, -, r⟩ | ⟨s1, r, g1, hc1, -, k1, -⟩ |
      ⟨-, -, -, s1, r, -⟩
    · right; exact ⟨s, by rw [r]; simp [Res.ok_bind, Res.pure_eq]⟩
    · rw [r]
      simp only [Res.ok_bind]
      rw [if_pos ⟨trivial, hc1⟩]
      rcases g1.reserve_tail (c' := c') (by omega) with ⟨s', e, g', k', -⟩ | ⟨m', e, -⟩
      · left; exact ⟨s', e, g', k1.trans k'⟩
      · right; exact ⟨_, e⟩
    · right; exact ⟨s1, by rw [r]; simp [Res.ok_bind, Res.pure_eq]⟩
  · rw [if_neg hcap]
    simp only [Res.ok_bind]
    rw [if_pos ⟨trivial, by omega⟩]
    rcases h.toCore.reserve_tail (c' := c') (by omega) with ⟨s', e, g', k', -⟩ | ⟨m', e, -⟩
    · left; exact ⟨s', e, g', k'⟩
    · right; exact ⟨_, e⟩

/-- When `NS(Buffer_reserve_generic)` succeeds. -/
theorem bufReserve_ok {malloc : Nat → Nat} {s : St} {c c' : Caps} {k : Content} (h : Core s c k)
    (hg : k.gs = []) (lim : c'.len + 16 < W) (hm : MallocOk malloc s.mem) (hne : c' ≠ c)
    (hn : k.counts.Le c') (hG : ¬ StuckG c k.counts c') (hD : ¬ StuckD c k.counts c')
    (hroom : c'.len ≤ s.pool.capacity ∨ k.Strict ∧ malloc (MemPool.initBytes c'.len 8 8) ≠ 0) :
    ∃ s', bufReserve malloc s c' = .ok (s', 0) ∧ Good s' c' k ∧
      Keeps s.mem s'.mem s.buf.dataAddr s'.buf.dataAddr := by
  rw [bufReserve_run h hne (by omega)]
  unfold growTo
  by_cases hcap : s.buf.capacity < c'.len
  · rw [if_pos hcap]
    rcases bufReserveCapacity_spec h hg hcap lim hm with ⟨r1, r2, -⟩ | ⟨s1, r, g1, hc1, -, k1, -⟩ |
      ⟨r1, r2, r3, -⟩
    · rcases hroom with hr | hr
      · omega
      · exact absurd r2 hr.2
    · rw [r]
      simp only [Res.ok_bind]
      rw [if_pos ⟨trivial, hc1⟩]
      rcases g1.reserve_tail (c' := c') (by omega) with ⟨s', e, g', k', -⟩ | ⟨m', e, hr⟩
      · exact ⟨s', e, g', k1.trans k'⟩
      · exact absurd ⟨hn, hc1, hG, hD⟩ hr
    · rcases hroom with hr | hr
      · omega
      · exact absurd hr.1 r3
  · rw [if_neg hcap]
    simp only [Res.ok_bind]
    rw [if_pos ⟨trivial, by omega⟩]
    rcases h.reserve_tail (c' := c') (by omega) with ⟨s', e, g', k', -⟩ | ⟨m', e, hr⟩
    · exact ⟨s', e, g', k'⟩
    · exact absurd ⟨hn, by omega, hG, hD⟩ hr

/-! ## Adding an object -/

/-- The capacities `NS(Buffer_add_object_generic)` asks for. -/
def Content.need (k : Content) (c : Caps) (size : Nat) (as : List AttrSpec) : Caps :=
  ⟨k.recs.length + 1, k.nS + objSlots size as, k.ptrs.length + as.length, c.garbage⟩

/-- The object fits into the reserved numbers. -/
def Content.room (k : Content) (c : Caps) (size : Nat) (as : List AttrSpec) : Prop :=
  k.recs.length + 1 ≤ c.objs ∧ k.nS + objSlots size as ≤ c.slots ∧ k.ptrs.length + as.length ≤ c.dataptrs

theorem Core.append {s : St} {c : Caps} {k : Content} (h : Core s c k) : s.buf.allowAppend = true := by
  simp [Buffer.allowAppend, Buffer.has, h.flags, FLAGS]

/-- `NS(Buffer_add_object_generic)` on a buffer. -/
theorem addObject_run {malloc : Nat → Nat} {s : St} {c : Caps} {k : Content} (h : Core s c k)
    {src size typeId : Nat} {as : List AttrSpec} (hs : SpecOk size as) (nz : src ≠ 0)
    (hw : 8 * objSlots size as < W) :
    addObject malloc s src size typeId as = (do
      let (s, rc) ← ensure malloc s (c.objs < k.recs.length + 1 ∨ c.slots < k.nS + objSlots size as ∨
        c.dataptrs < k.ptrs.length + as.length) (k.need c size as)
      if rc = 0 then do
        let (m, r) ← storeObject s.mem s.buf.dataAddr 8 src size typeId (objSlots size as)
          (k.recs.length + 1) (k.nS + objSlots size as) (k.ptrs.length + as.length) as
        if r = 0 then return ({ s with mem := m }, 0)
        else return ({ s with mem := m, buf := { s.buf with numObjects := k.recs.length + 1 } }, r)
      else return (s, 0)) := by
  have hh := h.lay.head
  have hpos := hs.pos
  simp only [addObject, h.slot]
  rw [if_pos ⟨by omega, hpos, nz, h.append⟩]
  rw [hh.numEntities (by omega) (by omega), Res.ok_bind, hh.maxNumEntities (by omega) (by omega), Res.ok_bind,
    hh.numEntities (by omega) (by omega), Res.ok_bind, hh.maxNumEntities (by omega) (by omega), Res.ok_bind,
    hh.numEntities (by omega) (by omega), Res.ok_bind, hh.maxNumEntities (by omega) (by omega), Res.ok_bind,
    hh.maxNumEntities (by omega) (by omega), Res.ok_bind]
  rw [show predictSlots size (as.map fun a => (a.size, a.count)) 8 = objSlots size as from rfl,
    fits_ok (by omega), Res.ok_bind]
  simp only [cnt, Content.counts, Content.need]

/-- Storing the object once there is room for it. -/
theorem Good.store {s : St} {c : Caps} {k : Content} (h : Good s c k) {src size typeId : Nat}
    {as : List AttrSpec} {db : AttrSpec → Nat → UInt8} (hs : SpecOk size as)
    (hsrc : Source s.mem s.buf.dataAddr src size as db) (ht : typeId < W) (room : k.room c size as) :
    ∃ m' data, storeObject s.mem s.buf.dataAddr 8 src size typeId (objSlots size as) (k.recs.length + 1)
        (k.nS + objSlots size as) (k.ptrs.length + as.length) as =
          .ok (m', s.buf.dataAddr + (off c 4 + 16 + 24 * k.recs.length)) ∧
      Good { s with mem := m', buf := { s.buf with numObjects := k.recs.length + 1 } } c
        (k.add typeId size as data) ∧
      Keeps s.mem m' s.buf.dataAddr s.buf.dataAddr ∧ m'.blocks = s.mem.blocks ∧
      (∀ j, j < size → (∀ a ∈ as, j < a.off ∨ a.off + 8 ≤ j) →
        data (8 * k.nS + j) = s.mem.byte (src + j)) ∧
      ∀ (i : Nat) (a : AttrSpec), as[i]? = some a → ∀ j, j < a.bytes →
        data (8 * k.nS + roundUp size 8 + extSum (as.take i) + j) = db a j := by
  have hp := h.pcap
  have fit := h.lay.head.fit
  obtain ⟨m', data, r, b, lay, f, d1, d2⟩ := storeObject_ok h.lay hs (h.toCore.source hs hsrc) ht
    room.2.1 room.1 room.2.2
  refine ⟨m', data, r, ⟨⟨h.slot, h.flags, h.ds, lay, h.size, ?_, h.pbuf, h.pbeg, h.psize, h.pchunk, h.pcap, h.pmod,
    h.cmod, h.lim, by dsimp only; rw [b]; exact h.blk, ?_⟩, h.objs⟩,
    Keeps.inside h.wf h.blk b fun x hx => f x (by omega), b, d1, d2⟩
  · simp [Content.add]
  · dsimp only; intro x hx d hd; rw [b] at hx hd; exact h.wf x hx d hd

/-- Adding an object: the object is stored, or null is returned. -/
theorem addObject_spec {malloc : Nat → Nat} {s : St} {c : Caps} {k : Content} (h : Good s c k)
    (hg : k.gs = []) {src size typeId : Nat} {as : List AttrSpec} {db : AttrSpec → Nat → UInt8}
    (hs : SpecOk size as) (hsrc : Source s.mem s.buf.dataAddr src size as db) (ht : typeId < W)
    (lim : (k.need c size as).len + 16 < W) (hm : MallocOk malloc s.mem) :
    (∃ s' c' data, addObject malloc s src size typeId as =
        .ok (s', s'.buf.dataAddr + (off c' 4 + 16 + 24 * k.recs.length)) ∧
      Good s' c' (k.add typeId size as data) ∧
      Keeps s.mem s'.mem s.buf.dataAddr s'.buf.dataAddr ∧
      (∀ j, j < size → (∀ a ∈ as, j < a.off ∨ a.off + 8 ≤ j) →
        data (8 * k.nS + j) = s.mem.byte (src + j)) ∧
      (∀ (i : Nat) (a : AttrSpec), as[i]? = some a → ∀ j, j < a.bytes →
        data (8 * k.nS + roundUp size 8 + extSum (as.take i) + j) = db a j) ∧
      (k.room c size as → c' = c ∧ s'.buf.dataAddr = s.buf.dataAddr ∧ s'.buf.capacity = s.buf.capacity ∧
        s'.pool = s.pool ∧ s'.mem.blocks = s.mem.blocks) ∧
      (¬ k.room c size as → c' = k.need c size as)) ∨
    (∃ s', addObject malloc s src size typeId as = .ok (s', 0) ∧ ¬ k.room c size as ∧
      ∃ s'', bufReserve malloc s (k.need c size as) = .ok (s'', -1)) := by
  have hlen : (k.need c size as).len = 128 + 8 * (k.nS + objSlots size as) + 24 * (k.recs.length + 1) +
    8 * (k.ptrs.length + as.length) + 16 * c.garbage := rfl
  have key : ∀ (s1 : St) (c1 : Caps), Good s1 c1 k → Keeps s.mem s1.mem s.buf.dataAddr s1.buf.dataAddr →
      k.room c1 size as →
      ∃ s' data, (do
          let (m, r) ← storeObject s1.mem s1.buf.dataAddr 8 src size typeId (objSlots size as)
            (k.recs.length + 1) (k.nS + objSlots size as) (k.ptrs.length + as.length) as
          if r = 0 then return ({ s1 with mem := m }, 0)
          else return ({ s1 with mem := m, buf := { s1.buf with numObjects := k.recs.length + 1 } }, r)) =
          (.ok (s', s'.buf.dataAddr + (off c1 4 + 16 + 24 * k.recs.length)) : Res (St × Nat)) ∧
        Good s' c1 (k.add typeId size as data) ∧
        Keeps s.mem s'.mem s.buf.dataAddr s'.buf.dataAddr ∧
        (∀ j, j < size → (∀ a ∈ as, j < a.off ∨ a.off + 8 ≤ j) →
          data (8 * k.nS + j) = s.mem.byte (src + j)) ∧
        (∀ (i : Nat) (a : AttrSpec), as[i]? = some a → ∀ j, j < a.bytes →
          data (8 * k.nS + roundUp size 8 + extSum (as.take i) + j) = db a j) ∧
        s'.buf.dataAddr = s1.buf.dataAddr ∧ s'.buf.capacity = s1.buf.capacity ∧ s'.pool = s1.pool ∧
        s'.mem.blocks = s1.mem.blocks := by
    intro s1 c1 g1 k1 r1
    obtain ⟨m', data, r, g', k', hbl, d1, d2⟩ := g1.store hs (hsrc.keeps hs k1) ht r1
    refine ⟨_, data, ?_, g', k1.trans k', fun j hj ha => ?_, d2, rfl, rfl, rfl, hbl⟩
    · rw [r]
      simp only [Res.ok_bind]
      rw [if_neg (by omega)]
      rfl
    · rw [d1 j hj ha, k1.byte _ (hsrc.handle.sub (by omega) (by omega))]
  rw [addObject_run h.toCore hs hsrc.nz (by omega)]
  unfold ensure
  by_cases room : k.room c size as
  · left
    obtain ⟨s', data, e, g', k', d1, d2, hb⟩ := key s c h (Keeps.refl _ _) room
    have r0 := room
    unfold Content.room at r0
    refine ⟨s', c, data, ?_, g', k', d1, d2, fun _ => ⟨rfl, hb⟩, fun hn => absurd room hn⟩
    rw [if_neg (by simp; omega)]
    simp only [Res.ok_bind, if_true]
    exact e
  · have hneed : c.objs < k.recs.length + 1 ∨ c.slots < k.nS + objSlots size as ∨
        c.dataptrs < k.ptrs.length + as.length := by
      unfold Content.room at room; omega
    rw [if_pos (by simpa using hneed)]
    rcases bufReserve_spec (c' := k.need c size as) h hg lim hm with ⟨s1, r, g1, k1⟩ | ⟨s1, r⟩
    · left
      obtain ⟨s', data, e, g', k', d1, d2, hb⟩ := key s1 _ g1 k1 ⟨Nat.le_refl _, Nat.le_refl _, Nat.le_refl _⟩
      refine ⟨s', _, data, ?_, g', k', d1, d2, fun hr => absurd hr room, fun _ => rfl⟩
      rw [r]
      simp only [Res.ok_bind, if_true]
      exact e
    · right
      refine ⟨s1, ?_, room, s1, r⟩
      rw [r]
      simp [Res.ok_bind, Res.pure_eq]

end SixTrack.Buf
