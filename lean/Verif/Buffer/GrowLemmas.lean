import Verif.Buffer.StoreLemmas
import Verif.Buffer.RemapFail
import Verif.Buffer.ClearLemmas
import Verif.Props.Align
import Mathlib.Tactic.ByContra

/-!
# Growing a buffer
-/

namespace SixTrack.Buf

open MemPool (Pool Alloc)

/-! ## Blocks of memory -/

/-- The allocated blocks do not overlap. -/
def Mem.Wf (m : Mem) : Prop :=
  ∀ b ∈ m.blocks, ∀ d ∈ m.blocks, b = d ∨ disjoint b.1 b.2 d.1 d.2

/-- `n` readable bytes from `a` on in a block other than the one which starts at `P`. -/
def Mem.ext (m : Mem) (P a n : Nat) : Prop :=
  n = 0 ∨ ∃ b ∈ m.blocks, b.1 ≠ P ∧ b.1 ≤ a ∧ a + n ≤ b.1 + b.2

theorem Mem.ext.valid {m : Mem} {P a n : Nat} (h : m.ext P a n) : m.valid a n := by
  rcases h with h | ⟨b, h1, -, h2⟩
  · exact Or.inl h
  · exact Or.inr ⟨b, h1, h2⟩

theorem Mem.ext.sub {m : Mem} {P a n b k : Nat} (h : m.ext P a n) (h1 : a ≤ b) (h2 : b + k ≤ a + n) :
    m.ext P b k := by
  rcases h with h | ⟨c, hc, h3, h4, h5⟩
  · left; omega
  · right; exact ⟨c, hc, h3, by omega, by omega⟩

theorem Mem.ext.outside {m : Mem} {P L a n : Nat} (h : m.ext P a n) (hw : m.Wf) (hb : (P, L) ∈ m.blocks) :
    n = 0 ∨ a + n ≤ P ∨ P + L ≤ a := by
  rcases h with h | ⟨b, h1, h2, h3, h4⟩
  · exact Or.inl h
  · right
    rcases hw b h1 _ hb with e | e
    · exact absurd (by rw [e]) h2
    · unfold disjoint at e; dsimp only at e; omega

/-- Everything that is readable outside of the block at `P` stays as it is, outside of the
block at `P'`. -/
structure Keeps (m m' : Mem) (P P' : Nat) : Prop where
  ext : ∀ a n, m.ext P a n → m'.ext P' a n
  byte : ∀ a, m.ext P a 1 → m'.byte a = m.byte a

theorem Keeps.refl (m : Mem) (P : Nat) : Keeps m m P P := ⟨fun _ _ h => h, fun _ _ => rfl⟩

theorem Keeps.trans {m m' m'' : Mem} {P P' P'' : Nat} (h : Keeps m m' P P') (h' : Keeps m' m'' P' P'') :
    Keeps m m'' P P'' :=
  ⟨fun a n e => h'.ext a n (h.ext a n e), fun a e => by rw [h'.byte a (h.ext a 1 e), h.byte a e]⟩

theorem Keeps.inside {m m' : Mem} {P L : Nat} (hw : m.Wf) (hb : (P, L) ∈ m.blocks)
    (e : m'.blocks = m.blocks) (hf : ∀ x, x < P ∨ P + L ≤ x → m'.byte x = m.byte x) : Keeps m m' P P := by
  refine ⟨fun a n h => ?_, fun a h => ?_⟩
  · unfold Mem.ext at *; rw [e]; exact h
  · have := h.outside hw hb
    exact hf a (by omega)

theorem Keeps.word {m m' : Mem} {P P' a : Nat} (h : Keeps m m' P P') (ha : m.ext P a 8) :
    m'.word a = m.word a :=
  Mem.word_congr fun x h1 h2 => h.byte x (ha.sub h1 (by omega))

/-- What the caller provides for an object: the handle at `src` and the bytes of the
attributes `db`.  A null pointer stands for zeros. -/
structure Source (m : Mem) (P src size : Nat) (as : List AttrSpec) (db : AttrSpec → Nat → UInt8) : Prop where
  nz : src ≠ 0
  handle : m.ext P src size
  attrs : ∀ a ∈ as, (m.word (src + a.off) = 0 ∧ ∀ j, j < a.bytes → db a j = 0) ∨
    (m.word (src + a.off) ≠ 0 ∧ m.ext P (m.word (src + a.off)) a.bytes ∧
      ∀ j, j < a.bytes → m.byte (m.word (src + a.off) + j) = db a j)

theorem Source.keeps {m m' : Mem} {P P' src size : Nat} {as : List AttrSpec} {db : AttrSpec → Nat → UInt8}
    (h : Source m P src size as db) (hs : SpecOk size as) (hk : Keeps m m' P P') :
    Source m' P' src size as db := by
  refine ⟨h.nz, hk.ext _ _ h.handle, fun a ha => ?_⟩
  have hw : m'.word (src + a.off) = m.word (src + a.off) :=
    hk.word (h.handle.sub (by omega) (by have := hs.off a ha; omega))
  rw [hw]
  rcases h.attrs a ha with h1 | ⟨h1, h2, h3⟩
  · exact Or.inl h1
  · refine Or.inr ⟨h1, hk.ext _ _ h2, fun j hj => ?_⟩
    rw [hk.byte _ (h2.sub (by omega) (by omega)), h3 j hj]

/-! ## Buffers with a memory pool -/

/-- The flags set by `NS(Buffer_allocate_generic)`. -/
abbrev FLAGS : Nat := 0x1006f

/-- A buffer made by `NS(Buffer_new)` with capacities `c` and content `k`, apart from the
address of the objects index. -/
structure Core (s : St) (c : Caps) (k : Content) : Prop where
  slot : s.buf.slot = 8
  flags : s.buf.flags = FLAGS
  ds : s.buf.datastore ≠ 0
  lay : Layout s.mem s.buf.dataAddr s.buf.dataAddr s.buf.capacity c k
  size : s.buf.dataSize = c.len
  num : s.buf.numObjects = k.recs.length
  pbuf : s.pool.buffer = s.buf.dataAddr
  pbeg : s.pool.beginPos = s.buf.dataAddr
  psize : s.pool.size = s.buf.capacity
  pchunk : s.pool.chunk = 8
  pcap : s.buf.capacity ≤ s.pool.capacity
  pmod : s.pool.capacity % 8 = 0
  cmod : s.buf.capacity % 8 = 0
  lim : s.buf.dataAddr + s.pool.capacity ≤ W / 2
  blk : (s.buf.dataAddr, s.pool.capacity) ∈ s.mem.blocks
  wf : s.mem.Wf

/-- The buffer with the right address of the objects index. -/
structure Good (s : St) (c : Caps) (k : Content) : Prop extends Core s c k where
  objs : s.buf.objectAddr = s.buf.dataAddr + (off c 4 + 16)

theorem Core.source {s : St} {c : Caps} {k : Content} (h : Core s c k) {src size : Nat} {as : List AttrSpec}
    {db : AttrSpec → Nat → UInt8} (hs : SpecOk size as)
    (hsrc : Source s.mem s.buf.dataAddr src size as db) :
    SourceOk s.mem s.buf.dataAddr s.buf.capacity src size as db := by
  have hp := h.pcap
  have hpos := hs.pos
  refine ⟨hsrc.handle.valid, ?_, fun a ha => ?_⟩
  · have := hsrc.handle.outside h.wf h.blk; omega
  · rcases hsrc.attrs a ha with h1 | ⟨h1, h2, h3⟩
    · exact Or.inl h1
    · exact Or.inr ⟨h1, h2.valid, by have := h2.outside h.wf h.blk; omega, h3⟩

/-! ## The pool -/

/-- Number of bytes the pool asks for. -/
theorem initBytes_8 {n : Nat} (h : 8 ≤ n) (hn : n + 16 < W) :
    MemPool.initBytes n 8 8 = (n + 15) / 8 * 8 := by
  simp only [W] at hn
  have e1 : Align.u64 (8 + if 8 < n then n else 8) = n + 8 := by unfold Align.u64; split <;> omega
  simp only [MemPool.initBytes, e1]
  unfold Align.u64
  split <;> omega

/-- `malloc` returns null or a fresh, aligned block in user space. -/
def MallocOk (malloc : Nat → Nat) (m : Mem) : Prop :=
  ∀ n, malloc n = 0 ∨ (malloc n % 8 = 0 ∧ malloc n + n ≤ W / 2 ∧ ∀ b ∈ m.blocks, disjoint (malloc n) n b.1 b.2)

theorem initAligned_8 {malloc : Nat → Nat} {n : Nat} (hn : n + 16 < W) (h8 : 8 ≤ n)
    (h0 : malloc (MemPool.initBytes n 8 8) ≠ 0) (hm : malloc (MemPool.initBytes n 8 8) % 8 = 0) :
    MemPool.initAligned malloc n 8 8 =
      ⟨malloc (MemPool.initBytes n 8 8), malloc (MemPool.initBytes n 8 8), 0, MemPool.initBytes n 8 8, 0, 8⟩ := by
  have e := initBytes_8 h8 hn
  have hlt : MemPool.initBytes n 8 8 < 2 ^ 64 := by rw [e]; simp only [W] at hn; omega
  simp only [MemPool.initAligned]
  rw [if_pos ⟨by omega, by omega⟩, if_pos h0, hm]
  simp only [ne_eq, not_true_eq_false, if_false, Nat.add_zero, Nat.sub_zero, Align.u64]
  rw [Nat.add_mod_right, Nat.mod_eq_of_lt hlt]

theorem remainingBytes_8 {q : Pool} (hc : q.chunk = 8) (hs : q.size ≤ q.capacity) (hl : q.capacity < W) :
    MemPool.remainingBytes q = .ok ((q.capacity - q.size) / 8 * 8) := by
  simp only [MemPool.remainingBytes, Align.u64, hc]
  rw [if_neg (by omega)]
  simp only [W] at hl
  congr 1
  omega

theorem appendAligned_8 {q : Pool} {n : Nat} (hc : q.chunk = 8) (hb : q.beginPos % 8 = 0) (hb0 : q.beginPos ≠ 0)
    (hs : q.size % 8 = 0) (hn : 0 < n) (hf : q.size + (n + 7) / 8 * 8 ≤ q.capacity) (hl : q.capacity < W / 2) :
    MemPool.appendAligned q n 8 =
      .ok ({ q with size := q.size + (n + 7) / 8 * 8 }, ⟨q.beginPos + q.size, q.size, (n + 7) / 8 * 8⟩) := by
  have hcom : Align.common 8 8 = 8 := by
    rw [Align.common, C14_lcm_partial 8 8 (by decide)]; decide
  simp only [W] at hl
  have h1 : MemPool.nextBeginOffset q 8 = .ok q.size := by
    simp only [MemPool.nextBeginOffset, hc, hcom]
    rw [if_neg (by omega)]
    have : (q.beginPos + q.size) % 8 = 0 := by omega
    simp only [this, ne_eq, not_true_eq_false, if_false, false_and]
    rw [if_pos (by omega)]
  simp only [MemPool.appendAligned, h1, Res.ok_bind, hc]
  have e : (if n / 8 * 8 < n then Align.u64 (n / 8 * 8 + 8) else n / 8 * 8) = (n + 7) / 8 * 8 := by
    simp only [Align.u64]; split <;> omega
  rw [if_pos ⟨hb0, hn, by simp only [MemPool.U64MAX]; omega, by omega⟩, e,
    if_pos (by simp only [MemPool.U64MAX]; omega), if_pos (by omega)]
  rfl

/-- The pool gets a new block: the contents are copied, the old block is released. -/
theorem poolReserve_moved {s : St} {c : Caps} {k : Content} (h : Core s c k) {malloc : Nat → Nat} {newCap : Nat}
    (hlt : s.pool.capacity < newCap) (lim : newCap + 16 < W) (hm : MallocOk malloc s.mem)
    (h0 : malloc (MemPool.initBytes newCap 8 8) ≠ 0) :
    ∃ m', poolReserve malloc s.mem s.pool newCap 8 =
        .ok (m', ⟨malloc (MemPool.initBytes newCap 8 8), malloc (MemPool.initBytes newCap 8 8), 0,
          MemPool.initBytes newCap 8 8, s.buf.capacity, 8⟩, true) ∧
      m'.blocks = ((malloc (MemPool.initBytes newCap 8 8), MemPool.initBytes newCap 8 8) ::
        s.mem.blocks).filter (fun b => b.1 ≠ s.buf.dataAddr) ∧
      (∀ x, x < s.buf.capacity → m'.byte (malloc (MemPool.initBytes newCap 8 8) + x) =
        s.mem.byte (s.buf.dataAddr + x)) ∧
      ∀ x, x < malloc (MemPool.initBytes newCap 8 8) ∨
        malloc (MemPool.initBytes newCap 8 8) + MemPool.initBytes newCap 8 8 ≤ x → m'.byte x = s.mem.byte x := by
  have hl := h.lay.head.len_ge
  have hnz := h.lay.head.nzB
  have hp := h.pcap
  have hv := h.lay.head.val
  have hblk := h.blk
  have hN := initBytes_8 (n := newCap) (by omega) lim
  obtain ⟨a1, a2, a3⟩ := (hm (MemPool.initBytes newCap 8 8)).resolve_left h0
  generalize hA : malloc (MemPool.initBytes newCap 8 8) = a at *
  have hd := a3 _ hblk
  unfold disjoint at hd
  dsimp only at hd
  have hw0 : W / 2 < W := by decide
  have hal : s.mem.alloc a (MemPool.initBytes newCap 8 8) =
      .ok { s.mem with blocks := (a, MemPool.initBytes newCap 8 8) :: s.mem.blocks } :=
    if_pos ⟨h0, a1, a2, a3⟩
  let m1 : Mem := { s.mem with blocks := (a, MemPool.initBytes newCap 8 8) :: s.mem.blocks }
  have v1 : m1.valid a s.buf.capacity :=
    Or.inr ⟨(a, MemPool.initBytes newCap 8 8), by simp [m1], Nat.le_refl _, by dsimp only; omega⟩
  have v2 : m1.valid s.buf.dataAddr s.buf.capacity :=
    Or.inr ⟨(s.buf.dataAddr, s.pool.capacity), by simp [m1, hblk], Nat.le_refl _, by dsimp only; omega⟩
  have hcp : copyPool m1 a s.buf.dataAddr s.buf.capacity = .ok (m1.move a s.buf.dataAddr s.buf.capacity) := by
    unfold copyPool
    rw [if_pos (by omega), Mem.memcpy_ok v1 v2 (by omega)]
  have hfr : (m1.move a s.buf.dataAddr s.buf.capacity).free s.buf.dataAddr = .ok
      { m1.move a s.buf.dataAddr s.buf.capacity with
        blocks := (m1.move a s.buf.dataAddr s.buf.capacity).blocks.filter (fun b => b.1 ≠ s.buf.dataAddr) } := by
    unfold Mem.free
    rw [if_neg hnz, if_pos ⟨(s.buf.dataAddr, s.pool.capacity), by simp [m1, hblk], rfl⟩]
  refine ⟨{ m1.move a s.buf.dataAddr s.buf.capacity with
        blocks := (m1.move a s.buf.dataAddr s.buf.capacity).blocks.filter (fun b => b.1 ≠ s.buf.dataAddr) }, ?_,
    by simp only [Mem.move_blocks, m1], fun x hx => ?_, fun x hx => ?_⟩
  rotate_left
  · dsimp only
    rw [Mem.byte_move_in _ (by omega), Nat.add_sub_cancel_left]
  · dsimp only
    rw [Mem.byte_move_out _ (by omega)]
  · unfold poolReserve
    have hbl : (m1.move a s.buf.dataAddr s.buf.capacity).blocks = m1.blocks := by simp
    have hinit := initAligned_8 (malloc := malloc) lim (by omega) (by rw [hA]; exact h0) (by rw [hA]; exact a1)
    rw [hA] at hinit
    simp only [h.pchunk, hinit, h.pbeg, h.psize, h.pbuf]
    rw [if_pos ⟨hlt, by omega⟩, if_pos h0, hal, Res.ok_bind, if_pos hnz]
    change (do
      let m ← copyPool m1 a s.buf.dataAddr s.buf.capacity
      _) = _
    rw [hcp, Res.ok_bind, hfr, Res.ok_bind, if_pos (by omega)]
    rfl

/-- What the memory looks like after the pool has got a new block. -/
theorem moved_blocks {m m' : Mem} {P L a N : Nat} (hw : m.Wf) (hb : (P, L) ∈ m.blocks) (hL : 0 < L) (hN : 0 < N)
    (hd : ∀ b ∈ m.blocks, disjoint a N b.1 b.2)
    (e : m'.blocks = ((a, N) :: m.blocks).filter (fun b => b.1 ≠ P))
    (hf : ∀ x, x < a ∨ a + N ≤ x → m'.byte x = m.byte x) :
    m'.Wf ∧ (a, N) ∈ m'.blocks ∧ Keeps m m' P a ∧
      ∀ x n, P ≤ x → x < P + L → 0 < n → ¬ m'.valid x n := by
  have mem : ∀ b, b ∈ m'.blocks ↔ (b = (a, N) ∨ b ∈ m.blocks) ∧ b.1 ≠ P := by
    intro b; rw [e]; simp
  have hP := hd _ hb
  unfold disjoint at hP
  dsimp only at hP
  refine ⟨fun b h1 d h2 => ?_, (mem _).2 ⟨Or.inl rfl, by dsimp only; omega⟩, ⟨fun x n h => ?_, fun x h => ?_⟩, ?_⟩
  · obtain ⟨h1, -⟩ := (mem b).1 h1
    obtain ⟨h2, -⟩ := (mem d).1 h2
    rcases h1 with rfl | h1 <;> rcases h2 with rfl | h2
    · exact Or.inl rfl
    · exact Or.inr (hd d h2)
    · have := hd b h1
      unfold disjoint at this ⊢
      right; dsimp only at this ⊢; omega
    · exact hw b h1 d h2
  · by_cases hn : n = 0
    · exact Or.inl hn
    · rcases h with h | ⟨b, h1, h2, h3, h4⟩
      · exact Or.inl h
      · have := hd b h1
        unfold disjoint at this
        exact Or.inr ⟨b, (mem b).2 ⟨Or.inr h1, h2⟩, by omega, h3, h4⟩
  · rcases h with h | ⟨b, h1, h2, h3, h4⟩
    · omega
    · have := hd b h1
      unfold disjoint at this
      exact hf x (by omega)
  · rintro x n hx1 hx2 hn (h0 | ⟨b, h1, h2, h3⟩)
    · omega
    · obtain ⟨h1 | h1, h4⟩ := (mem b).1 h1
      · subst h1; dsimp only at h2 h3; omega
      · rcases hw b h1 _ hb with e' | e'
        · rw [e'] at h4; exact h4 rfl
        · unfold disjoint at e'; dsimp only at e'; omega

/-- A content without garbage ranges in which every pointer points before the end of the
used slots. -/
theorem Content.strict_of {k : Content} (hg : k.gs = []) (h : ∀ p ∈ k.ptrs, p.2 < 8 * k.nS) : k.Strict :=
  ⟨h, by simp [hg]⟩

/-! ## Reserving capacity -/

/-- The end of `NS(Buffer_reserve_capacity_generic)`: the missing bytes are appended. -/
theorem append_tail {m : Mem} {B cap P n : Nat} {c : Caps} {k : Content} (lay : Layout m B B cap c k)
    (hcm : cap % 8 = 0) (hpm : P % 8 = 0) (hnP : cap + n ≤ P) (lim : B + P ≤ W / 2)
    (blk : (B, P) ∈ m.blocks) :
    ∃ m', m.memzero (B + cap) ((n + 7) / 8 * 8) = .ok m' ∧ m'.blocks = m.blocks ∧
      Layout m' B B (cap + (n + 7) / 8 * 8) c k ∧ ∀ x, x < B ∨ B + P ≤ x → m'.byte x = m.byte x := by
  have hw0 : W / 2 < W := by decide
  have fit := lay.head.fit
  have hle : cap + (n + 7) / 8 * 8 ≤ P := by omega
  have val : ∀ x l, B ≤ x → x + l ≤ B + P → m.valid x l := fun x l h1 h2 => Or.inr ⟨(B, P), blk, h1, h2⟩
  rw [Mem.memzero_ok (val _ _ (by omega) (by omega))]
  refine ⟨_, rfl, by simp, ?_, fun x hx => Mem.byte_zero_out _ (by omega)⟩
  refine lay.copy lay.head.nzB lay.head.alB (by omega) (by omega) (by omega)
    (by simp only [Mem.zero_valid]; exact val _ _ (by omega) (by omega)) ?_
  intro x hx
  exact Mem.byte_zero_out _ (by omega)

/-- `NS(Buffer_reserve_capacity_generic)`: no memory, success, or - if the block has to be
moved and a pointer points to the end of the used slots - failure after the old block has
been released. -/
theorem bufReserveCapacity_spec {malloc : Nat → Nat} {s : St} {c : Caps} {k : Content} {newCap : Nat}
    (h : Core s c k) (hg : k.gs = []) (hlt : s.buf.capacity < newCap) (lim : newCap + 16 < W)
    (hm : MallocOk malloc s.mem) :
    (s.pool.capacity < newCap ∧ malloc (MemPool.initBytes newCap 8 8) = 0 ∧
      bufReserveCapacity malloc s newCap = .ok (s, -1)) ∨
    (∃ s', bufReserveCapacity malloc s newCap = .ok (s', 0) ∧ Core s' c k ∧ newCap ≤ s'.buf.capacity ∧
      s'.buf.objectAddr = s'.buf.dataAddr + off c 4 ∧
      Keeps s.mem s'.mem s.buf.dataAddr s'.buf.dataAddr ∧ (s.pool.capacity < newCap → k.Strict)) ∨
    (s.pool.capacity < newCap ∧ malloc (MemPool.initBytes newCap 8 8) ≠ 0 ∧ ¬ k.Strict ∧
      ∃ s', bufReserveCapacity malloc s newCap = .ok (s', -1) ∧ s'.buf = s.buf ∧
        ∀ x n, s.buf.dataAddr ≤ x → x < s.buf.dataAddr + s.pool.capacity → 0 < n → ¬ s'.mem.valid x n) := by
  have hl := h.lay.head.len_ge
  have hp := h.pcap
  have hw0 : W / 2 < W := by decide
  have hlimB := h.lim
  have hblk := h.blk
  have hnz := h.lay.head.nzB
  have pm := h.pmod
  have cm := h.cmod
  have hmis : newCap - (if s.buf.capacity ≤ newCap then s.buf.capacity else newCap) = newCap - s.buf.capacity := by
    rw [if_pos (by omega)]
  have cond : s.buf.slot ≠ 0 ∧ s.buf.ownsDatastore = true ∧ s.buf.allowResize = true ∧
      s.buf.capacity < newCap ∧ s.buf.usesMempool = true := by
    refine ⟨by rw [h.slot]; decide, ?_, ?_, hlt, ?_⟩ <;>
      simp only [Buffer.ownsDatastore, Buffer.allowResize, Buffer.usesMempool, Buffer.has, h.flags] <;> decide
  have al := h.lay.head.alB
  by_cases hbig : s.pool.capacity < newCap
  · by_cases h0 : malloc (MemPool.initBytes newCap 8 8) = 0
    · -- no memory
      left
      refine ⟨hbig, h0, ?_⟩
      have hpr : poolReserve malloc s.mem s.pool newCap 8 = .ok (s.mem, s.pool, false) := by
        unfold poolReserve
        have : MemPool.initAligned malloc newCap 8 8 = MemPool.preset := by
          simp only [MemPool.initAligned]
          rw [if_pos ⟨by omega, by omega⟩, if_neg (by simp [h0])]
        simp only [h.pchunk, this, MemPool.preset]
        rw [if_pos ⟨hbig, by omega⟩]
        simp
      simp only [bufReserveCapacity]
      rw [if_pos cond, h.psize, hmis, if_pos (by omega), h.slot, hpr, Res.ok_bind]
      simp only []
      rw [remainingBytes_8 h.pchunk (by rw [h.psize]; exact hp) (by omega), Res.ok_bind, h.psize,
        if_neg (by omega)]
      rfl
    · -- a new block
      obtain ⟨m1, r1, b1, c1, f1⟩ := poolReserve_moved h hbig lim hm h0
      obtain ⟨a1, a2, a3⟩ := (hm (MemPool.initBytes newCap 8 8)).resolve_left h0
      have hN := initBytes_8 (n := newCap) (by omega) lim
      generalize hNe : MemPool.initBytes newCap 8 8 = N at *
      generalize hA : malloc N = a at *
      obtain ⟨wf1, blk1, kp1, fr1⟩ := moved_blocks h.wf hblk (by omega) (by omega : 0 < N) a3 b1 f1
      have fit := h.lay.head.fit
      have lay1 : Layout m1 s.buf.dataAddr a s.buf.capacity c k :=
        h.lay.copy h0 a1 (by omega) (by omega) (by omega)
          (Or.inr ⟨(a, N), blk1, Nat.le_refl _, by dsimp only; omega⟩) (fun x hx => c1 x (by omega))
      have hne : s.buf.dataAddr ≠ a := by
        have := a3 _ hblk
        unfold disjoint at this
        dsimp only at this; omega
      right
      by_cases hs : k.Strict
      rotate_left
      · -- the pointers are refused
        right
        have hbad : ∃ p ∈ k.ptrs, 8 * k.nS ≤ p.2 := by
          by_contra hcon
          refine hs (Content.strict_of hg fun p hp => ?_)
          by_contra hp2
          exact hcon ⟨p, hp, by omega⟩
        obtain ⟨m2, r2, b2, f2⟩ := remap_fail lay1 hg hbad (by omega) hne
        refine ⟨hbig, h0, hs, ⟨m2, s.buf, ⟨a, a, 0, N, s.buf.capacity, 8⟩⟩, ?_, rfl,
          fun x n hx1 hx2 hn hv => fr1 x n hx1 hx2 hn ((Mem.valid_of_blocks b2).1 hv)⟩
        simp only [bufReserveCapacity]
        rw [if_pos cond, h.psize, hmis, if_pos (by omega), h.slot, r1, Res.ok_bind]
        simp only []
        rw [remainingBytes_8 rfl (by dsimp only; omega) (by dsimp only; omega), Res.ok_bind,
          if_pos (by dsimp only; omega)]
        have : remapIf (!(decide (a = s.pool.beginPos) && !true)) m1 a 8 = .ok (m2, false) := by
          simp only [remapIf, Bool.not_true, Bool.and_false, Bool.not_false, if_true]
          exact r2
        rw [this, Res.ok_bind]
        rfl
      left
      obtain ⟨m2, r2, b2, lay2, f2⟩ := remap_ok lay1 hs (by omega)
      have blk2 : (a, N) ∈ m2.blocks := by rw [b2]; exact blk1
      obtain ⟨m3, r3, b3, lay3, f3⟩ := append_tail (n := newCap - s.buf.capacity) lay2 cm (by omega)
        (by omega) a2 blk2
      have wf2 : m2.Wf := by intro b hb d hd; rw [b2] at hb hd; exact wf1 b hb d hd
      have wf3 : m3.Wf := by intro b hb d hd; rw [b3] at hb hd; exact wf2 b hb d hd
      refine ⟨⟨m3, { s.buf with
          objectAddr := a + off c 4
          capacity := s.buf.capacity + (newCap - s.buf.capacity + 7) / 8 * 8
          dataAddr := a }, ⟨a, a, 0, N, s.buf.capacity + (newCap - s.buf.capacity + 7) / 8 * 8, 8⟩⟩, ?_, ?_, ?_,
        rfl, ?_, fun _ => hs⟩
      · simp only [bufReserveCapacity]
        rw [if_pos cond, h.psize, hmis, if_pos (by omega), h.slot, r1, Res.ok_bind]
        simp only []
        rw [remainingBytes_8 rfl (by dsimp only; omega) (by dsimp only; omega), Res.ok_bind,
          if_pos (by dsimp only; omega)]
        have : remapIf (!(decide (a = s.pool.beginPos) && !true)) m1 a 8 = .ok (m2, true) := by
          simp only [remapIf, Bool.not_true, Bool.and_false, Bool.not_false, if_true]
          exact r2
        rw [this, Res.ok_bind]
        simp only [if_true]
        rw [appendAligned_8 rfl (by dsimp only; omega) (by dsimp only; omega) (by dsimp only; omega) (by omega)
          (by dsimp only; omega) (by dsimp only; omega), Res.ok_bind]
        simp only []
        rw [if_pos (by simp only [Alloc.valid]; simp; omega), lay2.head.sectionPtr (by omega) (by omega),
          Res.ok_bind, r3, Res.ok_bind]
        rfl
      · exact ⟨h.slot, h.flags, h.ds, lay3, h.size, h.num, rfl, rfl, rfl, rfl, by dsimp only; omega,
          by dsimp only; omega, by dsimp only; omega, a2, by dsimp only; rw [b3]; exact blk2, wf3⟩
      · dsimp only; omega
      · dsimp only
        have fit2 := lay2.head.fit
        exact kp1.trans ((Keeps.inside wf1 blk1 b2 fun x hx => f2 x (by omega)).trans
          (Keeps.inside wf2 blk2 b3 fun x hx => f3 x (by omega)))
  · -- there is room in the block
    right; left
    have hpr : poolReserve malloc s.mem s.pool newCap 8 = .ok (s.mem, s.pool, false) := by
      unfold poolReserve
      rw [if_neg (by omega)]
    obtain ⟨m3, r3, b3, lay3, f3⟩ := append_tail (n := newCap - s.buf.capacity) h.lay cm pm
      (by omega) hlimB hblk
    refine ⟨⟨m3, { s.buf with
        objectAddr := s.buf.dataAddr + off c 4
        capacity := s.buf.capacity + (newCap - s.buf.capacity + 7) / 8 * 8
        dataAddr := s.pool.beginPos },
        { s.pool with size := s.buf.capacity + (newCap - s.buf.capacity + 7) / 8 * 8 }⟩, ?_, ?_, ?_, ?_, ?_, fun hh => absurd hh hbig⟩
    · simp only [bufReserveCapacity]
      rw [if_pos cond, h.psize, hmis, if_pos (by omega), h.slot, hpr, Res.ok_bind]
      simp only []
      rw [remainingBytes_8 h.pchunk (by rw [h.psize]; exact hp) (by omega), Res.ok_bind, h.psize,
        if_pos (by omega)]
      have : ∀ d : Decidable True, remapIf (!(@decide True d && !false)) s.mem s.pool.beginPos 8 =
          .ok (s.mem, true) := by intro d; simp [remapIf]
      rw [this, Res.ok_bind]
      simp only [if_true]
      rw [appendAligned_8 h.pchunk (by rw [h.pbeg]; exact al) (by rw [h.pbeg]; exact hnz) (by rw [h.psize]; exact cm)
        (by omega) (by rw [h.psize]; omega) (by omega), Res.ok_bind]
      simp only [h.psize, h.pbeg]
      rw [if_pos (by simp only [Alloc.valid]; simp; omega), h.lay.head.sectionPtr (by omega) (by omega),
        Res.ok_bind, r3, Res.ok_bind]
      rfl
    · have e := h.pbeg
      refine ⟨h.slot, h.flags, h.ds, ?_, h.size, h.num, by dsimp only; rw [h.pbuf, e], rfl, rfl, h.pchunk,
        by dsimp only; omega, pm, by dsimp only; omega, by dsimp only; rw [e]; exact hlimB,
        by dsimp only; rw [b3, e]; exact hblk, ?_⟩
      · dsimp only; rw [e]; exact lay3
      · dsimp only; intro b hb d hd; rw [b3] at hb hd; exact h.wf b hb d hd
    · dsimp only; omega
    · dsimp only; rw [h.pbeg]
    · dsimp only; rw [h.pbeg]
      exact Keeps.inside h.wf hblk b3 f3

/-! ## Reserving numbers of entries -/

/-- In-place reserving in a buffer. -/
theorem Core.reserve {s : St} {c c' : Caps} {k : Content} (h : Core s c k) (hn : k.counts.Le c')
    (hc' : c'.len ≤ s.buf.capacity) (hg : ¬ StuckG c k.counts c') (hd : ¬ StuckD c k.counts c') :
    ∃ m', reserve s.mem s.buf.dataAddr c' s.buf.capacity 8 = .ok (m', 0, c'.len) ∧
      Good { s with
        mem := m'
        buf := { s.buf with
          dataSize := c'.len, objectAddr := s.buf.dataAddr + off c' 4 + 16, numObjects := k.recs.length } } c' k ∧
      Keeps s.mem m' s.buf.dataAddr s.buf.dataAddr := by
  obtain ⟨m', r, b, lay, f⟩ := reserve_ok h.lay (Nat.le_refl _) h.lay.head.fit hc' hn hg hd
  have hp := h.pcap
  refine ⟨m', r, ⟨⟨h.slot, h.flags, h.ds, lay, rfl, rfl, h.pbuf, h.pbeg, h.psize, h.pchunk, h.pcap, h.pmod, h.cmod,
    h.lim, by dsimp only; rw [b]; exact h.blk, ?_⟩, ?_⟩, Keeps.inside h.wf h.blk b fun x hx => f x (by omega)⟩
  · dsimp only; intro x hx d hd; rw [b] at hx hd; exact h.wf x hx d hd
  · dsimp only; omega

/-- The in-place reserve is refused, and the buffer structure is unchanged. -/
theorem Core.reserve_fails {s : St} {c c' : Caps} {k : Content} (h : Core s c k) (hw : c'.len < W)
    (hr : ¬ (k.counts.Le c' ∧ c'.len ≤ s.buf.capacity ∧ ¬ StuckG c k.counts c' ∧ ¬ StuckD c k.counts c')) :
    ∃ m' l, Buf.reserve s.mem s.buf.dataAddr c' s.buf.capacity 8 = .ok (m', -1, l) := by
  have fit := h.lay.head.fit
  by_cases hn : k.counts.Le c'
  · by_cases hl : c'.len ≤ s.buf.capacity
    · by_cases hg : StuckG c k.counts c'
      · exact ⟨_, _, reserve_stuckG h.lay.head (Nat.le_refl _) fit hl hn hg⟩
      · have hd : StuckD c k.counts c' := by
          by_contra hd; exact hr ⟨hn, hl, hg, hd⟩
        obtain ⟨m', r, -⟩ := reserve_stuckD h.lay.head (Nat.le_refl _) fit hl hn hg hd
        exact ⟨m', _, r⟩
    · exact ⟨_, _, reserve_too_long h.lay.head fit (by omega) hw hn⟩
  · exact ⟨_, _, reserve_refused h.lay.head fun hh => hn hh.2⟩

theorem Core.modify {s : St} {c : Caps} {k : Content} (h : Core s c k) :
    (s.buf.usesDatastore && s.buf.allowModify) = true := by
  have h1 := h.ds
  simp only [Buffer.usesDatastore, Buffer.hasDatastore, Buffer.allowModify, Buffer.allowClear, Buffer.allowAppend,
    Buffer.allowDelete, Buffer.has, h.flags]
  simp [h1, FLAGS]

/-- `NS(Buffer_reserve_generic)` on a buffer: what is left to do after the capacity is known. -/
theorem bufReserve_run {malloc : Nat → Nat} {s : St} {c c' : Caps} {k : Content} (h : Core s c k) (hne : c' ≠ c)
    (hw : c'.len < W) :
    bufReserve malloc s c' = (do
      let (s, rc) ← growTo malloc s c'.len
      if rc = 0 ∧ c'.len ≤ s.buf.capacity then do
        let (m, rc, len) ← Buf.reserve s.mem s.buf.dataAddr c' s.buf.capacity 8
        if rc = 0 then do
          let o ← sectionData m s.buf.dataAddr 4 8
          let n ← numEntities m s.buf.dataAddr 4 8
          return ({ s with
            mem := m
            buf := { s.buf with dataSize := len, objectAddr := o, numObjects := n } }, 0)
        else return ({ s with mem := m }, rc)
      else return (s, rc)) := by
  have hh := h.lay.head
  simp only [bufReserve, h.slot, h.modify, if_true]
  rw [hh.maxNumEntities (by omega) (by omega), Res.ok_bind, hh.maxNumEntities (by omega) (by omega), Res.ok_bind,
    hh.maxNumEntities (by omega) (by omega), Res.ok_bind, hh.maxNumEntities (by omega) (by omega), Res.ok_bind]
  simp only [cnt]
  have : c'.objs ≠ c.objs ∨ c'.slots ≠ c.slots ∨ c'.dataptrs ≠ c.dataptrs ∨ c'.garbage ≠ c.garbage := by
    by_contra hcon
    apply hne
    cases c; cases c'
    simp only [Caps.mk.injEq]
    simp only [not_or, ne_eq, not_not] at hcon
    exact hcon
  rw [if_pos this, calcBufferLength_8 hh, fits_ok hw, Res.ok_bind]

end SixTrack.Buf
