import Verif.Buffer.Objects

/-!
# Particular reachable buffers

Used to show that the hypotheses of the theorems can be met, and for the
counterexamples.
-/

namespace SixTrack.Buf

open MemPool (Pool Alloc)

/-- A `malloc` that has one block to give. -/
def oneBlock (n : Nat) : Nat := if n ≤ 2 ^ 20 then 2 ^ 20 else 0

/-- A buffer which has been reset to capacities `c`, in a memory in which the client has a
block of 4096 bytes at address 2^30. -/
theorem start {m : Mem} (hb : m.blocks = [(2 ^ 30, 4096)]) (c : Caps) (hc : c.len ≤ 2 ^ 16) :
    ∃ s, Reach s [] ∧ Good s c Content.empty ∧ s.buf.dataAddr = 2 ^ 20 ∧ s.pool.capacity = 2 ^ 16 + 8 ∧
      s.mem.blocks = [(2 ^ 20, 2 ^ 16 + 8), (2 ^ 30, 4096)] ∧ 2 ^ 16 ≤ s.buf.capacity ∧
      ∀ x, 2 ^ 30 ≤ x → x < 2 ^ 30 + 4096 → s.mem.byte x = m.byte x := by
  have hW : W = 2 ^ 64 := rfl
  have hW2 : W / 2 = 2 ^ 63 := by decide
  have hw : m.Wf := by
    intro x hx y hy
    rw [hb, List.mem_singleton] at hx hy
    left; rw [hx, hy]
  have hm : MallocOk oneBlock m := by
    intro n
    unfold oneBlock
    by_cases hn : n ≤ 2 ^ 20
    · right
      rw [if_pos hn]
      refine ⟨by omega, by omega, fun b hb' => ?_⟩
      rw [hb, List.mem_singleton] at hb'
      subst hb'
      left; omega
    · left; rw [if_neg hn]
  have hN : MemPool.initBytes (newRequ (2 ^ 16)) 8 8 = 2 ^ 16 + 8 := by
    rw [show newRequ (2 ^ 16) = 2 ^ 16 from rfl, initBytes_8 (by omega) (by omega)]
    norm_num
  rcases newBuffer_spec (ds := 8) (cap := 2 ^ 16) hw (by omega) (by omega) hm with
    ⟨h0, -⟩ | ⟨-, m', b, q, r, g, h1, -, kp, hbl, hqb, hqc⟩
  · rw [hN] at h0; exact absurd h0 (by decide)
  rw [hN] at hqb hqc
  have hB : b.dataAddr = 2 ^ 20 := by
    have := g.pbuf
    dsimp only at this
    rw [← this, hqb]; rfl
  have r0 : Reach ⟨m', b, q⟩ [] := Reach.new hw (by omega) (by omega) hm r
  obtain ⟨s, rs, gs, ps, ds, cs, bs, ks⟩ := bufReset_ok (c' := c) g.toCore (by dsimp only; omega)
  dsimp only at ds cs bs ks ps
  refine ⟨s, Reach.reset r0 rs, gs, by rw [ds, hB], by rw [ps, hqc], by rw [bs, hbl, hb, hB, hqc], by omega,
    fun x h2 h3 => ?_⟩
  have e1 : m.ext 0 x 1 := Or.inr ⟨(2 ^ 30, 4096), by rw [hb]; simp, by simp, h2, by dsimp only; omega⟩
  rw [ks.byte x (kp.ext x 1 e1), kp.byte x e1]

/-- `malloc` without memory. -/
def noMem : Nat → Nat := fun _ => 0

theorem noMem_ok (m : Mem) : MallocOk noMem m := fun _ => Or.inl rfl

/-- Adding to a buffer with room. -/
theorem Reach.add_room {s : St} {os : List Obj} {c : Caps} {k : Content} (h : Reach s os) (g : Good s c k)
    (rep : Represents k os) {src : Nat} {o : Obj} (ho : o.Ok) (hg : Given s src o) (room : k.room c o.size o.attrs)
    {malloc : Nat → Nat} (hm : MallocOk malloc s.mem) :
    ∃ s' r data, addObject malloc s src o.size o.typeId o.attrs = .ok (s', r) ∧ r ≠ 0 ∧ Reach s' (os ++ [o]) ∧
      Good s' c (k.add o.typeId o.size o.attrs data) ∧
      Represents (k.add o.typeId o.size o.attrs data) (os ++ [o]) ∧
      s'.buf.dataAddr = s.buf.dataAddr ∧ s'.buf.capacity = s.buf.capacity ∧ s'.pool = s.pool ∧
      s'.mem.blocks = s.mem.blocks ∧ Keeps s.mem s'.mem s.buf.dataAddr s'.buf.dataAddr := by
  rcases addObject_spec g rep.gs ho.spec (hg.source g.toCore) ho.typ (g.need_lim ho) hm with
    ⟨s', c', data, e, g', k', d1, d2, hr, -⟩ | ⟨s', e, hn, -⟩
  · obtain ⟨rfl, h2, h3, h4, h5⟩ := hr room
    have hnz := g'.lay.head.nzB
    refine ⟨s', _, data, e, by omega, Reach.add h hm ho hg e (by omega), g',
      rep.add g.lay.ok ho (fun j hj hp => ?_) d2, h2, h3, h4, h5, k'⟩
    rw [d1 j hj hp, hg.bytes j hj hp]
  · exact absurd room hn

/-- The first `n` bytes of the client's block as an object without attributes. -/
def plainObj (m : Mem) (n : Nat) : Obj := ⟨7, n, [], fun j => m.byte (2 ^ 30 + j), fun _ _ => 0⟩

theorem plainObj_ok {m : Mem} {n : Nat} (h0 : 0 < n) (hn : n ≤ 4096) : (plainObj m n).Ok :=
  ⟨h0, by simp [plainObj], by simp [plainObj], (by decide : 7 < W), by simp [plainObj, Obj.total]; omega⟩

theorem plainObj_given {m : Mem} {s : St} {n : Nat} (hn : n ≤ 4096) (h0 : 0 < n)
    (hb : (2 ^ 30, 4096) ∈ s.mem.blocks) (hp : s.pool.buffer ≠ 2 ^ 30)
    (hf : ∀ x, 2 ^ 30 ≤ x → x < 2 ^ 30 + 4096 → s.mem.byte x = m.byte x) :
    Given s (2 ^ 30) (plainObj m n) := by
  refine ⟨by omega, Or.inr ⟨_, hb, Ne.symm hp, Nat.le_refl _, ?_⟩, fun j hj _ => ?_, by simp [plainObj]⟩
  · simp only [plainObj]; omega
  · have hj' : j < n := hj
    exact hf _ (by omega) (by omega)

/-- An object of two words, the second of which is a pointer to `n` 64-bit numbers, which are
stored 64 bytes further on. -/
def arrayObj (m : Mem) (n : Nat) : Obj :=
  ⟨9, 16, [⟨8, 8, n⟩], fun j => m.byte (2 ^ 30 + j), fun _ j => m.byte (2 ^ 30 + 64 + j)⟩

theorem arrayObj_ok {m : Mem} {n : Nat} (hn : n ≤ 100) : (arrayObj m n).Ok :=
  ⟨by simp [arrayObj], by simp [arrayObj], by simp [arrayObj], (by decide : 9 < W),
    by simp [arrayObj, Obj.total]; omega⟩

theorem arrayObj_given {m : Mem} {s : St} {n : Nat} (hn : n ≤ 100)
    (hb : (2 ^ 30, 4096) ∈ s.mem.blocks) (hp : s.pool.buffer ≠ 2 ^ 30)
    (hf : ∀ x, 2 ^ 30 ≤ x → x < 2 ^ 30 + 4096 → s.mem.byte x = m.byte x)
    (hw : m.word (2 ^ 30 + 8) = 2 ^ 30 + 64) :
    Given s (2 ^ 30) (arrayObj m n) := by
  have hw' : s.mem.word (2 ^ 30 + 8) = 2 ^ 30 + 64 := by
    rw [← hw]
    exact Mem.word_congr fun x h1 h2 => hf x (by omega) (by omega)
  refine ⟨by omega, Or.inr ⟨_, hb, Ne.symm hp, Nat.le_refl _, ?_⟩, fun j hj _ => ?_, fun a ha => Or.inr ?_⟩
  · simp only [arrayObj]; omega
  · have hj' : j < 16 := hj
    exact hf _ (by omega) (by omega)
  · simp only [arrayObj, List.mem_singleton] at ha
    subst ha
    dsimp only
    rw [hw']
    refine ⟨by omega, Or.inr ⟨_, hb, Ne.symm hp, by dsimp only; omega, by dsimp only; omega⟩, fun j hj => ?_⟩
    exact hf _ (by omega) (by omega)

/-- A memory with a client's block which holds the handle of `arrayObj`. -/
def clientMem : Mem := Mem.put ⟨[(2 ^ 30, 4096)], fun x => UInt8.ofNat x⟩ (2 ^ 30 + 8) (2 ^ 30 + 64)

theorem clientMem_blocks : clientMem.blocks = [(2 ^ 30, 4096)] := by simp [clientMem]

theorem clientMem_word : clientMem.word (2 ^ 30 + 8) = 2 ^ 30 + 64 :=
  Mem.word_put_same _ _ _ (by decide)

/-- A buffer with two objects: one without attributes and one with an array of `n` numbers. -/
theorem two_objects (n : Nat) (hn : n ≤ 100) : ∃ s c k, Reach s [plainObj clientMem 8, arrayObj clientMem n] ∧
    Good s c k ∧ Represents k [plainObj clientMem 8, arrayObj clientMem n] ∧
    s.buf.dataAddr = 2 ^ 20 ∧ s.pool.capacity = 2 ^ 16 + 8 ∧
    s.mem.blocks = [(2 ^ 20, 2 ^ 16 + 8), (2 ^ 30, 4096)] ∧
    s.buf.capacity ≤ 2 ^ 16 + 8 ∧ c = ⟨2, 200, 1, 0⟩ ∧ k.nS = 3 + n ∧ k.ptrs.length = 1 := by
  obtain ⟨s0, r0, g0, b0, p0, bl0, c0, f0⟩ := start clientMem_blocks ⟨2, 200, 1, 0⟩ (by decide)
  have hpb0 : s0.pool.buffer ≠ 2 ^ 30 := by rw [g0.pbuf, b0]; decide
  have room0 : Content.empty.room ⟨2, 200, 1, 0⟩ 8 [] := by
    refine ⟨?_, ?_, ?_⟩ <;> decide
  obtain ⟨s1, a1, d1, e1, n1, r1, g1, rep1, ba1, ca1, pa1, bl1, k1⟩ := r0.add_room g0 Represents.empty
    (plainObj_ok (m := clientMem) (n := 8) (by omega) (by omega))
    (plainObj_given (m := clientMem) (by omega) (by omega) (by rw [bl0]; simp) hpb0 f0) room0 (noMem_ok _)
  have ok2 : (arrayObj clientMem n).Ok := arrayObj_ok hn
  have f1 : ∀ x, 2 ^ 30 ≤ x → x < 2 ^ 30 + 4096 → s1.mem.byte x = clientMem.byte x := by
    intro x h1 h2
    rw [k1.byte x (Or.inr ⟨(2 ^ 30, 4096), by rw [bl0]; simp, by rw [b0]; decide, h1, by dsimp only; omega⟩), f0 x h1 h2]
  have hs1 : objSlots 8 [] = 1 := by decide
  have hs2 := ok2.slots
  simp only [arrayObj, Obj.total, List.map_cons, List.map_nil, List.sum_cons, List.sum_nil] at hs2
  have room1 : (Content.empty.add (plainObj clientMem 8).typeId (plainObj clientMem 8).size
      (plainObj clientMem 8).attrs d1).room ⟨2, 200, 1, 0⟩ (arrayObj clientMem n).size (arrayObj clientMem n).attrs := by
    refine ⟨by simp [Content.add, Content.empty], ?_, by simp [Content.add, Content.empty, plainObj, arrayObj, newPtrs]⟩
    simp only [Content.add, Content.empty, plainObj, arrayObj, hs1]
    omega
  obtain ⟨s2, a2, d2, e2, n2, r2, g2, rep2, ba2, ca2, pa2, bl2, k2⟩ := r1.add_room g1 rep1 ok2
    (arrayObj_given (m := clientMem) hn (by rw [bl1, bl0]; simp) (by rw [pa1]; exact hpb0) f1 clientMem_word) room1
    (noMem_ok _)
  refine ⟨s2, _, _, r2, g2, rep2, by rw [ba2, ba1, b0], by rw [pa2, pa1, p0], by rw [bl2, bl1, bl0], ?_, rfl, ?_, ?_⟩
  · have := g2.pcap
    rw [pa2, pa1, p0] at this
    exact this
  · simp only [Content.add, Content.empty, plainObj, arrayObj, hs1]
    omega
  · simp [Content.add, Content.empty, plainObj, arrayObj, newPtrs]

/-- A `malloc` that has one block to give, at another address. -/
def farBlock (n : Nat) : Nat := if n ≤ 2 ^ 20 then 2 ^ 40 else 0

theorem farBlock_ok {m : Mem} {L : Nat} (hb : m.blocks = [(2 ^ 20, 2 ^ 16 + 8), (2 ^ 30, L)])
    (hL : L ≤ 2 ^ 39 := by omega) :
    MallocOk farBlock m := by
  have hW2 : W / 2 = 2 ^ 63 := by decide
  intro n
  unfold farBlock
  by_cases hn : n ≤ 2 ^ 20
  · right
    rw [if_pos hn]
    refine ⟨by omega, by omega, fun b hb' => ?_⟩
    rw [hb] at hb'
    simp only [List.mem_cons, List.not_mem_nil, or_false] at hb'
    rcases hb' with rfl | rfl <;> right <;> dsimp only <;> omega
  · left; rw [if_neg hn]

end SixTrack.Buf
