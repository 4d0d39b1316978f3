import Verif.Props.BufferMove
import Verif.Buffer.DataLemmas

/-!
# Properties C51-C55: files, buffers of given capacities, buffers on existing data
-/

namespace SixTrack
open Buf
open MemPool (Pool)

/-! ## C51 -/

/-- **C51** (writing). The file of a reachable buffer has all bytes of its managed buffer and nothing else. -/
theorem C51_write {s : St} {os : List Obj} (h : Reach s os) :
    ∃ file, writeToFp s = .ok (some file) ∧ file.length = s.buf.dataSize ∧ Written s file s.buf.dataAddr ∧
      ∀ i, i < file.length → file[i]? = some (s.mem.byte (s.buf.dataAddr + i)) := by
  obtain ⟨c, k, g, rep⟩ := h.good
  have hh := g.lay.head
  have fit := hh.fit
  have hL : c.len = 128 + 8 * c.slots + 24 * c.objs + 8 * c.dataptrs + 16 * c.garbage := rfl
  have hv : s.mem.valid s.buf.dataAddr s.buf.dataSize := by
    rw [g.size]; exact Mem.valid_sub hh.val (Nat.le_refl _) (by omega)
  have e : writeToFp s = .ok (some (s.mem.bytes s.buf.dataAddr s.buf.dataSize)) := by
    unfold writeToFp
    rw [if_pos ⟨hh.nzB, by rw [g.size]; omega⟩, if_pos hv]
  have hl : (s.mem.bytes s.buf.dataAddr s.buf.dataSize).length = s.buf.dataSize := by simp [Mem.bytes]
  exact ⟨_, e, hl, Or.inl ⟨e, rfl⟩, fun i hi => bytes_getElem? _ _ _ _ (by omega)⟩

/-- **C51** (partial: the last attribute of the last object must not be empty, and the new buffer must not
happen to be at the base address that is stored in the file). Reading a file that was written from a
reachable buffer, plainly or with a normalised base address, into whatever memory, fails only if there is
no memory, and gives a buffer with the same objects. -/
theorem C51_new_from_file_partial {malloc : Nat → Nat} {s : St} {os : List Obj} {m : Mem} {ds A : Nat}
    {file : List UInt8} (h : Reach s os) (hne : ¬ EndsEmpty os) (hf : Written s file A) (hw : m.Wf) (hds : ds ≠ 0)
    (hm : MallocOk malloc m) :
    ∃ m' r, newFromFile malloc m ds file = .ok (m', r) ∧
      (r = none → malloc (MemPool.initBytes file.length 8 8) = 0) ∧
      ∀ b q, r = some (b, q) → b.dataAddr ≠ A → Holds ⟨m', b, q⟩ os ∧ b.dataSize = file.length := by
  obtain ⟨c, k, g, rep⟩ := h.good
  have hi := hf.image g rep.gs
  rcases newFromFile_spec hw hds hm hi rep.gs with ⟨h0, e⟩ | ⟨-, -, -, m1, b1, q1, e, g1, -⟩ | ⟨-, -, hs, -⟩ |
    ⟨-, m1, b1, q1, e, -, h1, -⟩
  · exact ⟨_, _, e, fun _ => h0, fun _ _ h => by simp at h⟩
  · refine ⟨_, _, e, fun h => by simp at h, fun b q h _ => ?_⟩
    simp only [Option.some.injEq, Prod.mk.injEq] at h
    obtain ⟨rfl, rfl⟩ := h
    exact ⟨g1.holds rep, by rw [hi.len]; exact g1.size⟩
  · exact absurd (rep.strict.2 hne) hs
  · refine ⟨_, _, e, fun h => by simp at h, fun b q h hA => ?_⟩
    simp only [Option.some.injEq, Prod.mk.injEq] at h
    obtain ⟨rfl, rfl⟩ := h
    exact absurd h1 hA

/-- **C51 is violated** if `malloc` returns the address that is stored in the file, for example if the
buffer was deleted and is read again in the same process: `NS(Buffer_remap)` then returns without refreshing
the structure, and the buffer says that it has no objects and is as long as an empty buffer. -/
theorem C51_same_address_violated {malloc : Nat → Nat} {s : St} {os : List Obj} {m : Mem} {ds A : Nat}
    {file : List UInt8} (h : Reach s os) (h0 : os ≠ []) (hf : Written s file A) (hw : m.Wf) (hds : ds ≠ 0)
    (hm : MallocOk malloc m) (hA : malloc (MemPool.initBytes file.length 8 8) = A) :
    ∃ m' b q, newFromFile malloc m ds file = .ok (m', some (b, q)) ∧ b.dataAddr = A ∧ b.numObjects = 0 ∧
      b.dataSize = 128 ∧ numEntities m' A 4 8 = .ok os.length ∧ ¬ Holds ⟨m', b, q⟩ os := by
  obtain ⟨c, k, g, rep⟩ := h.good
  have hi := hf.image g rep.gs
  rcases newFromFile_spec hw hds hm hi rep.gs with ⟨h1, -⟩ | ⟨-, h1, -⟩ | ⟨-, h1, -⟩ |
    ⟨-, m1, b1, q1, e, lay, h1, -, h2, h3⟩
  · exact absurd (hA.symm.trans h1) hi.nz
  · exact absurd hA h1
  · exact absurd hA h1
  · refine ⟨m1, b1, q1, e, h1, h2, h3, ?_, fun hh => ?_⟩
    · rw [lay.head.numEntities (id := 4) (by omega) (by omega), ← rep.len]
      rfl
    · have := hh.cached
      dsimp only at this
      rw [h2] at this
      exact h0 (List.length_eq_zero_iff.1 this.symm)

/-- **C51 is violated** likewise by files whose last attribute is empty: they can be written but not read. -/
theorem C51_empty_end_violated {malloc : Nat → Nat} {s : St} {os : List Obj} {m : Mem} {ds A : Nat}
    {file : List UInt8} (h : Reach s os) (he : EndsEmpty os) (hf : Written s file A) (hw : m.Wf) (hds : ds ≠ 0)
    (hm : MallocOk malloc m) (hA : malloc (MemPool.initBytes file.length 8 8) ≠ A) :
    ∃ m', newFromFile malloc m ds file = .ok (m', none) := by
  obtain ⟨c, k, g, rep⟩ := h.good
  have hi := hf.image g rep.gs
  rcases newFromFile_spec hw hds hm hi rep.gs with ⟨-, e⟩ | ⟨-, -, hs, -⟩ | ⟨-, -, -, m1, e⟩ | ⟨h1, -⟩
  · exact ⟨_, e⟩
  · exact absurd he (rep.strict.1 hs)
  · exact ⟨_, e⟩
  · exact absurd h1 hA

theorem Buf.clientMem_wf : clientMem.Wf := by
  intro x hx y hy
  rw [clientMem_blocks, List.mem_singleton] at hx hy
  left; rw [hx, hy]

theorem Buf.oneBlock_ok : MallocOk oneBlock clientMem := by
  have hW2 : W / 2 = 2 ^ 63 := by decide
  intro n
  unfold oneBlock
  by_cases hn : n ≤ 2 ^ 20
  · right
    rw [if_pos hn]
    refine ⟨by omega, by omega, fun b hb' => ?_⟩
    rw [clientMem_blocks, List.mem_singleton] at hb'
    subst hb'
    left; omega
  · left; rw [if_neg hn]

/-- The file of a buffer with two objects. -/
theorem Buf.two_objects_file (n : Nat) (hn : n ≤ 100) : ∃ s file, Reach s [plainObj clientMem 8, arrayObj clientMem n] ∧
    Written s file (2 ^ 20) ∧ s.buf.dataAddr = 2 ^ 20 ∧ file.length = 1784 ∧
    oneBlock (MemPool.initBytes file.length 8 8) = 2 ^ 20 := by
  obtain ⟨s, c, k, h, g, rep, hB, -, -, -, hc, -⟩ := two_objects n hn
  obtain ⟨file, -, hl, hw, -⟩ := C51_write h
  rw [g.size, hc] at hl
  rw [hB] at hw
  have hl : file.length = 1784 := hl
  have : (1784 : Nat) + 16 < W := by decide
  refine ⟨s, file, h, hw, hB, hl, ?_⟩
  rw [hl, initBytes_8 (by omega) this]
  decide

/-- The hypotheses can be met: the same memory and the same address for the violations, -/
example (n : Nat) (hn : n ≤ 100) : ∃ s file A, Reach s [plainObj clientMem 8, arrayObj clientMem n] ∧ Written s file A ∧
    clientMem.Wf ∧ MallocOk oneBlock clientMem ∧ oneBlock (MemPool.initBytes file.length 8 8) = A := by
  obtain ⟨s, file, h, hw, -, -, h1⟩ := two_objects_file n hn
  exact ⟨s, file, _, h, hw, clientMem_wf, oneBlock_ok, h1⟩

/-- and a normalised address in the file for the round trip. -/
example : ∃ s file m' b q, Reach s [plainObj clientMem 8, arrayObj clientMem 5] ∧
    ¬ EndsEmpty [plainObj clientMem 8, arrayObj clientMem 5] ∧ Written s file (2 ^ 12) ∧ MallocOk oneBlock clientMem ∧
    newFromFile oneBlock clientMem 8 file = .ok (m', some (b, q)) ∧ b.dataAddr ≠ 2 ^ 12 := by
  obtain ⟨s, c, k, h, g, rep, hB, hp, hb, hcap, hc, -⟩ := two_objects 5 (by omega)
  have hne : ¬ EndsEmpty [plainObj clientMem 8, arrayObj clientMem 5] := by rw [endsEmpty_two]; omega
  have hW2 : W / 2 = 2 ^ 63 := by decide
  have hlim : 2 ^ 12 + s.buf.capacity ≤ W / 2 := by omega
  obtain ⟨s', file, e, hi⟩ := writeNormalized_image g rep.gs (rep.strict.2 hne) (N := 2 ^ 12) (by omega) hlim
  have hl : file.length = 1784 := by rw [hi.len, hc]; rfl
  have h1 : oneBlock (MemPool.initBytes file.length 8 8) = 2 ^ 20 := by
    have : (1784 : Nat) + 16 < W := by decide
    rw [hl, initBytes_8 (by omega) this]
    decide
  rcases newFromFile_spec (ds := 8) clientMem_wf (by omega) oneBlock_ok hi rep.gs with ⟨h0, -⟩ | ⟨-, h2, -, m1, b1, q1, e1, -, h3, -⟩ |
    ⟨-, -, hs, -⟩ | ⟨h0, -⟩
  · rw [h1] at h0; omega
  · exact ⟨s, file, m1, b1, q1, h, hne, Or.inr ⟨by omega, hlim, s', e⟩, oneBlock_ok, e1, by rw [h3]; exact h2⟩
  · exact absurd (rep.strict.2 hne) hs
  · rw [h1] at h0; omega

/-! ## C52 -/

/-- **C52** (contents; partial in the same way as C51, and the objects that the buffer had must not end with
an empty attribute if the buffer has to be moved). Reading a file into a buffer replaces its objects by those
of the file, unless there is no memory, when nothing is done. The value that is returned is `false` in both
cases, see `C52_return_violated`. -/
theorem C52_read_partial {malloc : Nat → Nat} {s t : St} {os ot : List Obj} {A : Nat} {file : List UInt8} (h : Reach s os)
    (hne : ¬ EndsEmpty os) (hf : Written s file A) (ht : Reach t ot) (hne' : ¬ EndsEmpty ot) (hm : MallocOk malloc t.mem) :
    ∃ t', readFromFile malloc t file = .ok (t', false) ∧
      (t'.buf.dataAddr ≠ A → Holds t' os ∧ Keeps t.mem t'.mem t.buf.dataAddr t'.buf.dataAddr ∨
        t' = t ∧ t.buf.capacity < file.length ∧ malloc (MemPool.initBytes file.length 8 8) = 0) := by
  obtain ⟨c, k, g, rep⟩ := h.good
  obtain ⟨c0, k0, g0, rep0⟩ := ht.good
  have hi := hf.image g rep.gs
  have low := hi.low
  have hlen := hi.len
  have hL : c.len = 128 + 8 * c.slots + 24 * c.objs + 8 * c.dataptrs + 16 * c.garbage := rfl
  have hw0 : W / 2 + 1000 < W := by decide
  rcases roomFor_spec (len := file.length) g0.toCore rep0.gs (by omega) hm with ⟨t1, e, h1, h2, hk, -⟩ | ⟨-, h0, e, h1⟩ |
    ⟨-, hs, -⟩
  · rcases readFromFile_run g0.toCore hi rep.gs h1 e h2 with ⟨-, -, t2, e2, g2, d2, -, -, k2⟩ | ⟨-, hs, -⟩ |
      ⟨h3, m', e2, -⟩
    · refine ⟨t2, e2, fun _ => Or.inl ⟨g2.holds rep, ?_⟩⟩
      rw [d2]; exact hk.trans k2
    · exact absurd (rep.strict.2 hne) hs
    · exact ⟨_, e2, fun h => absurd h3 h⟩
  · refine ⟨t, ?_, fun _ => Or.inr ⟨rfl, h1, h0⟩⟩
    unfold readFromFile
    rw [if_pos g0.toCore.readable, if_pos (by omega : 0 < file.length), e, Res.ok_bind]
    dsimp only
    rw [if_neg (by omega)]
    rfl
  · exact absurd (rep0.strict.2 hne') hs

/-- **C52 is violated**: the value that `NS(Buffer_read_from_file)` returns is the wrong way round. The codes 0
for success and -1 for failure are assigned to a `bool`: where the file is read, `false` is returned, and where
remapping fails - the structure then describes what the buffer held before, of which the bytes have been
overwritten - `true` is returned. -/
theorem C52_return_violated {malloc : Nat → Nat} {s t : St} {os ot : List Obj} {A : Nat} {file : List UInt8} (h : Reach s os)
    (hf : Written s file A) (ht : Reach t ot) (hm : MallocOk malloc t.mem) (hl : file.length ≤ t.buf.capacity)
    (hA : t.buf.dataAddr ≠ A) :
    (¬ EndsEmpty os → ∃ t', readFromFile malloc t file = .ok (t', false) ∧ Holds t' os) ∧
    (EndsEmpty os → ∃ t', readFromFile malloc t file = .ok (t', true) ∧ t'.buf = t.buf) := by
  obtain ⟨c, k, g, rep⟩ := h.good
  obtain ⟨c0, k0, g0, rep0⟩ := ht.good
  have hi := hf.image g rep.gs
  have low := hi.low
  have hlen := hi.len
  have hL : c.len = 128 + 8 * c.slots + 24 * c.objs + 8 * c.dataptrs + 16 * c.garbage := rfl
  have hw0 : W / 2 + 1000 < W := by decide
  rcases roomFor_spec (len := file.length) g0.toCore rep0.gs (by omega) hm with ⟨t1, e, h1, h2, hk, h3⟩ | ⟨-, h0, e, h1⟩ |
    ⟨-, -, -, -, -, h1⟩
  · obtain rfl := h3 hl
    rcases readFromFile_run g0.toCore hi rep.gs h1 e h2 with ⟨-, hs, t2, e2, g2, -⟩ | ⟨-, hs, m', e2⟩ | ⟨h3, -⟩
    · exact ⟨fun _ => ⟨t2, e2, g2.holds rep⟩, fun he => absurd he (rep.strict.1 hs)⟩
    · exact ⟨fun hne => absurd (rep.strict.2 hne) hs, fun _ => ⟨_, e2, rfl⟩⟩
    · exact absurd h3 hA
  · omega
  · omega

/-- The hypotheses can be met: a new, empty buffer reads the file. -/
theorem Buf.reader : ∃ t, Reach t [] ∧ MallocOk noMem t.mem ∧ 1784 ≤ t.buf.capacity ∧ t.buf.dataAddr = 2 ^ 40 ∧
    ¬ EndsEmpty [] ∧ t.mem.blocks = [(2 ^ 40, t.pool.capacity), (2 ^ 30, 4096)] := by
  have hm : MallocOk farBlock clientMem := by
    have hW2 : W / 2 = 2 ^ 63 := by decide
    intro n
    unfold farBlock
    by_cases hn : n ≤ 2 ^ 20
    · right
      rw [if_pos hn]
      refine ⟨by omega, by omega, fun b hb' => ?_⟩
      rw [clientMem_blocks, List.mem_singleton] at hb'
      subst hb'
      right; dsimp only; omega
    · left; rw [if_neg hn]
  have hlim : (2 ^ 16 : Nat) + 16 < W := by decide
  have hN : farBlock (MemPool.initBytes (newRequ (2 ^ 16)) 8 8) = 2 ^ 40 := by
    rw [show newRequ (2 ^ 16) = 2 ^ 16 from rfl, initBytes_8 (by omega) hlim]
    decide
  rcases newBuffer_spec (ds := 8) (cap := 2 ^ 16) clientMem_wf (by omega) hlim hm with ⟨h0, -⟩ |
    ⟨-, m', b, q, e, g, hc, -, -, hb, hq, -⟩
  · rw [hN] at h0; omega
  · have hd : b.dataAddr = 2 ^ 40 := by rw [← hN, ← hq]; exact g.pbuf.symm
    refine ⟨⟨m', b, q⟩, Reach.new clientMem_wf (by omega) hlim hm e, noMem_ok _, by dsimp only; omega, hd, ?_, ?_⟩
    · rintro ⟨o, a, h1, -⟩
      simp at h1
    · dsimp only
      rw [hb, hd, clientMem_blocks]

example (n : Nat) (hn : n ≤ 100) : ∃ s t file A, Reach s [plainObj clientMem 8, arrayObj clientMem n] ∧ Written s file A ∧
    Reach t [] ∧ ¬ EndsEmpty [] ∧ MallocOk noMem t.mem ∧ file.length ≤ t.buf.capacity ∧ t.buf.dataAddr ≠ A := by
  obtain ⟨s, file, h, hw, -, hl, -⟩ := two_objects_file n hn
  obtain ⟨t, ht, hm, hc, hd, he, -⟩ := reader
  exact ⟨s, t, file, _, h, hw, ht, he, hm, by omega, by rw [hd]; decide⟩

/-! ## C53 -/

/-- **C53** (partial: at most one garbage range). `NS(Buffer_new_detailed)` fails only if there is no memory,
and gives an empty buffer with exactly the requested capacities. -/
theorem C53_new_detailed_partial {malloc : Nat → Nat} {m : Mem} {ds : Nat} {c : Caps} (hw : m.Wf) (hds : ds ≠ 0)
    (lim : detailedCapacity c + 16 < W) (hm : MallocOk malloc m) (hg : c.garbage ≤ 1) :
    ∃ m' r, newDetailed malloc m ds c = .ok (m', r) ∧
      (r = none → malloc (MemPool.initBytes (detailedCapacity c) 8 8) = 0) ∧
      ∀ b q, r = some (b, q) → Holds ⟨m', b, q⟩ [] ∧ Capacity ⟨m', b, q⟩ c ∧ Used ⟨m', b, q⟩ ⟨0, 0, 0, 0⟩ ∧
        Reach ⟨m', b, q⟩ [] ∧ Keeps m m' 0 b.dataAddr := by
  rcases newDetailed_spec hw hds lim hm with ⟨h0, e⟩ | ⟨-, -, m1, b1, q1, e, g, -, -, hk⟩ | ⟨-, h2, -⟩
  · exact ⟨_, _, e, fun _ => h0, fun _ _ h => by simp at h⟩
  · refine ⟨_, _, e, fun h => by simp at h, fun b q h => ?_⟩
    simp only [Option.some.injEq, Prod.mk.injEq] at h
    obtain ⟨rfl, rfl⟩ := h
    exact ⟨g.holds Represents.empty, g.toCore.capacity, g.toCore.used, Reach.detailed hw hds lim hm e, hk⟩
  · omega

/-- **C53 is violated** for two garbage ranges or more: the capacity is calculated with one slot for each of
them, but they need two, so that no such buffer is ever made. -/
theorem C53_new_detailed_violated {malloc : Nat → Nat} {m m' : Mem} {ds : Nat} {c : Caps} {r : Option (Buffer × Pool)}
    (hw : m.Wf) (hds : ds ≠ 0) (lim : detailedCapacity c + 16 < W) (hm : MallocOk malloc m) (hg : 2 ≤ c.garbage)
    (hr : newDetailed malloc m ds c = .ok (m', r)) : r = none := by
  rcases newDetailed_spec hw hds lim hm with ⟨-, e⟩ | ⟨-, h2, -⟩ | ⟨-, -, e⟩
  · rw [e] at hr
    simp only [Res.ok.injEq, Prod.mk.injEq] at hr
    exact hr.2.symm
  · omega
  · exact e _ _ hr

/-- The hypotheses can be met, and there is memory. -/
example : clientMem.Wf ∧ MallocOk oneBlock clientMem ∧ detailedCapacity ⟨10, 100, 10, 1⟩ + 16 < W ∧
    detailedCapacity ⟨10, 100, 10, 2⟩ + 16 < W ∧
    oneBlock (MemPool.initBytes (detailedCapacity ⟨10, 100, 10, 2⟩) 8 8) ≠ 0 :=
  ⟨clientMem_wf, oneBlock_ok, by decide, by decide, by decide⟩

example : ∃ m' b q, newDetailed oneBlock clientMem 8 ⟨10, 100, 10, 1⟩ = .ok (m', some (b, q)) := by
  rcases newDetailed_spec (ds := 8) (c := ⟨10, 100, 10, 1⟩) clientMem_wf (by omega) (by decide) oneBlock_ok with
    ⟨h0, -⟩ | ⟨-, -, m1, b1, q1, e, -⟩ | ⟨-, h2, -⟩
  · exact absurd h0 (by decide)
  · exact ⟨m1, b1, q1, e⟩
  · exact absurd h2 (by decide)

/-! ## C54 -/

/-- **C54** (a buffer on existing data; partial as C03). A buffer made on the bytes of a reachable buffer -
at the same place or at another one - has the same objects. -/
theorem C54_on_data_partial {malloc : Nat → Nat} {s t : St} {os : List Obj} (h : Reach s os) (hr : Relocated s t)
    (hne : ¬ EndsEmpty os ∨ t.buf.dataAddr = s.buf.dataAddr) :
    ∃ m' b, newOnData malloc t.mem t.buf.dataAddr t.buf.capacity = .ok (m', some b) ∧ Holds ⟨m', b, t.pool⟩ os ∧
      b.dataAddr = t.buf.dataAddr ∧ b.dataSize = s.buf.dataSize := by
  obtain ⟨c, k, g, rep⟩ := h.good
  have lay := hr.layout g
  by_cases he : t.buf.dataAddr = s.buf.dataAddr
  · rw [← he] at lay
    exact ⟨_, _, newOnData_same lay, Layout.holds lay rfl rfl rfl rep, rfl, g.size.symm⟩
  · have hs := rep.strict.2 (hne.resolve_right he)
    obtain ⟨m', e, l', -⟩ := newOnData_other (malloc := malloc) lay hs (g.low _) (Ne.symm he)
    exact ⟨_, _, e, Layout.holds l' rfl rfl rfl rep, rfl, g.size.symm⟩

/-- **C54 is violated** as C03 is: no buffer can be made on copied bytes with an empty attribute at the end. -/
theorem C54_on_data_violated {malloc : Nat → Nat} {s t : St} {os : List Obj} (h : Reach s os) (hr : Relocated s t)
    (he : EndsEmpty os) (hd : t.buf.dataAddr ≠ s.buf.dataAddr) :
    ∃ m', newOnData malloc t.mem t.buf.dataAddr t.buf.capacity = .ok (m', none) := by
  obtain ⟨c, k, g, rep⟩ := h.good
  exact newOnData_bad (hr.layout g) rep.gs (bad_of rep he) (g.low _) (Ne.symm hd)

/-- The hypotheses can be met. -/
example (n : Nat) (hn : n ≤ 100) : ∃ s t, Reach s [plainObj clientMem 8, arrayObj clientMem n] ∧ Relocated s t ∧
    t.buf.dataAddr ≠ s.buf.dataAddr ∧ (EndsEmpty [plainObj clientMem 8, arrayObj clientMem n] ↔ n = 0) := by
  obtain ⟨s, t, h1, h2, h3⟩ := two_objects_copied n hn
  exact ⟨s, t, h1, h2, h3, endsEmpty_two _ _⟩

/-- **C54** (copying into a buffer; partial: only after the buffer has been refreshed). If the data of one
reachable buffer are given to another one in the same memory that is large enough, and the second one is then
refreshed, it holds the objects of the first one, which keeps them. -/
theorem C54_copy_partial {malloc : Nat → Nat} {s t : St} {os ot : List Obj} {maxLen : Nat} (h : Reach s os)
    (hne : ¬ EndsEmpty os) (ht : Reach t ot) (hm : s.mem = t.mem) (hd : s.buf.dataAddr ≠ t.buf.dataAddr)
    (fit : s.buf.dataSize ≤ t.buf.capacity) :
    ∃ t' t'', initFromData malloc t s.buf.dataAddr maxLen = .ok (t', 0) ∧ Holds { s with mem := t'.mem } os ∧
      bufRefresh t' = .ok (t'', 0) ∧ Holds t'' os ∧ t''.buf.dataAddr = t.buf.dataAddr := by
  obtain ⟨c, k, g, rep⟩ := h.good
  obtain ⟨c0, k0, g0, rep0⟩ := ht.good
  have hw0 : W / 2 ≠ 0 := by decide
  rcases initFromData_fits (malloc := malloc) (maxLen := maxLen) g g0 rep.gs hm hd fit with ⟨hs, m', e, lay, g', -⟩ | ⟨hs, -⟩
  · obtain ⟨m2, e2, -, lay2, -⟩ := bufRefresh_ok (s := { t with
        mem := m'
        buf := { t.buf with
          dataSize := s.buf.dataSize, objectAddr := s.buf.objectAddr, numObjects := k.recs.length } })
      g0.slot g0.remappable lay hs (by dsimp only; omega)
    exact ⟨_, _, e, g'.holds rep, e2, Layout.holds lay2 g0.slot rfl rfl rep, rfl⟩
  · exact absurd (rep.strict.2 hne) hs

/-- **C54 is violated** without refreshing: looking up an object in the second buffer gives the record in the
memory of the first one, so that deleting the first buffer destroys the second one. -/
theorem C54_copy_violated {malloc : Nat → Nat} {s t : St} {os ot : List Obj} {maxLen : Nat} (h : Reach s os)
    (hne : ¬ EndsEmpty os) (h0 : os ≠ []) (ht : Reach t ot) (hm : s.mem = t.mem) (hd : s.buf.dataAddr ≠ t.buf.dataAddr)
    (fit : s.buf.dataSize ≤ t.buf.capacity) :
    ∃ t', initFromData malloc t s.buf.dataAddr maxLen = .ok (t', 0) ∧ t'.buf.objectAddr = s.buf.objectAddr ∧
      ∃ m', t'.mem.free s.pool.buffer = .ok m' ∧ ¬ Holds { t' with mem := m' } os := by
  obtain ⟨c, k, g, rep⟩ := h.good
  obtain ⟨c0, k0, g0, rep0⟩ := ht.good
  rcases initFromData_fits (malloc := malloc) (maxLen := maxLen) g g0 rep.gs hm hd fit with ⟨hs, m', e, lay, g', hb⟩ | ⟨hs, -⟩
  · have hnz := g.lay.head.nzB
    have hl := g.lay.head.fit
    have hL : c.len = 128 + 8 * c.slots + 24 * c.objs + 8 * c.dataptrs + 16 * c.garbage := rfl
    have hp := g.pcap
    have lim := g.lim
    have hw0 : W / 2 < W := by decide
    have hblk := g'.blk
    dsimp only at hblk
    have hfr : m'.free s.pool.buffer = .ok { m' with blocks := m'.blocks.filter (fun b => b.1 ≠ s.buf.dataAddr) } := by
      unfold Mem.free
      rw [g.pbuf, if_neg hnz, if_pos ⟨_, hblk, rfl⟩]
    refine ⟨_, e, rfl, _, hfr, fun hh => ?_⟩
    obtain ⟨o, os', rfl⟩ := List.exists_cons_of_ne_nil h0
    obtain ⟨r, p, h1, -, h2, -⟩ := hh.objs 0 o rfl
    have hr : r = s.buf.objectAddr := by
      unfold bufGetObject at h1
      obtain ⟨n, -, h3⟩ := Res.bind_eq_ok.1 h1
      dsimp only at h3
      rw [if_pos ⟨by rw [g.objs]; omega, by omega⟩] at h3
      simp only [Res.pure_eq, Res.ok.injEq] at h3
      omega
    subst hr
    dsimp only at h2
    unfold Mem.load64 at h2
    split at h2
    · rename_i hv
      rcases hv.2 with hv | ⟨b, hb1, hb2, hb3⟩
      · omega
      · simp only [List.mem_filter, decide_eq_true_eq] at hb1
        have hwf := g'.wf
        dsimp only at hwf
        rw [g.objs] at hb2 hb3
        have leO : k.recs.length ≤ c.objs := g.lay.head.le.objs
        have hlen := rep.len
        simp only [List.length_cons] at hlen
        simp only [off] at hb2 hb3
        rcases hwf _ hb1.1 _ hblk with e1 | e1
        · exact hb1.2 (by rw [e1])
        · unfold disjoint at e1
          dsimp only at e1
          omega
    · simp at h2
  · exact absurd (rep.strict.2 hne) hs

/-- **C54 is violated** further: failures are reported as successes. If the last attribute is empty, remapping
the copied bytes fails, 0 is returned all the same, and the structure describes what was there before. -/
theorem C54_copy_failure_violated {malloc : Nat → Nat} {s t : St} {os ot : List Obj} {maxLen : Nat} (h : Reach s os)
    (he : EndsEmpty os) (ht : Reach t ot) (hm : s.mem = t.mem) (hd : s.buf.dataAddr ≠ t.buf.dataAddr)
    (fit : s.buf.dataSize ≤ t.buf.capacity) :
    ∃ t', initFromData malloc t s.buf.dataAddr maxLen = .ok (t', 0) ∧ t'.buf = t.buf := by
  obtain ⟨c, k, g, rep⟩ := h.good
  obtain ⟨c0, k0, g0, rep0⟩ := ht.good
  rcases initFromData_fits (malloc := malloc) (maxLen := maxLen) g g0 rep.gs hm hd fit with ⟨hs, -⟩ | ⟨-, m', e, -⟩
  · exact absurd he (rep.strict.1 hs)
  · exact ⟨_, e, rfl⟩

/-- **C54 is violated** further: the result of the reservation is taken the wrong way round. If the memory of
the buffer does not suffice and there is more, 1 is returned after the old memory has been released, to which
the buffer still refers; if there is no more, 0 is returned and nothing has been copied. -/
theorem C54_resize_violated {malloc : Nat → Nat} {s t : St} {os ot : List Obj} {maxLen : Nat} (h : Reach s os)
    (ht : Reach t ot) (hm : s.mem = t.mem) (big : t.pool.capacity < s.buf.dataSize) (hmal : MallocOk malloc t.mem) :
    (malloc (MemPool.initBytes s.buf.dataSize 8 8) = 0 →
      ∃ t', initFromData malloc t s.buf.dataAddr maxLen = .ok (t', 0) ∧ t'.buf = t.buf ∧ t'.mem = t.mem) ∧
    (malloc (MemPool.initBytes s.buf.dataSize 8 8) ≠ 0 →
      ∃ t', initFromData malloc t s.buf.dataAddr maxLen = .ok (t', 1) ∧ t'.buf = t.buf ∧
        ∀ x, t.buf.dataAddr ≤ x → x < t.buf.dataAddr + t.buf.capacity → ¬ t'.mem.valid x 1) := by
  obtain ⟨c, k, g, rep⟩ := h.good
  obtain ⟨c0, k0, g0, rep0⟩ := ht.good
  have hp := g0.pcap
  rcases initFromData_big (malloc := malloc) (maxLen := maxLen) g g0 hm big hmal with ⟨h1, e⟩ | ⟨h1, m', q', e, hv⟩
  · exact ⟨fun _ => ⟨_, e, rfl, rfl⟩, fun h => absurd h1 h⟩
  · exact ⟨fun h => absurd h h1, fun _ => ⟨_, e, rfl, fun x a1 a2 => hv x 1 a1 (by omega) (by omega)⟩⟩

/-- Two buffers in the same memory: the buffer with two objects and its copy. -/
theorem Buf.two_buffers (n : Nat) (h0 : n ≠ 0) (hn : n ≤ 100) : ∃ s t, Reach s [plainObj clientMem 8, arrayObj clientMem n] ∧
    Reach t [plainObj clientMem 8, arrayObj clientMem n] ∧ s.mem = t.mem ∧ s.buf.dataAddr ≠ t.buf.dataAddr ∧
    s.buf.dataSize ≤ t.buf.capacity := by
  obtain ⟨s, c, k, h, g, rep, hB, hp, hb, hcap, hc, -⟩ := two_objects n hn
  have hm : MallocOk farBlock s.mem := farBlock_ok hb
  have hne : ¬ EndsEmpty [plainObj clientMem 8, arrayObj clientMem n] := by rw [endsEmpty_two]; omega
  have hW2 : W / 2 = 2 ^ 63 := by decide
  have hl := g.lay.head.fit
  have hL : 128 ≤ c.len := by simp only [Caps.len]; omega
  rcases newFromCopy_spec (ds := 8) g rep.gs (by omega) hm with ⟨h1, -⟩ | ⟨-, -, m', b, q, e, g1, g2, hd⟩ | ⟨-, hs, -⟩
  · rw [initBytes_8 (by omega) (by have : W / 2 < W := by decide
                                   omega)] at h1
    unfold farBlock at h1
    rw [if_pos (by omega)] at h1
    omega
  · refine ⟨{ s with mem := m' }, ⟨m', b, q⟩, Reach.copied h hm (by omega) e, Reach.copy h hm (by omega) e, rfl,
      Ne.symm hd, ?_⟩
    have := g1.lay.head.fit
    dsimp only at this ⊢
    rw [g.size]; exact this
  · exact absurd (rep.strict.2 hne) hs

/-- The hypotheses can be met. -/
example : ∃ s t os ot, Reach s os ∧ ¬ EndsEmpty os ∧ os ≠ [] ∧ Reach t ot ∧ s.mem = t.mem ∧
    s.buf.dataAddr ≠ t.buf.dataAddr ∧ s.buf.dataSize ≤ t.buf.capacity := by
  obtain ⟨s, t, h1, h2, h3, h4, h5⟩ := two_buffers 5 (by omega) (by omega)
  exact ⟨s, t, _, _, h1, by rw [endsEmpty_two]; omega, by simp, h2, h3, h4, h5⟩

/-- The buffer with two objects, and a new one of capacity `cap`, in the same memory. -/
theorem Buf.buffer_and_new (n : Nat) (hn : n ≤ 100) (cap : Nat) (hc : cap ≤ 2 ^ 16) :
    ∃ s t, Reach s [plainObj clientMem 8, arrayObj clientMem n] ∧ Reach t [] ∧ s.mem = t.mem ∧
    s.buf.dataAddr ≠ t.buf.dataAddr ∧ s.buf.dataSize = 1784 ∧ cap ≤ t.buf.capacity ∧
    t.pool.capacity = MemPool.initBytes (newRequ cap) 8 8 ∧
    t.mem.blocks = [(2 ^ 40, t.pool.capacity), (2 ^ 20, 2 ^ 16 + 8), (2 ^ 30, 4096)] := by
  obtain ⟨s, c, k, h, g, rep, hB, hp, hb, hcap, hc', -⟩ := two_objects n hn
  have hm : MallocOk farBlock s.mem := farBlock_ok hb
  have hW : W = 2 ^ 64 := rfl
  have hr : 128 ≤ newRequ cap ∧ newRequ cap ≤ 2 ^ 16 := by unfold newRequ; split <;> omega
  have hN := initBytes_8 (n := newRequ cap) (by omega) (by omega)
  have hf : farBlock (MemPool.initBytes (newRequ cap) 8 8) = 2 ^ 40 := by
    rw [hN]; unfold farBlock; rw [if_pos (by omega)]
  rcases newBuffer_spec (ds := 8) (cap := cap) g.wf (by omega) (by omega) hm with ⟨h1, -⟩ |
    ⟨-, m', b, q, e, g1, h2, -, hk, hbl, hq, hqc⟩
  · rw [hf] at h1; omega
  · have hd : b.dataAddr = 2 ^ 40 := by rw [← hf, ← hq]; exact g1.pbuf.symm
    have hpb := g.pbuf
    refine ⟨{ s with mem := m' }, ⟨m', b, q⟩, Reach.other h g1.wf ?_ fun x x1 x2 => ?_,
      Reach.new g.wf (by omega) (by omega) hm e, rfl, by dsimp only; omega, ?_, h2, hqc, ?_⟩
    · rw [hbl, hb, hpb, hB, hp]; simp
    · exact hk.byte x (Or.inr ⟨(2 ^ 20, 2 ^ 16 + 8), by rw [hb]; simp, by decide, by dsimp only; omega,
        by dsimp only; omega⟩)
    · dsimp only
      rw [g.size, hc']; rfl
    · dsimp only
      rw [hbl, hd, hb]

example : ∃ s t os ot, Reach s os ∧ EndsEmpty os ∧ Reach t ot ∧ s.mem = t.mem ∧
    s.buf.dataAddr ≠ t.buf.dataAddr ∧ s.buf.dataSize ≤ t.buf.capacity := by
  obtain ⟨s, t, h1, h2, h3, h4, h5, h6, -⟩ := buffer_and_new 0 (by omega) 2000 (by omega)
  exact ⟨s, t, _, _, h1, (endsEmpty_two _ _).2 rfl, h2, h3, h4, by omega⟩

example : ∃ s t os ot, Reach s os ∧ Reach t ot ∧ s.mem = t.mem ∧ t.pool.capacity < s.buf.dataSize ∧ MallocOk noMem t.mem ∧
    ∃ malloc, MallocOk malloc t.mem ∧ malloc (MemPool.initBytes s.buf.dataSize 8 8) ≠ 0 := by
  obtain ⟨s, t, h1, h2, h3, h4, h5, h6, h7, h8⟩ := buffer_and_new 5 (by omega) 0 (by omega)
  have hW2 : W / 2 = 2 ^ 63 := by decide
  have hlim : (128 : Nat) + 16 < W := by decide
  have hcap : t.pool.capacity = 136 := by
    rw [h7, show newRequ 0 = 128 from rfl, initBytes_8 (by omega) hlim]
  refine ⟨s, t, _, _, h1, h2, h3, by omega, noMem_ok _, fun n => if n ≤ 2 ^ 20 then 2 ^ 41 else 0, ?_, ?_⟩
  · intro n
    dsimp only
    by_cases hn : n ≤ 2 ^ 20
    · right
      rw [if_pos hn]
      refine ⟨by omega, by omega, fun b hb => ?_⟩
      rw [h8, hcap] at hb
      simp only [List.mem_cons, List.not_mem_nil, or_false] at hb
      rcases hb with rfl | rfl | rfl <;> right <;> dsimp only <;> omega
    · left; rw [if_neg hn]
  · have hlim : (1784 : Nat) + 16 < W := by decide
    rw [h5, initBytes_8 (by omega) hlim]
    decide

/-! ## C55 -/

namespace Buf

/-- The client has the object in memory, at `src`, beside the memory of the buffer. -/
structure Beside (w : St) (src : Nat) (o : Obj) : Prop where
  nz : src ≠ 0
  val : w.mem.valid src o.size
  out : disjoint src o.size w.buf.dataAddr w.buf.capacity
  bytes : ∀ j, j < o.size → o.plain j → w.mem.byte (src + j) = o.handle j
  attrs : ∀ a ∈ o.attrs, (w.mem.word (src + a.off) = 0 ∧ ∀ j, j < a.count * a.size → o.data a j = 0) ∨
    (w.mem.word (src + a.off) ≠ 0 ∧ w.mem.valid (w.mem.word (src + a.off)) (a.count * a.size) ∧
      disjoint (w.mem.word (src + a.off)) (a.count * a.size) w.buf.dataAddr w.buf.capacity ∧
      ∀ j, j < a.count * a.size → w.mem.byte (w.mem.word (src + a.off) + j) = o.data a j)

/-- Histories of a buffer which was made on existing data. -/
inductive Wrapped : St → List Obj → Prop
  | on {malloc : Nat → Nat} {s t : St} {os : List Obj} {m' : Mem} {b : Buffer} {q : Pool} :
    Reach s os → Relocated s t → newOnData malloc t.mem t.buf.dataAddr t.buf.capacity = .ok (m', some b) →
    Wrapped ⟨m', b, q⟩ os
  | add {malloc : Nat → Nat} {w w' : St} {os : List Obj} {src r : Nat} {o : Obj} :
    Wrapped w os → o.Ok → Beside w src o → addObject malloc w src o.size o.typeId o.attrs = .ok (w', r) →
    r ≠ 0 → Wrapped w' (os ++ [o])
  | other {w : St} {os : List Obj} {m' : Mem} :
    Wrapped w os → m'.valid w.buf.dataAddr w.buf.capacity →
    (∀ x, w.buf.dataAddr ≤ x → x < w.buf.dataAddr + w.buf.capacity → m'.byte x = w.mem.byte x) →
    Wrapped { w with mem := m' } os

/-- What is true of such a buffer. -/
structure WrapOk (w : St) (c : Caps) (k : Content) : Prop where
  lay : Layout w.mem w.buf.dataAddr w.buf.dataAddr w.buf.capacity c k
  slot : w.buf.slot = 8
  flags : w.buf.flags = 0x2d
  ds : w.buf.datastore = 0
  size : w.buf.dataSize = c.len
  objs : w.buf.objectAddr = w.buf.dataAddr + (off c 4 + 16)
  num : w.buf.numObjects = k.recs.length

theorem WrapOk.run {malloc : Nat → Nat} {w : St} {c : Caps} {k : Content} (h : WrapOk w c k) {src : Nat} {o : Obj}
    (ho : o.Ok) (hb : Beside w src o) :
    (k.room c o.size o.attrs ∧ ∃ m' r data, addObject malloc w src o.size o.typeId o.attrs =
        .ok ({ w with mem := m', buf := { w.buf with numObjects := k.recs.length + 1 } }, r) ∧ r ≠ 0 ∧
      WrapOk { w with mem := m', buf := { w.buf with numObjects := k.recs.length + 1 } } c
        (k.add o.typeId o.size o.attrs data) ∧
      m'.blocks = w.mem.blocks ∧
      (∀ x, x < w.buf.dataAddr ∨ w.buf.dataAddr + w.buf.capacity ≤ x → m'.byte x = w.mem.byte x) ∧
      (∀ j, j < o.size → o.plain j → data (8 * k.nS + j) = o.handle j) ∧
      ∀ (i : Nat) (a : AttrSpec), o.attrs[i]? = some a → ∀ j, j < a.bytes →
        data (8 * k.nS + roundUp o.size 8 + extSum (o.attrs.take i) + j) = o.data a j) ∨
    (¬ k.room c o.size o.attrs ∧ addObject malloc w src o.size o.typeId o.attrs = .ok (w, 0)) := by
  have hh := h.lay.head
  have fit := hh.fit
  have hs := ho.spec
  have hsl := ho.slots
  have hlim := ho.lim
  have hW : W = 2 ^ 64 := rfl
  have happ : w.buf.allowAppend = true := by simp [Buffer.allowAppend, Buffer.has, h.flags]
  have hrun : addObject malloc w src o.size o.typeId o.attrs = (do
      let (s, rc) ← ensure malloc w (c.objs < k.recs.length + 1 ∨ c.slots < k.nS + objSlots o.size o.attrs ∨
        c.dataptrs < k.ptrs.length + o.attrs.length) (k.need c o.size o.attrs)
      if rc = 0 then do
        let (m, r) ← storeObject s.mem s.buf.dataAddr 8 src o.size o.typeId (objSlots o.size o.attrs)
          (k.recs.length + 1) (k.nS + objSlots o.size o.attrs) (k.ptrs.length + o.attrs.length) o.attrs
        if r = 0 then return ({ s with mem := m }, 0)
        else return ({ s with mem := m, buf := { s.buf with numObjects := k.recs.length + 1 } }, r)
      else return (s, 0)) := by
    simp only [addObject, h.slot]
    rw [if_pos ⟨by omega, hs.pos, hb.nz, happ⟩]
    rw [hh.numEntities (by omega) (by omega), Res.ok_bind, hh.maxNumEntities (by omega) (by omega), Res.ok_bind,
      hh.numEntities (by omega) (by omega), Res.ok_bind, hh.maxNumEntities (by omega) (by omega), Res.ok_bind,
      hh.numEntities (by omega) (by omega), Res.ok_bind, hh.maxNumEntities (by omega) (by omega), Res.ok_bind,
      hh.maxNumEntities (by omega) (by omega), Res.ok_bind]
    rw [show predictSlots o.size (o.attrs.map fun a => (a.size, a.count)) 8 = objSlots o.size o.attrs from rfl,
      fits_ok (by omega), Res.ok_bind]
    simp only [cnt, Content.counts, Content.need]
  rw [hrun]
  by_cases room : k.room c o.size o.attrs
  · left
    refine ⟨room, ?_⟩
    have hsrc : SourceOk w.mem w.buf.dataAddr w.buf.capacity src o.size o.attrs o.data := by
      refine ⟨hb.val, hb.out, fun a ha => ?_⟩
      rcases hb.attrs a ha with h1 | ⟨h1, h2, h3, h4⟩
      · exact Or.inl h1
      · exact Or.inr ⟨h1, h2, Or.inr h3, h4⟩
    obtain ⟨m', data, r, b, lay, f, d1, d2⟩ := storeObject_ok h.lay hs hsrc ho.typ room.2.1 room.1 room.2.2
    have hnz := hh.nzB
    refine ⟨m', w.buf.dataAddr + (off c 4 + 16 + 24 * k.recs.length), data, ?_, by omega, ⟨lay, h.slot, h.flags, h.ds, h.size, h.objs, by simp [Content.add]⟩, b,
      fun x hx => f x (by omega), fun j hj hp => ?_, d2⟩
    · obtain ⟨r1, r2, r3⟩ := room
      unfold ensure
      rw [if_neg (by simp; omega), Res.ok_bind]
      simp only [if_true, r, Res.ok_bind]
      rw [if_neg (by omega)]
      rfl
    · rw [d1 j hj hp, hb.bytes j hj hp]
  · right
    refine ⟨room, ?_⟩
    have hu : w.buf.usesDatastore = false := by simp [Buffer.usesDatastore, Buffer.hasDatastore, h.ds]
    have : ¬ (k.recs.length + 1 ≤ c.objs ∧ k.nS + objSlots o.size o.attrs ≤ c.slots ∧
        k.ptrs.length + o.attrs.length ≤ c.dataptrs) := room
    unfold ensure
    rw [if_pos (by simp; omega)]
    simp [bufReserve, hu, Res.ok_bind, Res.pure_eq]

theorem Wrapped.ok {w : St} {os : List Obj} (h : Wrapped w os) : ∃ c k, WrapOk w c k ∧ Represents k os := by
  induction h with
  | @on malloc s t os m' b q hs hr e =>
    obtain ⟨c, k, g, rep⟩ := hs.good
    have lay := hr.layout g
    refine ⟨c, k, ?_, rep⟩
    by_cases he : t.buf.dataAddr = s.buf.dataAddr
    · rw [← he] at lay
      rw [newOnData_same lay] at e
      simp only [Res.ok.injEq, Prod.mk.injEq, Option.some.injEq] at e
      obtain ⟨rfl, rfl⟩ := e
      exact ⟨lay, rfl, rfl, rfl, rfl, rfl, rfl⟩
    · by_cases hst : k.Strict
      · obtain ⟨m1, e1, l1, -⟩ := newOnData_other (malloc := malloc) lay hst (g.low _) (Ne.symm he)
        rw [e1] at e
        simp only [Res.ok.injEq, Prod.mk.injEq, Option.some.injEq] at e
        obtain ⟨rfl, rfl⟩ := e
        exact ⟨l1, rfl, rfl, rfl, rfl, rfl, rfl⟩
      · have hbad : ∃ p ∈ k.ptrs, 8 * k.nS ≤ p.2 := by
          by_contra hcon
          exact hst (Content.strict_of rep.gs fun p hp => Nat.lt_of_not_le fun hle => hcon ⟨p, hp, hle⟩)
        obtain ⟨m1, e1⟩ := newOnData_bad (malloc := malloc) lay rep.gs hbad (g.low _) (Ne.symm he)
        rw [e1] at e
        simp at e
  | @add malloc w w' os src r o hw ho hb e h0 ih =>
    obtain ⟨c, k, g, rep⟩ := ih
    rcases g.run (malloc := malloc) ho hb with ⟨-, m', r', data, e1, -, g', -, -, d1, d2⟩ | ⟨-, e1⟩
    · rw [e1] at e
      simp only [Res.ok.injEq, Prod.mk.injEq] at e
      obtain ⟨rfl, -⟩ := e
      exact ⟨c, _, g', rep.add g.lay.ok ho d1 d2⟩
    · rw [e1] at e
      simp only [Res.ok.injEq, Prod.mk.injEq] at e
      exact absurd e.2.symm h0
  | @other w os m' hw hv hb ih =>
    obtain ⟨c, k, g, rep⟩ := ih
    have hh := g.lay.head
    have fit := hh.fit
    refine ⟨c, k, ⟨?_, g.slot, g.flags, g.ds, g.size, g.objs, g.num⟩, rep⟩
    exact g.lay.copy hh.nzB hh.alB hh.limB hh.limB hh.fit hv fun x hx => hb _ (by dsimp only; omega) (by dsimp only; omega)

theorem WrapOk.capacity {s : St} {c : Caps} {k : Content} (h : WrapOk s c k) : Capacity s c := by
  have hh := h.lay.head
  refine ⟨?_, ?_, ?_, ?_⟩ <;> rw [h.slot] <;> exact hh.maxNumEntities (by omega) (by omega)

theorem WrapOk.used {s : St} {c : Caps} {k : Content} (h : WrapOk s c k) : Used s k.counts := by
  have hh := h.lay.head
  refine ⟨?_, ?_, ?_, ?_⟩ <;> rw [h.slot] <;> exact hh.numEntities (by omega) (by omega)

end Buf

/-- **C55** (partial: see `C55_clear_violated`). A buffer which was made on existing data holds the objects
of the data and those that were added, in this order. -/
theorem C55_objects_partial {w : St} {os : List Obj} (h : Wrapped w os) : Holds w os := by
  obtain ⟨c, k, g, rep⟩ := h.ok
  exact Layout.holds g.lay g.slot g.objs g.num rep

/-- **C55** (adding). Adding to such a buffer succeeds exactly if the spare capacity suffices; nothing beside
its memory is changed, and if it fails nothing at all is changed. -/
theorem C55_add {malloc : Nat → Nat} {w : St} {os : List Obj} {src : Nat} {o : Obj} {n c : Caps} (h : Wrapped w os)
    (ho : o.Ok) (hb : Beside w src o) (hn : Used w n) (hc : Capacity w c) :
    (Room n c o → ∃ w' r, addObject malloc w src o.size o.typeId o.attrs = .ok (w', r) ∧ r ≠ 0 ∧
      Holds w' (os ++ [o]) ∧ Capacity w' c ∧
      ∀ x, x < w.buf.dataAddr ∨ w.buf.dataAddr + w.buf.capacity ≤ x → w'.mem.byte x = w.mem.byte x) ∧
    (¬ Room n c o → addObject malloc w src o.size o.typeId o.attrs = .ok (w, 0)) := by
  obtain ⟨c', k, g, rep⟩ := h.ok
  obtain rfl := hc.unique g.capacity
  obtain rfl := hn.unique g.used
  rw [← room_iff ho]
  rcases g.run (malloc := malloc) ho hb with ⟨room, m', r', data, e1, h0, g', -, hf, d1, d2⟩ | ⟨room, e1⟩
  · exact ⟨fun _ => ⟨_, _, e1, h0, C55_objects_partial (Wrapped.add h ho hb e1 h0), g'.capacity, hf⟩, fun h => absurd room h⟩
  · exact ⟨fun h => absurd h room, fun _ => e1⟩

/-- **C55 is violated**: the flags of a buffer on existing data allow clearing and remapping, but clearing,
resetting and refreshing it fail, since it has no datastore. -/
theorem C55_clear_violated {w : St} {os : List Obj} (h : Wrapped w os) :
    w.buf.allowClear = true ∧ w.buf.allowModify = true ∧ w.buf.allowRemapping = true ∧
      (∀ z, bufClear w z = .ok (w, -1)) ∧ (∀ c, bufReset w c = .ok (w, -1)) ∧ bufRefresh w = .ok (w, -1) := by
  obtain ⟨c, k, g, rep⟩ := h.ok
  have h1 := g.flags
  have h2 := g.ds
  refine ⟨?_, ?_, ?_, fun z => ?_, fun c => ?_, ?_⟩
  · simp [Buffer.allowClear, Buffer.has, h1]
  · simp [Buffer.allowModify, Buffer.allowClear, Buffer.allowAppend, Buffer.has, h1]
  · simp [Buffer.allowRemapping, Buffer.has, h1]
  · simp [bufClear, Buffer.hasDatastore, h2]
  · simp [bufReset, Buffer.usesDatastore, Buffer.hasDatastore, h2]
  · simp [bufRefresh, Buffer.hasDatastore, h2]

/-- The hypotheses can be met: a buffer on the bytes of the buffer with two objects. -/
example : ∃ w, Wrapped w [plainObj clientMem 8, arrayObj clientMem 5] := by
  obtain ⟨s, t, h1, h2, h3⟩ := two_objects_copied 5 (by omega)
  obtain ⟨m', b, e, -⟩ := C54_on_data_partial (malloc := noMem) h1 h2 (Or.inl (by rw [endsEmpty_two]; omega))
  exact ⟨⟨m', b, t.pool⟩, Wrapped.on h1 h2 e⟩

/-- A third object is added to a buffer on an emptied buffer. -/
example : ∃ w src o n c, Wrapped w [] ∧ o.Ok ∧ Beside w src o ∧ Used w n ∧ Capacity w c ∧ Room n c o := by
  obtain ⟨s0, r0, g0, b0, p0, bl0, c0, f0⟩ := start clientMem_blocks ⟨2, 200, 1, 0⟩ (by decide)
  have hcap := g0.pcap
  have hW2 : W / 2 = 2 ^ 63 := by decide
  have hW : W / 2 < W := by decide
  have hrel : Relocated s0 s0 := ⟨⟨g0.slot, g0.remappable, g0.lay.head.nzB, g0.lay.head.alB, g0.lay.head.limB, by omega,
    g0.lay.head.val, by rw [g0.size]; exact g0.lay.head.fit⟩, fun _ _ => rfl⟩
  have e := newOnData_same (malloc := noMem) g0.lay
  have hw : Wrapped ⟨s0.mem, onData s0.buf.dataAddr s0.buf.capacity ⟨2, 200, 1, 0⟩ Content.empty, s0.pool⟩ [] :=
    Wrapped.on r0 hrel e
  obtain ⟨c, k, g, rep⟩ := hw.ok
  have hu : Used ⟨s0.mem, onData s0.buf.dataAddr s0.buf.capacity ⟨2, 200, 1, 0⟩ Content.empty, s0.pool⟩ ⟨0, 0, 0, 0⟩ := by
    have := g0.toCore.used
    rw [show Content.empty.counts = ⟨0, 0, 0, 0⟩ from rfl] at this
    have hsl := g0.slot
    obtain ⟨u1, u2, u3, u4⟩ := this
    rw [hsl] at u1 u2 u3 u4
    exact ⟨u1, u2, u3, u4⟩
  have hcp : Capacity ⟨s0.mem, onData s0.buf.dataAddr s0.buf.capacity ⟨2, 200, 1, 0⟩ Content.empty, s0.pool⟩ ⟨2, 200, 1, 0⟩ := by
    have hsl := g0.slot
    obtain ⟨u1, u2, u3, u4⟩ := g0.toCore.capacity
    rw [hsl] at u1 u2 u3 u4
    exact ⟨u1, u2, u3, u4⟩
  have hw2 : s0.mem.word (2 ^ 30 + 8) = 2 ^ 30 + 64 := by
    rw [← clientMem_word]
    exact Mem.word_congr fun x h1 h2 => f0 x (by omega) (by omega)
  have hval : ∀ x n, 2 ^ 30 ≤ x → x + n ≤ 2 ^ 30 + 4096 → s0.mem.valid x n := fun x n h1 h2 =>
    Or.inr ⟨(2 ^ 30, 4096), by rw [bl0]; simp, h1, h2⟩
  refine ⟨_, 2 ^ 30, arrayObj clientMem 3, _, _, hw, arrayObj_ok (by omega), ⟨by omega, ?_, ?_, ?_, ?_⟩, hu, hcp, ?_⟩
  · exact hval _ _ (by omega) (by simp only [arrayObj]; omega)
  · right
    simp only [onData]
    rw [b0]; omega
  · intro j hj _
    have hj' : j < 16 := hj
    exact f0 _ (by omega) (by omega)
  · intro a ha
    right
    simp only [arrayObj, List.mem_singleton] at ha
    subst ha
    dsimp only
    rw [hw2]
    refine ⟨by omega, hval _ _ (by omega) (by omega), ?_, fun j hj => f0 _ (by omega) (by omega)⟩
    right
    simp only [onData]
    rw [b0]; omega
  · refine ⟨by decide, ?_, by decide⟩
    simp [arrayObj, Obj.total]

end SixTrack
