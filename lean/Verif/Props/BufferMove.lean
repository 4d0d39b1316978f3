import Verif.Props.Buffer

/-!
# Properties C03-C06: copying, remapping, writing and reserving in place
-/

namespace SixTrack
open Buf
open MemPool (Pool)

namespace Buf

/-- A buffer structure that refers to `n` bytes or more of memory, in which a managed buffer is to be
found: 8-byte aligned, not null, not more than half of the address space; remapping is allowed. -/
structure Place (t : St) (n : Nat) : Prop where
  slot : t.buf.slot = 8
  flags : (t.buf.hasDatastore && t.buf.allowRemapping) = true
  nz : t.buf.dataAddr ≠ 0
  al : t.buf.dataAddr % 8 = 0
  lim : t.buf.dataAddr + t.buf.capacity < W
  half : t.buf.capacity ≤ W / 2
  val : t.mem.valid t.buf.dataAddr t.buf.capacity
  fit : n ≤ t.buf.capacity

/-- The bytes of the buffer of `s` are at the place of `t`. -/
structure Relocated (s t : St) : Prop extends Place t s.buf.dataSize where
  bytes : ∀ x, x < s.buf.dataSize → t.mem.byte (t.buf.dataAddr + x) = s.mem.byte (s.buf.dataAddr + x)

theorem Relocated.layout {s t : St} {c : Caps} {k : Content} (h : Relocated s t) (g : Good s c k) :
    Layout t.mem s.buf.dataAddr t.buf.dataAddr t.buf.capacity c k := by
  have hlen := g.lay.head.len_ge
  have hp := g.pcap
  have lim := g.lim
  have half := h.half
  have hb := h.bytes
  have hf := h.fit
  rw [g.size] at hb hf
  have hW : W / 2 + W / 2 = W := by decide
  exact g.lay.copy h.nz h.al (by omega) h.lim hf h.val hb

theorem Good.low {s : St} {c : Caps} {k : Content} (g : Good s c k) (x : Nat) : s.buf.dataAddr ≠ x + W / 2 := by
  have hlen := g.lay.head.len_ge
  have hp := g.pcap
  have lim := g.lim
  omega

theorem bad_of {k : Content} {os : List Obj} (rep : Represents k os) (he : EndsEmpty os) :
    ∃ p ∈ k.ptrs, 8 * k.nS ≤ p.2 := by
  by_contra hcon
  exact rep.strict.1 (Content.strict_of rep.gs fun p hp => Nat.lt_of_not_le fun hle => hcon ⟨p, hp, hle⟩) he

end Buf

/-! ## C03 -/

/-- **C03** (partial: the last attribute of the last object must not be empty). If the bytes of a
reachable buffer are anywhere else in memory, refreshing a buffer structure that refers to them
succeeds, and the refreshed buffer holds the same objects. -/
theorem C03_relocate_partial {s t : St} {os : List Obj} (h : Reach s os) (hne : ¬ EndsEmpty os) (hr : Relocated s t) :
    ∃ t', bufRefresh t = .ok (t', 0) ∧ Holds t' os ∧ t'.buf.dataAddr = t.buf.dataAddr ∧
      t'.buf.dataSize = s.buf.dataSize := by
  obtain ⟨c, k, g, rep⟩ := h.good
  obtain ⟨m', e, -, lay, -⟩ := bufRefresh_ok hr.slot hr.flags (hr.layout g) (rep.strict.2 hne) (g.low _)
  exact ⟨_, e, Layout.holds lay hr.slot rfl rfl rep, rfl, g.size.symm⟩

/-- **C03** (`NS(Buffer_new_from_copy)`; partial in the same way). The copy fails only if there is no
memory; otherwise the copy, at another address, and the original hold the objects. -/
theorem C03_new_from_copy_partial {malloc : Nat → Nat} {s : St} {os : List Obj} {ds : Nat} (h : Reach s os)
    (hne : ¬ EndsEmpty os) (hds : ds ≠ 0) (hm : MallocOk malloc s.mem) :
    ∃ m' r, newFromCopy malloc s.mem ds s.buf = .ok (m', r) ∧ Holds { s with mem := m' } os ∧
      (r = none → malloc (MemPool.initBytes s.buf.capacity 8 8) = 0) ∧
      ∀ b q, r = some (b, q) → Holds ⟨m', b, q⟩ os ∧ b.dataAddr ≠ s.buf.dataAddr := by
  obtain ⟨c, k, g, rep⟩ := h.good
  rcases newFromCopy_spec g rep.gs hds hm with ⟨h0, e⟩ | ⟨-, -, m', b, q, e, g1, g2, hd⟩ | ⟨-, hs, -⟩
  · exact ⟨_, _, e, g.holds rep, fun _ => h0, fun _ _ h => by simp at h⟩
  · refine ⟨_, _, e, g2.holds rep, fun h => by simp at h, fun b' q' h => ?_⟩
    simp only [Option.some.injEq, Prod.mk.injEq] at h
    obtain ⟨rfl, rfl⟩ := h
    exact ⟨g1.holds rep, hd⟩
  · exact absurd (rep.strict.2 hne) hs

/-- **C03 is violated.** If the last attribute of the last object has no elements, its pointer points to
the end of the used slots; remapping takes this for an error (managed_buffer_remap.h:533-536), and
refreshing the copied buffer always fails. -/
theorem C03_relocate_violated {s t : St} {os : List Obj} (h : Reach s os) (he : EndsEmpty os) (hr : Relocated s t)
    (hd : t.buf.dataAddr ≠ s.buf.dataAddr) : ∃ t', bufRefresh t = .ok (t', -1) := by
  obtain ⟨c, k, g, rep⟩ := h.good
  obtain ⟨m', e, -⟩ := bufRefresh_fail hr.slot hr.flags (hr.layout g) rep.gs (bad_of rep he) (g.low _) (Ne.symm hd)
  exact ⟨_, e⟩

/-- **C03 is violated** likewise by `NS(Buffer_new_from_copy)`: such a buffer is never copied. -/
theorem C03_new_from_copy_violated {malloc : Nat → Nat} {s : St} {os : List Obj} {ds : Nat} (h : Reach s os)
    (he : EndsEmpty os) (hds : ds ≠ 0) (hm : MallocOk malloc s.mem) :
    ∃ m', newFromCopy malloc s.mem ds s.buf = .ok (m', none) := by
  obtain ⟨c, k, g, rep⟩ := h.good
  rcases newFromCopy_spec g rep.gs hds hm with ⟨h0, e⟩ | ⟨-, hs, -⟩ | ⟨-, -, m', e, -⟩
  · exact ⟨_, e⟩
  · exact absurd he (rep.strict.1 hs)
  · exact ⟨_, e⟩

/-- A copy of the buffer of `s` at `X`. -/
def Buf.copyAt (s : St) (X : Nat) : St :=
  ⟨⟨[(X, s.buf.capacity)], fun x => s.mem.byte (x - X + s.buf.dataAddr)⟩, { s.buf with dataAddr := X }, s.pool⟩

theorem Buf.copyAt_relocated {s : St} {c : Caps} {k : Content} (g : Good s c k) {X : Nat} (h0 : X ≠ 0) (h8 : X % 8 = 0)
    (hX : X + s.buf.capacity < W / 2) : Relocated s (copyAt s X) where
  slot := g.slot
  flags := g.remappable
  nz := h0
  al := h8
  lim := by
    show X + s.buf.capacity < W
    have : W / 2 < W := by decide
    omega
  half := by
    show s.buf.capacity ≤ W / 2
    omega
  val := Or.inr ⟨(X, s.buf.capacity), List.mem_singleton.2 rfl, Nat.le_refl _, Nat.le_refl _⟩
  fit := by
    rw [g.size]
    exact g.lay.head.fit
  bytes x hx := by
    show s.mem.byte (X + x - X + s.buf.dataAddr) = _
    congr 1; omega

/-- The hypotheses can be met: a buffer with two objects, copied to 2^40; with `n = 0` the last attribute
is empty. -/
theorem Buf.two_objects_copied (n : Nat) (hn : n ≤ 100) :
    ∃ s t, Reach s [plainObj clientMem 8, arrayObj clientMem n] ∧ Relocated s t ∧ t.buf.dataAddr ≠ s.buf.dataAddr := by
  obtain ⟨s, c, k, h, g, rep, hB, hp, hb, hcap, -⟩ := two_objects n hn
  have hW2 : W / 2 = 2 ^ 63 := by decide
  refine ⟨s, copyAt s (2 ^ 40), h, copyAt_relocated g (by norm_num) (by norm_num) (by omega), ?_⟩
  show 2 ^ 40 ≠ s.buf.dataAddr
  rw [hB]; norm_num

theorem Buf.endsEmpty_two (m : Mem) (n : Nat) : EndsEmpty [plainObj m 8, arrayObj m n] ↔ n = 0 := by
  constructor
  · rintro ⟨o, a, h1, h2, h3⟩
    simp only [List.getLast?_cons_cons, List.getLast?_singleton, Option.some.injEq] at h1
    subst h1
    simp only [arrayObj, List.getLast?_singleton, Option.some.injEq] at h2
    subst h2
    dsimp only at h3; omega
  · rintro rfl
    exact ⟨arrayObj m 0, ⟨8, 8, 0⟩, rfl, rfl, by simp⟩

/-- The hypotheses can be met, with a last attribute that is empty and with one that is not. -/
example : ∃ s t, Reach s [plainObj clientMem 8, arrayObj clientMem 5] ∧
    ¬ EndsEmpty [plainObj clientMem 8, arrayObj clientMem 5] ∧ Relocated s t ∧ t.buf.dataAddr ≠ s.buf.dataAddr := by
  obtain ⟨s, t, h1, h2, h3⟩ := two_objects_copied 5 (by omega)
  exact ⟨s, t, h1, by rw [endsEmpty_two]; omega, h2, h3⟩

example : ∃ s t, Reach s [plainObj clientMem 8, arrayObj clientMem 0] ∧
    EndsEmpty [plainObj clientMem 8, arrayObj clientMem 0] ∧ Relocated s t ∧ t.buf.dataAddr ≠ s.buf.dataAddr := by
  obtain ⟨s, t, h1, h2, h3⟩ := two_objects_copied 0 (by omega)
  exact ⟨s, t, h1, by rw [endsEmpty_two], h2, h3⟩

/-! ## C04 -/

/-- **C04.** If remapping the copied bytes of a reachable buffer succeeds, remapping is not needed any more,
and remapping again succeeds and changes nothing. -/
theorem C04_remap_idempotent {s t : St} {os : List Obj} {m' : Mem} (h : Reach s os) (hr : Relocated s t)
    (he : remap t.mem t.buf.dataAddr t.buf.slot = .ok (m', true)) :
    needsRemapping m' t.buf.dataAddr t.buf.slot = .ok false ∧
      remap m' t.buf.dataAddr t.buf.slot = .ok (m', true) := by
  obtain ⟨c, k, g, rep⟩ := h.good
  have lay := hr.layout g
  rw [hr.slot] at he ⊢
  have key : Layout m' t.buf.dataAddr t.buf.dataAddr t.buf.capacity c k := by
    by_cases hd : s.buf.dataAddr = t.buf.dataAddr
    · rw [hd] at lay
      rw [remap_same lay] at he
      simp only [Res.ok.injEq, Prod.mk.injEq, and_true] at he
      rw [← he]; exact lay
    · by_cases hs : k.Strict
      · obtain ⟨m1, e, -, l1, -⟩ := remap_ok lay hs (g.low _)
        rw [e] at he
        simp only [Res.ok.injEq, Prod.mk.injEq, and_true] at he
        rw [← he]; exact l1
      · have hb : ∃ p ∈ k.ptrs, 8 * k.nS ≤ p.2 := by
          by_contra hcon
          exact hs (Content.strict_of rep.gs fun p hp => Nat.lt_of_not_le fun hle => hcon ⟨p, hp, hle⟩)
        obtain ⟨m1, e, -⟩ := remap_fail lay rep.gs hb (g.low _) hd
        rw [e] at he
        simp at he
  refine ⟨?_, remap_same key⟩
  rw [key.head.needsRemapping]
  simp

/-- **C04** (`NS(Buffer_remap)`). The same for the buffer structure: after a successful remap, remapping
again changes nothing and the buffer does not report that it needs remapping. -/
theorem C04_buffer_remap_idempotent {s t t' : St} {os : List Obj} (h : Reach s os) (hr : Relocated s t)
    (he : bufRemap t = .ok (t', 0)) : bufNeedsRemapping t' = .ok false ∧ bufRemap t' = .ok (t', 0) := by
  obtain ⟨c, k, g, rep⟩ := h.good
  have lay := hr.layout g
  have hfl := hr.flags
  have key : t'.buf.slot = 8 ∧ t'.buf.flags = t.buf.flags ∧ t'.buf.datastore = t.buf.datastore ∧
      t'.mem.load64 t'.buf.dataAddr = .ok t'.buf.dataAddr ∧ t'.buf.dataAddr ≠ 0 := by
    unfold bufRemap at he
    have ha := hfl
    simp only [Bool.and_eq_true] at ha
    rw [if_pos ha.2] at he
    dsimp only at he
    rw [lay.head.load0, Res.ok_bind] at he
    by_cases hd : s.buf.dataAddr = t.buf.dataAddr
    · rw [if_pos ⟨lay.head.nzA, hd⟩] at he
      simp only [Res.pure_eq, Res.ok.injEq, Prod.mk.injEq, and_true] at he
      subst he
      exact ⟨hr.slot, rfl, rfl, by rw [lay.head.load0, hd], hr.nz⟩
    · rw [if_neg (by rintro ⟨-, h⟩; exact hd h), hr.slot, if_pos ⟨lay.head.nzA, by omega, hr.nz⟩] at he
      by_cases hs : k.Strict
      · obtain ⟨m1, e, -, l1, -⟩ := remap_ok lay hs (g.low _)
        have hh := l1.head
        have hle := hh.len_ge
        rw [e, Res.ok_bind] at he
        simp only [if_true] at he
        rw [hh.load0, hh.load (o := 8) (by omega) (by omega), hh.load (o := 16) (by omega) (by omega),
          hh.sectionData (id := 4) (by omega) (by omega), hh.numEntities (id := 4) (by omega) (by omega)] at he
        simp only [Res.ok_bind, Res.pure_eq, Res.ok.injEq, Prod.mk.injEq, and_true] at he
        subst he
        exact ⟨rfl, rfl, rfl, hh.load0, hr.nz⟩
      · have hb : ∃ p ∈ k.ptrs, 8 * k.nS ≤ p.2 := by
          by_contra hcon
          exact hs (Content.strict_of rep.gs fun p hp => Nat.lt_of_not_le fun hle => hcon ⟨p, hp, hle⟩)
        obtain ⟨m1, e, -⟩ := remap_fail lay rep.gs hb (g.low _) hd
        rw [e, Res.ok_bind] at he
        simp [Res.pure_eq] at he
  obtain ⟨k1, k2, k3, k4, k5⟩ := key
  have hfl' : (t'.buf.hasDatastore && t'.buf.allowRemapping) = true := by
    rw [← hfl]
    simp [Buffer.hasDatastore, Buffer.allowRemapping, Buffer.has, k2, k3]
  refine ⟨?_, ?_⟩
  · unfold bufNeedsRemapping needsRemapping
    rw [if_pos hfl', k1, if_pos (by omega), k4, Res.ok_bind]
    simp [Res.pure_eq]
  · unfold bufRemap
    have ha := hfl'
    simp only [Bool.and_eq_true] at ha
    rw [if_pos ha.2]
    dsimp only
    rw [k4, Res.ok_bind, if_pos ⟨k5, rfl⟩]
    rfl

/-- A remap that fails leaves a buffer that does not report that it needs remapping either, and remapping
it again reports success: the header has been remapped before the pointer that is taken for an error is
reached. -/
theorem C04_retry_after_failure {s t : St} {os : List Obj} (h : Reach s os) (he : EndsEmpty os) (hr : Relocated s t)
    (hd : t.buf.dataAddr ≠ s.buf.dataAddr) :
    ∃ m', remap t.mem t.buf.dataAddr t.buf.slot = .ok (m', false) ∧
      needsRemapping m' t.buf.dataAddr t.buf.slot = .ok false ∧
      remap m' t.buf.dataAddr t.buf.slot = .ok (m', true) := by
  obtain ⟨c, k, g, rep⟩ := h.good
  rw [hr.slot]
  obtain ⟨m', e, -, hh, -⟩ := remap_fail_head (hr.layout g) rep.gs (bad_of rep he) (g.low _) (Ne.symm hd)
  refine ⟨m', e, by rw [hh.needsRemapping]; simp, ?_⟩
  have hlim := hh.limB
  unfold remap addrOffset
  rw [if_pos ⟨hr.nz, by omega, hr.al⟩, hh.load0, Res.ok_bind, addrDiff_ok (by have : 0 < W / 2 := by decide
                                                                              omega), Res.ok_bind]
  simp only [Res.pure_eq, Res.ok_bind]
  rw [if_neg (by rw [not_not, diff_eq_zero (by omega) (by omega)])]

/-! ## C05 -/

/-- **C05** (partial: the last attribute of the last object must not be empty; the normalised address must
not be null). Writing a reachable buffer with a normalised base address leaves a buffer that holds the
objects; the file has the length of the buffer, and wherever its contents are loaded, refreshing gives a
buffer that holds the objects. -/
theorem C05_write_partial {s : St} {os : List Obj} {N : Nat} (h : Reach s os) (hne : ¬ EndsEmpty os) (nz : N ≠ 0)
    (limN : N + s.buf.capacity < W) (hN : N ≠ s.buf.dataAddr + W / 2) :
    ∃ s' file, writeNormalized s N = .ok (s', some file, true) ∧ Reach s' os ∧ Holds s' os ∧
      file.length = s.buf.dataSize ∧
      ∀ t : St, Place t file.length → Loaded t.mem t.buf.dataAddr file → N + t.buf.capacity < W →
        N ≠ t.buf.dataAddr + W / 2 →
        ∃ t', bufRefresh t = .ok (t', 0) ∧ Holds t' os ∧ t'.buf.dataAddr = t.buf.dataAddr := by
  obtain ⟨c, k, g, rep⟩ := h.good
  obtain ⟨s', file, e, g', hl, hload⟩ := writeNormalized_ok g rep.gs (rep.strict.2 hne) nz limN hN
  refine ⟨s', file, e, Reach.write h nz limN hN e, g'.holds rep, by rw [hl, g.size], fun t ht hlo hlim hNt => ?_⟩
  have hf := ht.fit
  rw [hl] at hf
  obtain ⟨m', e', -, lay, -⟩ := bufRefresh_ok ht.slot ht.flags
    (hload t.mem t.buf.dataAddr t.buf.capacity hlo ht.nz ht.al ht.lim hlim hf ht.val) (rep.strict.2 hne) hNt
  exact ⟨_, e', Layout.holds lay ht.slot rfl rfl rep, rfl⟩

/-- **C05 is violated.** If the last attribute of the last object is empty and the normalised address is
another one, writing never reports success: shifting the addresses back fails. -/
theorem C05_write_violated {s s' : St} {os : List Obj} {N : Nat} {f : Option (List UInt8)} {ok : Bool} (h : Reach s os)
    (he : EndsEmpty os) (nz : N ≠ 0) (limN : N + s.buf.capacity < W) (hN : N ≠ s.buf.dataAddr + W / 2)
    (hd : N ≠ s.buf.dataAddr) (hw : writeNormalized s N = .ok (s', f, ok)) : ok = false := by
  obtain ⟨c, k, g, rep⟩ := h.good
  cases ok with
  | false => rfl
  | true =>
    rcases (writeNormalized_true g rep.gs nz limN hN hw).2 with hs | e
    · exact absurd he (rep.strict.1 hs)
    · exact absurd e hd

/-- The hypotheses can be met: a buffer with two objects is written with the base address 2^12, with a last
attribute that is empty and with one that is not; the file is loaded at 2^40. -/
example (n : Nat) (hn : n ≤ 100) : ∃ s, Reach s [plainObj clientMem 8, arrayObj clientMem n] ∧
    (2 ^ 12 : Nat) ≠ 0 ∧ 2 ^ 12 + s.buf.capacity < W ∧ 2 ^ 12 ≠ s.buf.dataAddr + W / 2 ∧ 2 ^ 12 ≠ s.buf.dataAddr ∧
    ∀ file : List UInt8, file.length = s.buf.dataSize → ∃ t : St, Place t file.length ∧ Loaded t.mem t.buf.dataAddr file ∧
      2 ^ 12 + t.buf.capacity < W ∧ 2 ^ 12 ≠ t.buf.dataAddr + W / 2 := by
  obtain ⟨s, c, k, h, g, rep, hB, hp, hb, hcap, -⟩ := two_objects n hn
  have hW2 : W / 2 = 2 ^ 63 := by decide
  have hW : W / 2 < W := by decide
  have hfit := g.lay.head.fit
  refine ⟨s, h, by norm_num, by omega, by omega, by rw [hB]; norm_num, fun file hl => ?_⟩
  rw [g.size] at hl
  refine ⟨⟨⟨[(2 ^ 40, s.buf.capacity)], fun x => (file[x - 2 ^ 40]?).getD 0⟩, { s.buf with dataAddr := 2 ^ 40 }, s.pool⟩,
    ⟨g.slot, g.remappable, ?_, ?_, ?_, ?_, ?_, ?_⟩, ?_, ?_, ?_⟩
  · show (2 ^ 40 : Nat) ≠ 0
    norm_num
  · show (2 ^ 40 : Nat) % 8 = 0
    norm_num
  · show 2 ^ 40 + s.buf.capacity < W
    omega
  · show s.buf.capacity ≤ W / 2
    omega
  · exact Or.inr ⟨(2 ^ 40, s.buf.capacity), List.mem_singleton.2 rfl, Nat.le_refl _, Nat.le_refl _⟩
  · show file.length ≤ s.buf.capacity
    omega
  · intro x v hv
    show (file[2 ^ 40 + x - 2 ^ 40]?).getD 0 = v
    rw [Nat.add_sub_cancel_left, hv]
    rfl
  · show 2 ^ 12 + s.buf.capacity < W
    omega
  · show 2 ^ 12 ≠ 2 ^ 40 + W / 2
    omega

/-! ## C06 -/

namespace Buf

theorem load64_frame {m m' : Mem} (hb : m'.blocks = m.blocks) {a E : Nat} (he : ∀ x, x < E → m'.byte x = m.byte x)
    (ha : a + 8 ≤ E) : m'.load64 a = m.load64 a := by
  unfold Mem.load64
  rw [show m'.word a = m.word a from Mem.word_eq_of_bytes fun i hi => he _ (by omega)]
  simp only [Mem.valid_of_blocks hb]

/-- What the library reports about a section stays as it is if the header of the buffer and that of the
section do. -/
theorem report_frame {m m' : Mem} {B cap : Nat} {c n : Caps} (h : Head m B B cap c n) (hb : m'.blocks = m.blocks)
    {E id : Nat} (he : ∀ x, x < B + E → m'.byte x = m.byte x) (h64 : 64 ≤ E) (h1 : 3 ≤ id) (h2 : id ≤ 6)
    (hE : off c id + 16 ≤ E) :
    maxNumEntities m' B id 8 = .ok (cnt c id) ∧ numEntities m' B id 8 = .ok (cnt n id) := by
  have e0 : sectionPtr m' B id 8 = .ok (B + off c id) := by
    rw [← h.sectionPtr h1 h2]
    unfold sectionPtr
    rw [load64_frame hb he (by omega)]
  have hne : B + off c id ≠ 0 := by have := h.nzB; omega
  constructor
  · rw [← h.maxNumEntities h1 h2]
    simp only [maxNumEntities, maxSize, e0, h.sectionPtr h1 h2, Res.ok_bind, if_pos hne]
    rw [load64_frame hb he (by omega)]
  · rw [← h.numEntities h1 h2]
    simp only [numEntities, e0, h.sectionPtr h1 h2, Res.ok_bind, if_pos hne]
    rw [load64_frame hb he (by omega)]

end Buf

/-- **C06** (partial: about the capacity of the garbage section nothing is said in case of failure).
Reserving in place on a reachable buffer is defined; bytes outside of the buffer do not change. If it
succeeds, the capacities are the requested ones and the objects are kept. If it fails, the objects, the
numbers and the other capacities are kept. -/
theorem C06_reserve_partial {s : St} {os : List Obj} {c n c' : Caps} (h : Reach s os) (hc : Capacity s c) (hn : Used s n)
    (hw : c'.len < W) :
    ∃ m' rc len, reserve s.mem s.buf.dataAddr c' s.buf.capacity 8 = .ok (m', rc, len) ∧
      m'.blocks = s.mem.blocks ∧
      (∀ x, x < s.buf.dataAddr ∨ s.buf.dataAddr + s.buf.capacity ≤ x → m'.byte x = s.mem.byte x) ∧
      (rc = 0 → ∃ p, sectionData m' s.buf.dataAddr 4 8 = .ok p ∧
        Holds { s with mem := m', buf := { s.buf with objectAddr := p } } os ∧
        Capacity { s with mem := m' } c' ∧ Used { s with mem := m' } n ∧
        bufferLength m' s.buf.dataAddr 8 = .ok len) ∧
      (rc ≠ 0 → Holds { s with mem := m' } os ∧
        maxNumEntities m' s.buf.dataAddr 3 8 = .ok c.slots ∧ maxNumEntities m' s.buf.dataAddr 4 8 = .ok c.objs ∧
        maxNumEntities m' s.buf.dataAddr 5 8 = .ok c.dataptrs ∧
        numEntities m' s.buf.dataAddr 3 8 = .ok n.slots ∧ numEntities m' s.buf.dataAddr 4 8 = .ok n.objs ∧
        numEntities m' s.buf.dataAddr 5 8 = .ok n.dataptrs ∧
        bufferLength m' s.buf.dataAddr 8 = .ok s.buf.dataSize) := by
  obtain ⟨k, g, rep, rfl⟩ := h.good_of hc hn
  have hh := g.lay.head
  have fit := hh.fit
  have same : Holds { s with mem := s.mem } os ∧
      maxNumEntities s.mem s.buf.dataAddr 3 8 = .ok c.slots ∧ maxNumEntities s.mem s.buf.dataAddr 4 8 = .ok c.objs ∧
      maxNumEntities s.mem s.buf.dataAddr 5 8 = .ok c.dataptrs ∧
      numEntities s.mem s.buf.dataAddr 3 8 = .ok k.counts.slots ∧ numEntities s.mem s.buf.dataAddr 4 8 = .ok k.counts.objs ∧
      numEntities s.mem s.buf.dataAddr 5 8 = .ok k.counts.dataptrs ∧
      bufferLength s.mem s.buf.dataAddr 8 = .ok s.buf.dataSize := by
    have c1 := hc.slots; have c2 := hc.objs; have c3 := hc.dataptrs
    have n1 := hn.slots; have n2 := hn.objs; have n3 := hn.dataptrs
    rw [g.slot] at c1 c2 c3 n1 n2 n3
    exact ⟨g.holds rep, c1, c2, c3, n1, n2, n3, by rw [g.size]; exact hh.bufferLength⟩
  by_cases hle : k.counts.Le c'
  swap
  · exact ⟨_, _, _, reserve_refused hh fun x => hle x.2, rfl, fun _ _ => rfl, fun x => absurd x (by decide), fun _ => same⟩
  by_cases hlen : c'.len ≤ s.buf.capacity
  swap
  · exact ⟨_, _, _, reserve_too_long hh fit (by omega) hw hle, rfl, fun _ _ => rfl, fun x => absurd x (by decide),
      fun _ => same⟩
  by_cases hg : StuckG c k.counts c'
  · exact ⟨_, _, _, reserve_stuckG hh (Nat.le_refl _) fit hlen hle hg, rfl, fun _ _ => rfl, fun x => absurd x (by decide),
      fun _ => same⟩
  by_cases hd : StuckD c k.counts c'
  · obtain ⟨m', r, -, b, f⟩ := reserve_stuckD hh (Nat.le_refl _) fit hlen hle hg hd
    have hL : c.len = 128 + 8 * c.slots + 24 * c.objs + 8 * c.dataptrs + 16 * c.garbage := rfl
    have hL' : c'.len = 128 + 8 * c'.slots + 24 * c'.objs + 8 * c'.dataptrs + 16 * c'.garbage := rfl
    have o4 : off c 4 = 80 + 8 * c.slots := rfl
    have o5 : off c 5 = 96 + 8 * c.slots + 24 * c.objs := rfl
    have o6 : off c 6 = 112 + 8 * c.slots + 24 * c.objs + 8 * c.dataptrs := rfl
    have o6' : off c' 6 = 112 + 8 * c'.slots + 24 * c'.objs + 8 * c'.dataptrs := rfl
    have le1 := hh.le.slots; have le2 := hh.le.objs; have le3 := hh.le.dataptrs
    obtain ⟨E, hE, hE1, hE2⟩ : ∃ E, off c 5 + (16 + 8 * k.counts.dataptrs) ≤ E ∧ E ≤ off c 6 ∧ E ≤ off c' 6 := by
      refine ⟨off c 5 + (16 + 8 * k.counts.dataptrs), Nat.le_refl _, by omega, ?_⟩
      by_contra hcon
      exact hg ⟨by omega, by omega⟩
    have he : ∀ x, x < s.buf.dataAddr + E → m'.byte x = s.mem.byte x := fun x hx => f x (Or.inl ⟨by omega, by omega⟩)
    have r3 := report_frame hh b he (id := 3) (by omega) (by omega) (by omega) (by simp only [off]; omega)
    have r4 := report_frame hh b he (id := 4) (by omega) (by omega) (by omega) (by omega)
    have r5 := report_frame hh b he (id := 5) (by omega) (by omega) (by omega) (by omega)
    have hlenr : bufferLength m' s.buf.dataAddr 8 = .ok s.buf.dataSize := by
      rw [g.size, ← hh.bufferLength]
      unfold bufferLength
      rw [load64_frame b he (by omega)]
    have kS : k.nS = k.counts.slots := rfl
    have kO : k.recs.length = k.counts.objs := rfl
    have kD : k.ptrs.length = k.counts.dataptrs := rfl
    refine ⟨m', _, _, r, b, ?_, fun x => absurd x (by decide), fun _ =>
      ⟨?_, r3.1, r4.1, r5.1, r3.2, r4.2, r5.2, hlenr⟩⟩
    · rintro x (hx | hx)
      · exact f x (Or.inl ⟨by omega, by omega⟩)
      · exact f x (Or.inr (by omega))
    · refine (holds_of (s := { s with mem := m' }) (c := c) (k := k) g.slot g.objs g.num hh.alB ((Mem.valid_of_blocks b).2
        (Mem.valid_sub hh.val (Nat.le_refl _) (by dsimp only; omega))) r4.2 hh.le.slots hh.le.objs g.lay.ok
        (g.lay.recs.frame fun x hx => he _ (by omega)) (g.lay.ptrs.frame (fun x hx => he _ (by omega)) ?_)
        (g.lay.data.frame fun x hx _ => he _ (by omega)) rep).1
      intro p hp x hx
      have := (g.lay.ok.ptr_ok p hp).2.1
      exact he _ (by omega)
  · obtain ⟨m', r, b, lay, f⟩ := reserve_ok g.lay (Nat.le_refl _) fit hlen hle hg hd
    refine ⟨m', _, _, r, b, f, fun _ => ⟨_, lay.head.sectionData (id := 4) (by omega) (by omega),
      Layout.holds lay g.slot (Nat.add_assoc _ _ _) g.num rep, ?_, ?_, lay.head.bufferLength⟩, fun x => absurd rfl x⟩
    · refine ⟨?_, ?_, ?_, ?_⟩ <;> dsimp only <;> rw [g.slot] <;> exact lay.head.maxNumEntities (by omega) (by omega)
    · refine ⟨?_, ?_, ?_, ?_⟩ <;> dsimp only <;> rw [g.slot] <;> exact lay.head.numEntities (by omega) (by omega)

/-- The hypotheses can be met: a buffer with two objects, any request of less than 2^64 bytes. -/
example : ∃ s os c n, Reach s os ∧ os.length = 2 ∧ Capacity s c ∧ Used s n ∧ (⟨1, 2, 3, 4⟩ : Caps).len < W := by
  obtain ⟨s, c, k, h, g, -⟩ := two_objects 5 (by omega)
  exact ⟨s, _, c, _, h, rfl, g.capacity, g.used, by decide⟩

/-- **C06 is violated.** If the data pointer section cannot move down, because the used part of the object section
is in the way, but the garbage section has to move up, reserving fails after the garbage section has been
moved; the old header of the garbage section has been zeroed, but still counts. The capacity of the
garbage section was `c.garbage`; afterwards it is 0. -/
theorem C06_reserve_violated {s : St} {os : List Obj} {c n c' : Caps} (h : Reach s os) (hc : Capacity s c) (hn : Used s n)
    (hle : n.Le c') (hlen : c'.len ≤ s.buf.capacity)
    (hD : 8 * c'.slots + 24 * c'.objs < 8 * c.slots + 24 * n.objs)
    (hG : c.slots + 3 * c.objs + c.dataptrs < c'.slots + 3 * c'.objs + c'.dataptrs) :
    ∃ m' len, reserve s.mem s.buf.dataAddr c' s.buf.capacity 8 = .ok (m', -1, len) ∧
      maxNumEntities m' s.buf.dataAddr 6 8 = .ok 0 := by
  obtain ⟨k, g, rep, rfl⟩ := h.good_of hc hn
  have hh := g.lay.head
  have fit := hh.fit
  have hL : c.len = 128 + 8 * c.slots + 24 * c.objs + 8 * c.dataptrs + 16 * c.garbage := rfl
  have hL' : c'.len = 128 + 8 * c'.slots + 24 * c'.objs + 8 * c'.dataptrs + 16 * c'.garbage := rfl
  have o4 : off c 4 = 80 + 8 * c.slots := rfl
  have o5 : off c 5 = 96 + 8 * c.slots + 24 * c.objs := rfl
  have o5' : off c' 5 = 96 + 8 * c'.slots + 24 * c'.objs := rfl
  have o6 : off c 6 = 112 + 8 * c.slots + 24 * c.objs + 8 * c.dataptrs := rfl
  have o6' : off c' 6 = 112 + 8 * c'.slots + 24 * c'.objs + 8 * c'.dataptrs := rfl
  have le1 := hh.le.slots; have le2 := hh.le.objs; have le3 := hh.le.dataptrs
  have hg0 : k.counts.garbage = 0 := by simp [Content.counts, rep.gs]
  have hg : ¬ StuckG c k.counts c' := fun x => absurd x.1 (by omega)
  have hd : StuckD c k.counts c' := ⟨by omega, by omega⟩
  obtain ⟨m', r, mv, b, f⟩ := reserve_stuckD hh (Nat.le_refl _) fit hlen hle hg hd
  refine ⟨m', _, r, ?_⟩
  have hp : sectionPtr m' s.buf.dataAddr 6 8 = .ok (s.buf.dataAddr + off c 6) := by
    rw [← hh.sectionPtr (id := 6) (by omega) (by omega)]
    unfold sectionPtr
    rw [load64_frame b (E := s.buf.dataAddr + 64) (fun x hx => f x (Or.inl ⟨by omega, by omega⟩)) (by omega)]
  have hw : m'.word (s.buf.dataAddr + off c 6) = 0 := by
    rw [hg0] at mv
    unfold moveSection at mv
    rw [if_neg (by omega), if_pos (by omega)] at mv
    obtain ⟨m1, e1, mv⟩ := Res.bind_eq_ok.1 mv
    obtain ⟨m2, e2, mv⟩ := Res.bind_eq_ok.1 mv
    dsimp only at mv
    have h2 : m2.word (s.buf.dataAddr + off c 6) = 0 := by
      obtain ⟨-, rfl⟩ := Mem.memzero_eq_ok e2
      exact Mem.word_zero_in _ ⟨Nat.le_refl _, by split <;> omega⟩
    by_cases hx : 16 + 16 * 0 < 16 + 16 * c'.garbage
    · rw [if_pos hx] at mv
      obtain ⟨m3, e3, mv⟩ := Res.bind_eq_ok.1 mv
      simp only [Res.pure_eq, Res.ok.injEq, Prod.mk.injEq, and_true] at mv
      subst mv
      obtain ⟨-, rfl⟩ := Mem.memzero_eq_ok e3
      rw [Mem.word_zero_out _ (Or.inl (by omega)), h2]
    · rw [if_neg hx] at mv
      simp only [Res.ok_bind, Res.pure_eq, Res.ok.injEq, Prod.mk.injEq, and_true] at mv
      rw [← mv, h2]
  have hl : m'.load64 (s.buf.dataAddr + off c 6) = .ok 0 := by
    rw [Mem.load64_ok, hw]
    · have := hh.alB; omega
    · exact (Mem.valid_of_blocks b).2 (Mem.valid_sub hh.val (by omega) (by omega))
  simp only [maxNumEntities, maxSize, hp, Res.ok_bind, hl]
  rw [if_pos (by have := hh.nzB; omega)]
  rfl

/-- The hypotheses can be met. -/
example : ∃ s c n c', Reach s [] ∧ Capacity s c ∧ Used s n ∧ n.Le c' ∧ c'.len ≤ s.buf.capacity ∧ c.garbage = 1 ∧
    8 * c'.slots + 24 * c'.objs < 8 * c.slots + 24 * n.objs ∧
    c.slots + 3 * c.objs + c.dataptrs < c'.slots + 3 * c'.objs + c'.dataptrs := by
  obtain ⟨s, h, g, -, -, -, hcap, -⟩ := start clientMem_blocks ⟨2, 10, 0, 1⟩ (by decide)
  refine ⟨s, _, _, ⟨1, 5, 10, 1⟩, h, g.capacity, g.used, ⟨by decide, by decide, by decide, by decide⟩, ?_, rfl, by decide, by decide⟩
  have : (⟨1, 5, 10, 1⟩ : Caps).len = 288 := rfl
  omega

end SixTrack
