import Verif.Buffer.Witness
import Verif.Buffer.Modify

/-!
# Properties C01, C02, C07-C12: buffers of objects

`Reach s os` (Verif/Buffer/Objects.lean): the buffer in state `s` came about by calls of the
library by which it should hold the objects `os`.  `Holds s os`: looking up and reading gives
exactly these objects.
-/

namespace SixTrack
open Buf
open MemPool (Pool)

namespace Buf

/-- The capacities, as the library reports them. -/
structure Capacity (s : St) (c : Caps) : Prop where
  objs : maxNumEntities s.mem s.buf.dataAddr 4 s.buf.slot = .ok c.objs
  slots : maxNumEntities s.mem s.buf.dataAddr 3 s.buf.slot = .ok c.slots
  dataptrs : maxNumEntities s.mem s.buf.dataAddr 5 s.buf.slot = .ok c.dataptrs
  garbage : maxNumEntities s.mem s.buf.dataAddr 6 s.buf.slot = .ok c.garbage

/-- The numbers of used entries, as the library reports them. -/
structure Used (s : St) (n : Caps) : Prop where
  objs : numEntities s.mem s.buf.dataAddr 4 s.buf.slot = .ok n.objs
  slots : numEntities s.mem s.buf.dataAddr 3 s.buf.slot = .ok n.slots
  dataptrs : numEntities s.mem s.buf.dataAddr 5 s.buf.slot = .ok n.dataptrs
  garbage : numEntities s.mem s.buf.dataAddr 6 s.buf.slot = .ok n.garbage

/-- There is spare capacity for the object in all sections. -/
structure Room (n c : Caps) (o : Obj) : Prop where
  objs : n.objs + 1 ≤ c.objs
  slots : 8 * n.slots + o.total ≤ 8 * c.slots
  dataptrs : n.dataptrs + o.attrs.length ≤ c.dataptrs

theorem Core.capacity {s : St} {c : Caps} {k : Content} (h : Core s c k) : Capacity s c := by
  have hh := h.lay.head
  refine ⟨?_, ?_, ?_, ?_⟩ <;> rw [h.slot] <;> exact hh.maxNumEntities (by omega) (by omega)

theorem Core.used {s : St} {c : Caps} {k : Content} (h : Core s c k) : Used s k.counts := by
  have hh := h.lay.head
  refine ⟨?_, ?_, ?_, ?_⟩ <;> rw [h.slot] <;> exact hh.numEntities (by omega) (by omega)

theorem Capacity.unique {s : St} {c c' : Caps} (h : Capacity s c) (h' : Capacity s c') : c = c' := by
  have h1 := h.objs; have h2 := h.slots; have h3 := h.dataptrs; have h4 := h.garbage
  rw [h'.objs] at h1; rw [h'.slots] at h2; rw [h'.dataptrs] at h3; rw [h'.garbage] at h4
  cases c; cases c'
  simp only [Res.ok.injEq] at h1 h2 h3 h4
  subst h1 h2 h3 h4; rfl

theorem Used.unique {s : St} {c c' : Caps} (h : Used s c) (h' : Used s c') : c = c' := by
  have h1 := h.objs; have h2 := h.slots; have h3 := h.dataptrs; have h4 := h.garbage
  rw [h'.objs] at h1; rw [h'.slots] at h2; rw [h'.dataptrs] at h3; rw [h'.garbage] at h4
  cases c; cases c'
  simp only [Res.ok.injEq] at h1 h2 h3 h4
  subst h1 h2 h3 h4; rfl

/-- For a reachable buffer whose capacities and numbers are known. -/
theorem Reach.good_of {s : St} {os : List Obj} (h : Reach s os) {c n : Caps} (hc : Capacity s c) (hn : Used s n) :
    ∃ k, Good s c k ∧ Represents k os ∧ k.counts = n := by
  obtain ⟨c', k, g, rep⟩ := h.good
  obtain rfl := hc.unique g.capacity
  obtain rfl := hn.unique g.used
  exact ⟨k, g, rep, rfl⟩

theorem room_iff {k : Content} {c : Caps} {o : Obj} (ho : o.Ok) :
    k.room c o.size o.attrs ↔ Room k.counts c o := by
  have hs := ho.slots
  constructor
  · rintro ⟨h1, h2, h3⟩
    exact ⟨h1, by simp only [Content.counts]; omega, h3⟩
  · rintro ⟨h1, h2, h3⟩
    exact ⟨h1, by simp only [Content.counts] at h2; omega, h3⟩

end Buf

/-! ## C01 -/

/-- **C01.** Successfully adding an object to a reachable buffer gives a buffer that holds the
objects it held before and, as the last one, the new object; the returned address is that of
the new object's record; nothing outside of the buffer is changed. -/
theorem C01_add_object {malloc : Nat → Nat} {s s' : St} {os : List Obj} {src r : Nat} {o : Obj} (h : Reach s os)
    (hm : MallocOk malloc s.mem) (ho : o.Ok) (hg : Given s src o)
    (ha : addObject malloc s src o.size o.typeId o.attrs = .ok (s', r)) (hr : r ≠ 0) :
    Holds s' (os ++ [o]) ∧ bufGetObject s' os.length = .ok r ∧
      ∀ x, s.mem.ext s.pool.buffer x 1 → s'.mem.valid x 1 ∧ s'.mem.byte x = s.mem.byte x := by
  obtain ⟨c, k, g, rep⟩ := h.good
  rcases addObject_spec g rep.gs ho.spec (hg.source g.toCore) ho.typ (g.need_lim ho) hm with
    ⟨s1, c1, data, e, g1, kp, d1, d2, -⟩ | ⟨s1, e, -⟩
  · rw [e] at ha
    simp only [Res.ok.injEq, Prod.mk.injEq] at ha
    obtain ⟨rfl, rfl⟩ := ha
    have rep1 := rep.add g.lay.ok ho (data := data) (fun j hj hp => by rw [d1 j hj hp, hg.bytes j hj hp]) d2
    have hnz := g1.lay.head.nzB
    refine ⟨g1.holds rep1, ?_, fun x hx => ?_⟩
    · have hn := (g1.holds rep1).num
      unfold bufGetObject
      rw [hn, Res.ok_bind, Res.pure_eq, if_pos ⟨by rw [g1.objs]; omega, by simp⟩, g1.objs, ← rep.len]
      congr 1; omega
    · rw [g.pbuf] at hx
      refine ⟨?_, kp.byte x hx⟩
      rcases kp.ext x 1 hx with h0 | ⟨b, hb, -, h1, h2⟩
      · omega
      · exact Or.inr ⟨b, hb, h1, h2⟩
  · rw [e] at ha
    simp only [Res.ok.injEq, Prod.mk.injEq] at ha
    exact absurd ha.2.symm hr

/-- **C01** (definedness). Adding never runs into undefined behaviour. -/
theorem C01_add_defined {malloc : Nat → Nat} {s : St} {os : List Obj} {src : Nat} {o : Obj} (h : Reach s os)
    (hm : MallocOk malloc s.mem) (ho : o.Ok) (hg : Given s src o) :
    ∃ s' r, addObject malloc s src o.size o.typeId o.attrs = .ok (s', r) := by
  obtain ⟨c, k, g, rep⟩ := h.good
  rcases addObject_spec g rep.gs ho.spec (hg.source g.toCore) ho.typ (g.need_lim ho) hm with
    ⟨s1, c1, data, e, -⟩ | ⟨s1, e, -⟩
  · exact ⟨_, _, e⟩
  · exact ⟨_, _, e⟩

/-- The hypotheses of `C01_add_object` can be met: an object with an array of three numbers is
added to a buffer with an object. -/
example : ∃ (s s' : St) (os : List Obj) (src r : Nat) (o : Obj), Reach s os ∧ MallocOk noMem s.mem ∧ o.Ok ∧
    Given s src o ∧ addObject noMem s src o.size o.typeId o.attrs = .ok (s', r) ∧ r ≠ 0 ∧ os ≠ [] ∧ o.attrs ≠ [] := by
  obtain ⟨s0, r0, g0, b0, p0, bl0, c0, f0⟩ := start clientMem_blocks ⟨2, 200, 1, 0⟩ (by decide)
  have hpb0 : s0.pool.buffer ≠ 2 ^ 30 := by rw [g0.pbuf, b0]; decide
  have room0 : Content.empty.room ⟨2, 200, 1, 0⟩ 8 [] := by refine ⟨?_, ?_, ?_⟩ <;> decide
  obtain ⟨s1, a1, d1, e1, n1, r1, g1, rep1, ba1, ca1, pa1, bl1, k1⟩ := r0.add_room g0 Represents.empty
    (plainObj_ok (m := clientMem) (n := 8) (by omega) (by omega))
    (plainObj_given (m := clientMem) (by omega) (by omega) (by rw [bl0]; simp) hpb0 f0) room0 (noMem_ok _)
  have f1 : ∀ x, 2 ^ 30 ≤ x → x < 2 ^ 30 + 4096 → s1.mem.byte x = clientMem.byte x := by
    intro x h1 h2
    rw [k1.byte x (Or.inr ⟨(2 ^ 30, 4096), by rw [bl0]; simp, by rw [b0]; decide, h1, by dsimp only; omega⟩), f0 x h1 h2]
  have hg := arrayObj_given (m := clientMem) (s := s1) (n := 3) (by omega) (by rw [bl1, bl0]; simp)
    (by rw [pa1]; exact hpb0) f1 clientMem_word
  have room1 : (Content.empty.add (plainObj clientMem 8).typeId (plainObj clientMem 8).size
      (plainObj clientMem 8).attrs d1).room ⟨2, 200, 1, 0⟩ (arrayObj clientMem 3).size (arrayObj clientMem 3).attrs := by
    refine ⟨by simp [Content.add, Content.empty], (by decide : 1 + 5 ≤ 200), by simp [Content.add, Content.empty, plainObj, arrayObj, newPtrs]⟩
  obtain ⟨s2, a2, d2, e2, n2, -⟩ := r1.add_room g1 rep1 (arrayObj_ok (by omega)) hg room1 (noMem_ok _)
  exact ⟨s1, s2, _, _, a2, _, r1, noMem_ok _, arrayObj_ok (by omega), hg, e2, n2, by simp, by simp [arrayObj]⟩

/-! ## C02 -/

/-- **C02** (partial: for histories whose steps report success, without
`NS(Buffer_reserve_capacity)`). A reachable buffer holds exactly the objects that were added to
it since it was made or last cleared or reset, in this order, with their contents. -/
theorem C02_list_of_objects_partial {s : St} {os : List Obj} (h : Reach s os) : Holds s os := by
  obtain ⟨c, k, g, rep⟩ := h.good
  exact g.holds rep

example : ∃ s, Reach s [plainObj clientMem 8, arrayObj clientMem 3] := by
  obtain ⟨s, c, k, h, -⟩ := two_objects 3 (by omega)
  exact ⟨s, h⟩

/-- What `Holds` says for an example: the second object is found, and the second number of its
array reads back as it was given. -/
example : ∃ s r p q, Reach s [plainObj clientMem 8, arrayObj clientMem 3] ∧ bufGetObject s 1 = .ok r ∧
    s.mem.load64 r = .ok p ∧ s.mem.load64 (p + 8) = .ok q ∧
    s.mem.read (q + 8) = .ok (clientMem.byte (2 ^ 30 + 64 + 8)) := by
  obtain ⟨s, c, k, h, -⟩ := two_objects 3 (by omega)
  obtain ⟨r, p, h1, -, h2, -, -, -, h3⟩ := (C02_list_of_objects_partial h).objs 1 _ rfl
  obtain ⟨q, h4, -, h5⟩ := h3 ⟨8, 8, 3⟩ (by simp [arrayObj])
  exact ⟨s, r, p, q, h, h1, h2, h4, h5 8 (by decide)⟩

/-- **C02** (changes in place). If the client changes bytes of one object of a buffer - of its handle, apart from the
pointers, or of its attributes - then this object has the new bytes, and all the others are as before. -/
theorem C02_change_in_place {s : St} {os : List Obj} {i : Nat} {o o' : Obj} {m' : Mem} (h : Reach s os)
    (hi : os[i]? = some o) (hb : m'.blocks = s.mem.blocks)
    (hf : ∀ x, ¬ PayloadOf s i o x → m'.byte x = s.mem.byte x)
    (hs : o'.typeId = o.typeId ∧ o'.size = o.size ∧ o'.attrs = o.attrs)
    (hn : ∀ r p, bufGetObject s i = .ok r → s.mem.load64 r = .ok p →
      (∀ j, j < o.size → o.plain j → o'.handle j = m'.byte (p + j)) ∧
      ∀ a ∈ o.attrs, ∀ q, s.mem.load64 (p + a.off) = .ok q → ∀ j, j < a.count * a.size →
        o'.data a j = m'.byte (q + j)) :
    Holds { s with mem := m' } (os.set i o') ∧ Reach { s with mem := m' } (os.set i o') :=
  ⟨C02_list_of_objects_partial (h.change hi hb hf hs hn), h.change hi hb hf hs hn⟩

/-- The hypotheses can be met: the first byte of the array of the second object is set to 7. -/
example : ∃ s m', Reach s [plainObj clientMem 8, arrayObj clientMem 3] ∧
    Holds { s with mem := m' } [plainObj clientMem 8,
      { arrayObj clientMem 3 with data := fun a j => if j = 0 then 7 else (arrayObj clientMem 3).data a j }] := by
  obtain ⟨s, c, k, h, g, rep, -⟩ := two_objects 3 (by omega)
  obtain ⟨r, -, -, e1, e2, e3⟩ := g.places rep (i := 1) rfl
  have e4 := e3 0 ⟨8, 8, 3⟩ rfl
  simp only [roundUp_8, arrayObj, List.take, extSum, List.map_nil, List.sum_nil, Nat.add_zero] at e4
  obtain ⟨r', p, h1, -, h2, -, -, h3, h4⟩ := (C02_list_of_objects_partial h).objs 1 _ rfl
  rw [e1] at h1
  obtain rfl := Res.ok.inj h1
  rw [e2] at h2
  obtain rfl := Res.ok.inj h2
  have rd : ∀ {m : Mem} {a v}, m.read a = .ok v → m.byte a = v := fun {m a v} hr => by
    unfold Mem.read at hr
    split at hr
    · exact Res.ok.inj hr
    · cases hr
  obtain ⟨q, h5, -, h6⟩ := h4 ⟨8, 8, 3⟩ (by simp [arrayObj])
  rw [e4] at h5
  obtain rfl := Res.ok.inj h5
  refine ⟨s, { s.mem with byte := fun x => if x = s.buf.dataAddr + 80 + r.1 + 16 then 7 else s.mem.byte x }, h,
    (C02_change_in_place h (i := 1) (o := arrayObj clientMem 3)
      (o' := { arrayObj clientMem 3 with data := fun a j => if j = 0 then 7 else (arrayObj clientMem 3).data a j })
      (m' := { s.mem with byte := fun x => if x = s.buf.dataAddr + 80 + r.1 + 16 then 7 else s.mem.byte x })
      rfl rfl (fun x hx => ?_) ⟨rfl, rfl, rfl⟩ fun r0 p0 k1 k2 => ?_).1⟩
  · refine if_neg fun hx' => hx ⟨_, _, e1, e2, Or.inr ⟨⟨8, 8, 3⟩, by simp [arrayObj], _, e4, 0, by decide, ?_⟩⟩
    omega
  · rw [e1] at k1
    obtain rfl := Res.ok.inj k1
    rw [e2] at k2
    obtain rfl := Res.ok.inj k2
    refine ⟨fun j hj hpl => ?_, fun a ha q hq j hj => ?_⟩
    · simp only [arrayObj] at hj
      dsimp only
      rw [if_neg (by omega)]
      exact (rd (h3 j (by simpa [arrayObj] using hj) hpl)).symm
    · simp only [arrayObj, List.mem_singleton] at ha
      subst ha
      rw [e4] at hq
      obtain rfl := Res.ok.inj hq
      dsimp only
      by_cases h0 : j = 0
      · rw [if_pos h0, if_pos (by omega)]
      · rw [if_neg h0, if_neg (by omega)]
        exact (rd (h6 j hj)).symm

/-- **C02 is violated** by `NS(Buffer_reserve_capacity)`: whenever it succeeds on a buffer with
objects, the address of the objects is afterwards that of the header of their section; looking
up the first object gives a record whose type is the number of objects. -/
theorem C02_reserve_capacity_violated {malloc : Nat → Nat} {s s' : St} {os : List Obj} {o : Obj} {newCap : Nat}
    (h : Reach s (o :: os)) (hm : MallocOk malloc s.mem) (lim : newCap + 16 < W)
    (hr : bufReserveCapacity malloc s newCap = .ok (s', 0)) (hlt : s.buf.capacity < newCap) :
    (∃ r, bufGetObject s' 0 = .ok r ∧ s'.mem.load64 (r + 8) = .ok (os.length + 1)) ∧
      (o.typeId ≠ os.length + 1 → ¬ Holds s' (o :: os)) := by
  obtain ⟨c, k, g, rep⟩ := h.good
  have key : ∃ r, bufGetObject s' 0 = .ok r ∧ s'.mem.load64 (r + 8) = .ok (os.length + 1) := by
    rcases bufReserveCapacity_spec g.toCore rep.gs hlt lim hm with ⟨-, -, e⟩ | ⟨s1, e, g1, -, ha, -⟩ | ⟨-, -, -, s1, e, -⟩
    · rw [e] at hr; simp at hr
    · rw [e] at hr
      simp only [Res.ok.injEq, Prod.mk.injEq, and_true] at hr
      subst hr
      have hh := g1.lay.head
      have hnz := hh.nzB
      have hlen := rep.len
      simp only [List.length_cons] at hlen
      have hnum := hh.numEntities (id := 4) (by omega) (by omega)
      refine ⟨s1.buf.dataAddr + off c 4, ?_, ?_⟩
      · unfold bufGetObject
        rw [g1.slot, hnum, Res.ok_bind, Res.pure_eq, if_pos ⟨by rw [ha]; omega, by omega⟩, ha]
        rfl
      · have fit := hh.fit
        have hL : c.len = 128 + 8 * c.slots + 24 * c.objs + 8 * c.dataptrs + 16 * c.garbage := rfl
        have hw := hh.num 4 (by omega) (by omega)
        rw [Nat.add_assoc] at hw ⊢
        rw [hh.load (by simp only [off]; omega) (by simp only [off]; omega), hw]
        simp only [cnt, Content.counts]
        rw [hlen]
    · rw [e] at hr; simp at hr
  refine ⟨key, fun hne hh => ?_⟩
  obtain ⟨r, k1, k2⟩ := key
  obtain ⟨r', p, h1, -, -, h2, -⟩ := hh.objs 0 o rfl
  rw [k1] at h1
  simp only [Res.ok.injEq] at h1
  subst h1
  rw [k2] at h2
  simp only [Res.ok.injEq] at h2
  exact hne h2.symm

/-- **C02 is violated** if the last attribute of the last object has no elements and growing has
to move the buffer: the memory is released before the buffer is remapped, remapping fails, and
the buffer still refers to the old memory, of which no byte is valid any more. -/
theorem C02_growth_violated {malloc : Nat → Nat} {s : St} {os : List Obj} {newCap : Nat} (h : Reach s os)
    (he : EndsEmpty os) (hm : MallocOk malloc s.mem) (lim : newCap + 16 < W) (hlt : s.pool.capacity < newCap)
    (hmal : ∀ n, n ≤ newCap + 16 → malloc n ≠ 0) :
    ∃ s', bufReserveCapacity malloc s newCap = .ok (s', -1) ∧ s'.buf = s.buf ∧
      (∀ x, s.buf.dataAddr ≤ x → x < s.buf.dataAddr + s.buf.capacity → ¬ s'.mem.valid x 1) ∧
      ∀ i, bufGetObject s' i = .ub := by
  obtain ⟨c, k, g, rep⟩ := h.good
  have hns : ¬ k.Strict := fun hs => (rep.strict.1 hs) he
  have hp := g.pcap
  have hlen := g.lay.head.len_ge
  rcases bufReserveCapacity_spec g.toCore rep.gs (by omega) lim hm with ⟨-, h0, -⟩ | ⟨-, -, -, -, -, -, hs⟩ | ⟨-, -, -, s1, e, hb, hv⟩
  · exact absurd h0 (hmal _ (by rw [initBytes_8 (by omega) (by omega)]; omega))
  · exact absurd (hs hlt) hns
  · refine ⟨s1, e, hb, fun x h1 h2 => hv x 1 h1 (by omega) (by omega), fun i => ?_⟩
    have hnz := g.lay.head.nzB
    have hl : s1.mem.load64 (s.buf.dataAddr + 8 * 4) = .ub := by
      unfold Mem.load64
      rw [if_neg]
      rintro ⟨-, hv'⟩
      exact hv _ 8 (by omega) (by omega) (by omega) hv'
    unfold bufGetObject numEntities sectionPtr
    rw [hb, g.slot, if_pos ⟨hnz, by omega, by omega, by omega⟩, hl]
    rfl

/-- The hypotheses of the two theorems can be met. -/
example (n : Nat) (hn : n ≤ 100) : ∃ s, Reach s [plainObj clientMem 8, arrayObj clientMem n] ∧ MallocOk farBlock s.mem ∧
    s.pool.capacity < 2 ^ 17 ∧ (∀ k, k ≤ 2 ^ 17 + 16 → farBlock k ≠ 0) ∧
    (n ≠ 0 → ∃ s', bufReserveCapacity farBlock s (2 ^ 17) = .ok (s', 0)) ∧
    (n = 0 → EndsEmpty [plainObj clientMem 8, arrayObj clientMem n]) ∧ (plainObj clientMem 8).typeId ≠ 2 := by
  obtain ⟨s, c, k, h, g, rep, hB, hp, hb, hc, -⟩ := two_objects n hn
  have hm : MallocOk farBlock s.mem := farBlock_ok hb
  refine ⟨s, h, hm, by rw [hp]; decide, fun k hk => ?_, fun h0 => ?_, fun h0 => ?_, by decide⟩
  · unfold farBlock; rw [if_pos (by omega)]; decide
  · rcases bufReserveCapacity_spec (newCap := 2 ^ 17) g.toCore rep.gs (by omega) (by decide) hm with
      ⟨-, h1, -⟩ | ⟨s', e, -⟩ | ⟨-, -, hs, -⟩
    · rw [initBytes_8 (by decide) (by decide)] at h1; exact absurd h1 (by decide)
    · exact ⟨s', e⟩
    · refine absurd (rep.strict.2 ?_) hs
      rintro ⟨o, a, h1, h2, h3⟩
      simp only [List.getLast?_cons_cons, List.getLast?_singleton, Option.some.injEq] at h1
      subst h1
      simp only [arrayObj, List.getLast?_singleton, Option.some.injEq] at h2
      subst h2
      dsimp only at h3; omega
  · subst h0
    exact ⟨_, _, rfl, rfl, rfl⟩

/-! ## C07 -/

/-- **C07.** In every reachable buffer the header (64 bytes) and the four sections lie one
behind the other without overlap, aligned, inside the reported length, which is inside the
allocated memory; no section uses more than it has. -/
theorem C07_sections {s : St} {os : List Obj} (h : Reach s os) :
    ∃ (p mx used : Nat → Nat) (len : Nat), bufferLength s.mem s.buf.dataAddr s.buf.slot = .ok len ∧
      s.buf.dataSize = len ∧ len ≤ s.buf.capacity ∧ s.mem.valid s.buf.dataAddr s.buf.capacity ∧
      (∀ id, 3 ≤ id → id ≤ 6 →
        sectionPtr s.mem s.buf.dataAddr id s.buf.slot = .ok (p id) ∧
        maxSize s.mem s.buf.dataAddr id s.buf.slot = .ok (mx id) ∧
        sectionSize s.mem s.buf.dataAddr id s.buf.slot = .ok (used id) ∧
        used id ≤ mx id ∧ p id % 8 = 0 ∧ s.buf.dataAddr + 64 ≤ p id ∧ p id + mx id ≤ s.buf.dataAddr + len) ∧
      ∀ i j, 3 ≤ i → i < j → j ≤ 6 → p i + mx i ≤ p j := by
  obtain ⟨c, k, g, rep⟩ := h.good
  have hh := g.lay.head
  have hal := hh.alB
  refine ⟨fun id => s.buf.dataAddr + off c id, fun id => 16 + ent id * cnt c id,
    fun id => 16 + ent id * cnt k.counts id, c.len, by rw [g.slot]; exact hh.bufferLength, g.size, hh.fit, hh.val,
    fun id h1 h2 => ?_, fun i j h1 h2 h3 => ?_⟩
  · rw [g.slot]
    have e1 := off_mod c id h1 h2
    have e2 := off_ge c id h1 h2
    have e3 := off_end c id h1 h2
    exact ⟨hh.sectionPtr h1 h2, hh.maxSize h1 h2, hh.sectionSize h1 h2,
      by have := Nat.mul_le_mul_left (ent id) (hh.le.cnt id h1 h2); dsimp only; omega, by dsimp only; omega, by dsimp only; omega,
      by dsimp only; omega⟩
  · rcases (by omega : i = 3 ∧ j = 4 ∨ i = 3 ∧ j = 5 ∨ i = 3 ∧ j = 6 ∨ i = 4 ∧ j = 5 ∨ i = 4 ∧ j = 6 ∨ i = 5 ∧ j = 6)
      with ⟨rfl, rfl⟩ | ⟨rfl, rfl⟩ | ⟨rfl, rfl⟩ | ⟨rfl, rfl⟩ | ⟨rfl, rfl⟩ | ⟨rfl, rfl⟩ <;>
      simp only [off, ent, cnt] <;> omega

/-- **C07** (objects). In every reachable buffer the objects lie one behind the other in the
used part of the slots; inside of an object the attributes lie one behind the other behind the
handle. -/
theorem C07_objects {s : St} {os : List Obj} (h : Reach s os) :
    ∃ (pS nS : Nat) (p : Nat → Nat), sectionData s.mem s.buf.dataAddr 3 s.buf.slot = .ok pS ∧
      numEntities s.mem s.buf.dataAddr 3 s.buf.slot = .ok nS ∧
      (∀ (i : Nat) (o : Obj), os[i]? = some o →
        s.mem.load64 (s.buf.objectAddr + 24 * i) = .ok (p i) ∧ p i % 8 = 0 ∧ pS ≤ p i ∧
        p i + o.total ≤ pS + 8 * nS ∧
        (∀ (j : Nat) (o' : Obj), os[j]? = some o' → i < j → p i + o.total ≤ p j) ∧
        ∃ q : Nat → Nat, ∀ (n : Nat) (a : AttrSpec), o.attrs[n]? = some a →
          s.mem.load64 (p i + a.off) = .ok (q n) ∧ q n % 8 = 0 ∧ p i + o.size ≤ q n ∧
          q n + a.count * a.size ≤ p i + o.total ∧
          ∀ (n' : Nat) (a' : AttrSpec), o.attrs[n']? = some a' → n < n' → q n + a.count * a.size ≤ q n') := by
  obtain ⟨c, k, g, rep⟩ := h.good
  have hh := g.lay.head
  have fit := hh.fit
  have hal := hh.alB
  obtain ⟨-, ho⟩ := holds_of g.slot g.objs g.num hh.alB (Mem.valid_sub hh.val (Nat.le_refl _) (by omega))
    (hh.numEntities (id := 4) (by omega) (by omega)) hh.le.slots hh.le.objs g.lay.ok g.lay.recs g.lay.ptrs g.lay.data rep
  refine ⟨s.buf.dataAddr + 80, k.nS, fun i => s.buf.dataAddr + 80 + (k.recs.getD i (0, 0, 0)).1, ?_,
    by rw [g.slot]; exact hh.numEntities (id := 3) (by omega) (by omega), fun i o hi => ?_⟩
  · rw [g.slot, hh.sectionData (id := 3) (by omega) (by omega)]
    rfl
  · obtain ⟨r, hr, h1, h2, h3⟩ := ho i o hi
    obtain ⟨r', hr', hat⟩ := rep.objs i o hi
    rw [hr] at hr'
    simp only [Option.some.injEq] at hr'
    subst hr'
    have hget : k.recs.getD i (0, 0, 0) = r := by rw [List.getD_eq_getElem?_getD, hr]; rfl
    have hrec := g.lay.ok.rec_ok r (List.mem_of_getElem? hr)
    dsimp only
    rw [hget]
    refine ⟨h1, by omega, by omega, by omega, fun j o' hj hij => ?_, ?_⟩
    · obtain ⟨rj, hrj, -⟩ := ho j o' hj
      have hgetj : k.recs.getD j (0, 0, 0) = rj := by rw [List.getD_eq_getElem?_getD, hrj]; rfl
      rw [hgetj]
      obtain ⟨li, ei⟩ := List.getElem?_eq_some_iff.1 hr
      obtain ⟨lj, ej⟩ := List.getElem?_eq_some_iff.1 hrj
      have := List.pairwise_iff_getElem.1 g.lay.ok.rec_mono i j li lj hij
      rw [ei, ej, hat.size] at this
      have := roundUp_ge o.total
      omega
    · refine ⟨fun n => s.buf.dataAddr + 80 + r.1 + (roundUp o.size 8 + extSum (o.attrs.take n)), fun n a ha => ?_⟩
      have hte := o.total_eq
      have e1 := roundUp_ge o.size
      have e2 := roundUp_mod o.size
      have e3 := extSum_mod (o.attrs.take n)
      have e4 := extSum_take_le o.attrs ha
      have e5 : a.count * a.size ≤ a.ext := a.ext_ge
      refine ⟨h3 n a ha, by dsimp only; omega, by dsimp only; omega, by dsimp only; omega, fun n' a' ha' hlt => ?_⟩
      have e6 := extSum_take_mono o.attrs ha hlt
      dsimp only; omega

example : ∃ s, Reach s [plainObj clientMem 8, arrayObj clientMem 3] ∧ (arrayObj clientMem 3).attrs.length = 1 := by
  obtain ⟨s, c, k, h, -⟩ := two_objects 3 (by omega)
  exact ⟨s, h, rfl⟩

/-! ## C08 -/

/-- **C08** (length; for any slot size). If initialising a piece of memory succeeds, the length
is what is calculated for this piece of memory beforehand. -/
theorem C08_init_length {m m' : Mem} {B len maxLen slot : Nat} {c : Caps}
    (h : init m B c maxLen slot = .ok (m', 0, len)) : calcBufferLength m B c slot = .ok len := by
  unfold init at h
  by_cases hb : B ≠ 0 ∧ slot ≠ 0
  · rw [if_pos hb] at h
    unfold calcBufferLength
    obtain ⟨hl, e1, h⟩ := Res.bind_eq_ok.1 h
    obtain ⟨l, e2, h⟩ := Res.bind_eq_ok.1 h
    rw [e1, Res.ok_bind, e2]
    by_cases hle : l ≤ maxLen
    · rw [if_pos hle] at h
      repeat (obtain ⟨_, -, h⟩ := Res.bind_eq_ok.1 h)
      simp only [Res.pure_eq, Res.ok.injEq, Prod.mk.injEq, true_and] at h
      rw [h.2]
    · rw [if_neg hle] at h
      simp [Res.pure_eq] at h
  · rw [if_neg hb] at h
    simp at h

/-- **C08** (length; partial: the memory has to be clean). Initialising succeeds exactly if the
length predicted without looking at the memory, as by
`NS(Buffer_calculate_required_buffer_length)`, is at most the available one, and the buffer then
reports this length, if the word in which the length of the header is going to be stored is zero
or has the usual value. -/
theorem C08_prediction_partial {m : Mem} {B cap : Nat} {c : Caps} (nz : B ≠ 0) (al : B % 8 = 0) (lim : B + cap < W)
    (val : m.valid B cap) (h24 : 24 ≤ cap) (hh : m.word (B + 16) = 0 ∨ m.word (B + 16) = 64) (hW : c.len < W) :
    ∃ len, calcBufferLength m 0 c 8 = .ok len ∧
      (len ≤ cap → ∃ m', init m B c cap 8 = .ok (m', 0, len) ∧ bufferLength m' B 8 = .ok len) ∧
      (cap < len → init m B c cap 8 = .ok (m, -1, len)) := by
  refine ⟨c.len, ?_, fun hle => ?_, fun hlt => ?_⟩
  · simp only [calcBufferLength, headerLength, if_pos (by omega : 0 < 8), ne_eq, not_true_eq_false, if_false, Res.ok_bind,
      Res.pure_eq, if_true, calcSectionSize_8 _ 3 (by omega) (by omega), calcSectionSize_8 _ 4 (by omega) (by omega),
      calcSectionSize_8 _ 5 (by omega) (by omega), calcSectionSize_8 _ 6 (by omega) (by omega), ent]
    rw [show roundUp 8 8 * 8 + (16 + 8 * c.slots) + (16 + 24 * c.objs) + (16 + 8 * c.dataptrs) + (16 + 16 * c.garbage) =
      c.len by rw [roundUp_8]; simp only [Caps.len]; omega]
    exact fits_ok hW
  · exact ⟨_, init_spec nz al lim val hh hle, (initMem_layout nz al lim val hle).head.bufferLength⟩
  · have hH : headerLength m B 8 = .ok 64 := by
      unfold headerLength
      rw [if_pos (by omega), if_pos nz, Mem.load64_ok (by omega) (Mem.valid_sub val (by omega) (by omega)), Res.ok_bind]
      rcases hh with h | h <;> rw [h] <;> rfl
    rw [init_big nz hH hlt, fits_ok hW]
    rfl

/-- **C08 is violated** in memory that is not clean: initialising takes over the length of the
header that it finds there, the prediction uses the usual one. -/
theorem C08_prediction_violated {m m' : Mem} {B len len' maxLen : Nat} {c : Caps}
    (hp : calcBufferLength m 0 c 8 = .ok len) (h : init m B c maxLen 8 = .ok (m', 0, len'))
    (hh : m.word (B + 16) ≠ 0 ∧ m.word (B + 16) ≠ 64) : len' ≠ len := by
  have h1 := C08_init_length h
  have hB : B ≠ 0 := by
    rintro rfl
    simp [init] at h
  simp only [calcBufferLength, headerLength, if_pos (by omega : 0 < 8), ne_eq, not_true_eq_false, if_false, Res.ok_bind,
    Res.pure_eq, if_true] at hp
  simp only [calcBufferLength, headerLength, if_pos (by omega : 0 < 8), ne_eq, if_pos hB, Res.pure_eq] at h1
  obtain ⟨_, h2, h1⟩ := Res.bind_eq_ok.1 h1
  obtain ⟨w, h3, h2⟩ := Res.bind_eq_ok.1 h2
  obtain ⟨-, -, rfl⟩ := Mem.load64_eq_ok h3
  rw [if_neg hh.1] at h2
  simp only [Res.ok.injEq] at h2
  subst h2
  unfold fits at hp h1
  split at hp <;> simp only [Res.ok.injEq, reduceCtorEq] at hp
  split at h1 <;> simp only [Res.ok.injEq, reduceCtorEq] at h1
  have e : roundUp 8 8 * 8 = 64 := by rw [roundUp_8]
  rw [e] at hp
  have := hh.2
  omega

/-- Both cases occur. -/
example : ∃ (m m' : Mem), m.word (2 ^ 20 + 16) = 72 ∧ calcBufferLength m 0 ⟨1, 2, 3, 4⟩ 8 = .ok 256 ∧
    init m (2 ^ 20) ⟨1, 2, 3, 4⟩ 4096 8 = .ok (m', 0, 264) := by
  have key : (match init (Mem.put ⟨[(2 ^ 20, 4096)], fun _ => 0⟩ (2 ^ 20 + 16) 72) (2 ^ 20) ⟨1, 2, 3, 4⟩ 4096 8 with
      | .ok (_, rc, len) => decide (rc = 0 ∧ len = 264)
      | .ub => false) = true := by decide +kernel
  generalize hi : init (Mem.put ⟨[(2 ^ 20, 4096)], fun _ => 0⟩ (2 ^ 20 + 16) 72) (2 ^ 20) ⟨1, 2, 3, 4⟩ 4096 8 = x at key
  match x, hi, key with
  | .ok (m', rc, len), hi, key =>
    obtain ⟨rfl, rfl⟩ := of_decide_eq_true key
    exact ⟨_, m', Mem.word_put_same _ _ _ (by decide), by decide, hi⟩

/-- **C08** (slots). Successfully adding an object uses exactly the predicted number of slots, one
object record and one data pointer for every attribute. -/
theorem C08_slots {malloc : Nat → Nat} {s s' : St} {os : List Obj} {src r : Nat} {o : Obj} {n n' : Caps} (h : Reach s os)
    (hm : MallocOk malloc s.mem) (ho : o.Ok) (hg : Given s src o)
    (ha : addObject malloc s src o.size o.typeId o.attrs = .ok (s', r)) (hr : r ≠ 0) (hn : Used s n) (hn' : Used s' n') :
    n'.slots = n.slots + predictSlots o.size (o.attrs.map fun a => (a.size, a.count)) s.buf.slot ∧
      8 * n'.slots = 8 * n.slots + o.total ∧
      n'.objs = n.objs + 1 ∧ n'.dataptrs = n.dataptrs + o.attrs.length ∧ n'.garbage = n.garbage := by
  obtain ⟨c, k, g, rep⟩ := h.good
  obtain rfl := hn.unique g.used
  rcases addObject_spec g rep.gs ho.spec (hg.source g.toCore) ho.typ (g.need_lim ho) hm with
    ⟨s1, c1, data, e, g1, -⟩ | ⟨s1, e, -⟩
  · rw [e] at ha
    simp only [Res.ok.injEq, Prod.mk.injEq] at ha
    obtain ⟨rfl, rfl⟩ := ha
    obtain rfl := hn'.unique g1.used
    have hs := ho.slots
    rw [g.slot]
    refine ⟨rfl, ?_, ?_, ?_, rfl⟩
    · simp only [Content.counts, Content.add]; omega
    · simp [Content.counts, Content.add]
    · simp [Content.counts, Content.add, newPtrs_length]
  · rw [e] at ha
    simp only [Res.ok.injEq, Prod.mk.injEq] at ha
    exact absurd ha.2.symm hr

/-! ## C09 -/

/-- **C09.** Clearing a reachable buffer succeeds; afterwards it holds nothing, and address,
capacity and the capacities of the sections are what they were. -/
theorem C09_clear {s : St} {os : List Obj} {c : Caps} (h : Reach s os) (hc : Capacity s c) (z : Bool) :
    ∃ s', bufClear s z = .ok (s', 0) ∧ Reach s' [] ∧ Holds s' [] ∧ Used s' ⟨0, 0, 0, 0⟩ ∧ Capacity s' c ∧
      s'.buf.dataAddr = s.buf.dataAddr ∧ s'.buf.capacity = s.buf.capacity ∧ s'.buf.dataSize = s.buf.dataSize ∧
      s'.pool = s.pool ∧ (∀ x n, s.mem.ext s.pool.buffer x n → s'.mem.ext s'.pool.buffer x n) ∧
      ∀ x, s.mem.ext s.pool.buffer x 1 → s'.mem.byte x = s.mem.byte x := by
  obtain ⟨c', k, g, rep⟩ := h.good
  obtain rfl := hc.unique g.capacity
  obtain ⟨m', e, g', kp, -⟩ := bufClear_ok g z
  exact ⟨_, e, Reach.clear h e, g'.holds Represents.empty, g'.used, g'.capacity, rfl, rfl, rfl, rfl,
    fun x n hx => by rw [g.pbuf] at hx ⊢; exact kp.ext x n hx, fun x hx => kp.byte x (by rw [← g.pbuf]; exact hx)⟩

/-- **C09** (setting to zero). If asked to, clearing sets every byte of the objects that were
stored to zero. -/
theorem C09_clear_zero {s s' : St} {os : List Obj} {rc : Int} (h : Reach s os) (he : bufClear s true = .ok (s', rc)) :
    ∀ (i : Nat) (o : Obj) (p j : Nat), os[i]? = some o → s.mem.load64 (s.buf.objectAddr + 24 * i) = .ok p →
      j < o.total → s'.mem.byte (p + j) = 0 := by
  intro i o p j hi hp hj
  obtain ⟨c, k, g, rep⟩ := h.good
  obtain ⟨m', e, g', -, hz⟩ := bufClear_ok g true
  rw [e] at he
  simp only [Res.ok.injEq, Prod.mk.injEq] at he
  rw [← he.1]
  have hh := g.lay.head
  have fit := hh.fit
  obtain ⟨-, ho⟩ := holds_of g.slot g.objs g.num hh.alB (Mem.valid_sub hh.val (Nat.le_refl _) (by omega))
    (hh.numEntities (id := 4) (by omega) (by omega)) hh.le.slots hh.le.objs g.lay.ok g.lay.recs g.lay.ptrs g.lay.data rep
  obtain ⟨r, -, h1, h2, -⟩ := ho i o hi
  rw [h1] at hp
  simp only [Res.ok.injEq] at hp
  subst hp
  have := hz rfl 3 (by omega) (by omega) (r.1 + j) (by simp only [ent, cnt, Content.counts]; omega)
  rw [← this]
  congr 1
  simp only [off]; omega

/-! ## C10 -/

/-- **C10** (partial: see `C10_add_violated`). If the spare capacity suffices in all sections,
adding succeeds, without asking for memory and without moving the buffer. -/
theorem C10_spare_partial {malloc : Nat → Nat} {s : St} {os : List Obj} {src : Nat} {o : Obj} {n c : Caps} (h : Reach s os)
    (hm : MallocOk malloc s.mem) (ho : o.Ok) (hg : Given s src o) (hn : Used s n) (hc : Capacity s c) (room : Room n c o) :
    ∃ s' r, addObject malloc s src o.size o.typeId o.attrs = .ok (s', r) ∧ r ≠ 0 ∧ Reach s' (os ++ [o]) ∧ Capacity s' c ∧
      s'.buf.dataAddr = s.buf.dataAddr ∧ s'.buf.capacity = s.buf.capacity := by
  obtain ⟨k, g, rep, rfl⟩ := h.good_of hc hn
  obtain ⟨s', r, data, e, n0, re, g', -, ha, hca, -⟩ := h.add_room g rep ho hg ((room_iff ho).2 room) hm
  exact ⟨s', r, e, n0, re, g'.capacity, ha, hca⟩

/-- **C09** (adding again). A cleared buffer takes every object that its capacities allow,
without asking for memory. -/
theorem C09_refill {malloc : Nat → Nat} {s s' : St} {os : List Obj} {src : Nat} {o : Obj} {c : Caps} {z : Bool} {rc : Int}
    (h : Reach s os) (hc : Capacity s c) (he : bufClear s z = .ok (s', rc)) (hm : MallocOk malloc s'.mem) (ho : o.Ok)
    (hg : Given s' src o) (h1 : 1 ≤ c.objs) (h2 : o.total ≤ 8 * c.slots) (h3 : o.attrs.length ≤ c.dataptrs) :
    ∃ s'' r, addObject malloc s' src o.size o.typeId o.attrs = .ok (s'', r) ∧ r ≠ 0 ∧ Holds s'' [o] ∧ Capacity s'' c := by
  obtain ⟨s1, e, hr, -, hu, hc', -⟩ := C09_clear h hc z
  rw [e] at he
  simp only [Res.ok.injEq, Prod.mk.injEq] at he
  obtain ⟨rfl, -⟩ := he
  obtain ⟨s2, r, e2, n2, r2, c2, -⟩ := C10_spare_partial hr hm ho hg hu hc' ⟨by simpa using h1, by simpa using h2, by simpa using h3⟩
  exact ⟨s2, r, e2, n2, C02_list_of_objects_partial r2, c2⟩

/-- **C10** (growing; partial). If there is not enough room but no section has to get smaller,
adding also succeeds provided that the last attribute of the last object is not empty and
`malloc` has memory. -/
theorem C10_growth_partial {malloc : Nat → Nat} {s : St} {os : List Obj} {src : Nat} {o : Obj} {n c : Caps} (h : Reach s os)
    (hm : MallocOk malloc s.mem) (ho : o.Ok) (hg : Given s src o) (hn : Used s n) (hc : Capacity s c)
    (h1 : c.objs ≤ n.objs + 1) (h2 : 8 * c.slots ≤ 8 * n.slots + o.total) (h3 : c.dataptrs ≤ n.dataptrs + o.attrs.length)
    (hne : ¬ EndsEmpty os)
    (hmal : ∀ k, k ≤ s.buf.dataSize + o.total + 8 * o.attrs.length + 128 → malloc k ≠ 0) :
    ∃ s' r, addObject malloc s src o.size o.typeId o.attrs = .ok (s', r) ∧ r ≠ 0 ∧ Reach s' (os ++ [o]) := by
  obtain ⟨k, g, rep, rfl⟩ := h.good_of hc hn
  simp only [Content.counts] at h1 h2 h3
  have hs := ho.slots
  have lim := g.need_lim ho
  rcases addObject_spec g rep.gs ho.spec (hg.source g.toCore) ho.typ lim hm with
    ⟨s', c', data, e, g', -⟩ | ⟨s', e, hnr, s'', hf⟩
  · have hnz := g'.lay.head.nzB
    exact ⟨s', _, e, by omega, Reach.add h hm ho hg e (by omega)⟩
  · exfalso
    have hh := g.lay.head
    have hL : c.len = 128 + 8 * c.slots + 24 * c.objs + 8 * c.dataptrs + 16 * c.garbage := rfl
    have e1 : (k.need c o.size o.attrs).len = 128 + 8 * (k.nS + objSlots o.size o.attrs) + 24 * (k.recs.length + 1) +
      8 * (k.ptrs.length + o.attrs.length) + 16 * c.garbage := rfl
    have leS : k.nS ≤ c.slots := hh.le.slots
    have leO : k.recs.length ≤ c.objs := hh.le.objs
    have leD : k.ptrs.length ≤ c.dataptrs := hh.le.dataptrs
    have hsz := g.size
    have hgs : k.gs.length = 0 := by rw [rep.gs]; rfl
    obtain ⟨s3, e3, -⟩ := bufReserve_ok (malloc := malloc) (c' := k.need c o.size o.attrs) g.toCore rep.gs lim hm
      (by
        rintro heq
        exact hnr (by
          have q1 := congrArg Caps.objs heq
          have q2 := congrArg Caps.slots heq
          have q3 := congrArg Caps.dataptrs heq
          simp only [Content.need] at q1 q2 q3
          exact ⟨by omega, by omega, by omega⟩))
      ⟨by simp only [Content.need, Content.counts]; omega, by simp only [Content.need, Content.counts]; omega,
        by simp only [Content.need, Content.counts]; omega, by simp only [Content.need, Content.counts]; omega⟩
      (by rintro ⟨q1, q2⟩; simp only [off, Content.need] at q1; omega)
      (by rintro ⟨q1, q2⟩; simp only [off, Content.need] at q1; omega)
      (Or.inr ⟨rep.strict.2 hne, hmal _ (by rw [initBytes_8 (by omega) lim]; omega)⟩)
    rw [e3] at hf
    simp at hf

/-- The hypotheses of `C09_clear`, `C10_spare_partial` and `C09_refill` can be met. -/
example : ∃ s s', Reach s [plainObj clientMem 8, arrayObj clientMem 3] ∧ Capacity s ⟨2, 200, 1, 0⟩ ∧
    bufClear s true = .ok (s', 0) ∧ Used s' ⟨0, 0, 0, 0⟩ ∧ Capacity s' ⟨2, 200, 1, 0⟩ ∧ Reach s' [] ∧
    (plainObj s'.mem 8).Ok ∧ Given s' (2 ^ 30) (plainObj s'.mem 8) ∧
    Room ⟨0, 0, 0, 0⟩ ⟨2, 200, 1, 0⟩ (plainObj s'.mem 8) := by
  obtain ⟨s, c, k, h, g, rep, hB, hp, hb, -, rfl, -⟩ := two_objects 3 (by omega)
  obtain ⟨s', e, hr, -, hu, hc, ha, -, -, hpool, hx, -⟩ := C09_clear h g.capacity true
  have hext : s.mem.ext s.pool.buffer (2 ^ 30) 8 :=
    Or.inr ⟨(2 ^ 30, 4096), by rw [hb]; simp, by rw [g.pbuf, hB]; decide, by simp, by simp⟩
  exact ⟨s, s', h, g.capacity, e, hu, hc, hr, plainObj_ok (by omega) (by omega),
    ⟨by omega, hx _ _ hext, fun _ _ _ => rfl, by simp [plainObj]⟩, ⟨by simp, by simp [plainObj, Obj.total], by simp [plainObj]⟩⟩

/-- **C10 is violated.** If the records for objects and the data pointers are used up, but after
the object more than 24 bytes of slots would be left, adding an object without attributes fails,
whatever memory there is: the library reserves as many slots as are needed, which are fewer than
there are, and the sections behind the slots cannot be moved down. -/
theorem C10_add_violated {malloc : Nat → Nat} {s : St} {os : List Obj} {src : Nat} {o : Obj} {n c : Caps} (h : Reach s os)
    (ho : o.Ok) (hg : Given s src o) (hn : Used s n) (hc : Capacity s c) (h1 : n.objs = c.objs)
    (h2 : n.dataptrs = c.dataptrs) (h3 : o.attrs = []) (h4 : 8 * n.slots + o.total + 24 < 8 * c.slots) :
    addObject malloc s src o.size o.typeId o.attrs = .ok (s, 0) := by
  obtain ⟨k, g, rep, rfl⟩ := h.good_of hc hn
  simp only [Content.counts] at h1 h2 h4
  have hs := ho.slots
  have hh := g.lay.head
  have fit := hh.fit
  have lim := hh.limB
  have hL : c.len = 128 + 8 * c.slots + 24 * c.objs + 8 * c.dataptrs + 16 * c.garbage := rfl
  have e1 : (k.need c o.size o.attrs).len = 128 + 8 * (k.nS + objSlots o.size o.attrs) + 24 * (k.recs.length + 1) +
    8 * (k.ptrs.length + o.attrs.length) + 16 * c.garbage := rfl
  have hal : o.attrs.length = 0 := by rw [h3]; rfl
  have hgs : k.gs.length = 0 := by rw [rep.gs]; rfl
  have hres : bufReserve malloc s (k.need c o.size o.attrs) = .ok (s, -1) := by
    rw [bufReserve_run g.toCore (by
      intro heq
      have q := congrArg Caps.objs heq
      simp only [Content.need] at q; omega) (by omega)]
    have hgr : growTo malloc s (k.need c o.size o.attrs).len = .ok (s, 0) := if_neg (by omega)
    rw [hgr, Res.ok_bind]
    dsimp only
    rw [if_pos ⟨rfl, by omega⟩, reserve_stuckG hh (Nat.le_refl _) fit (by omega)
      ⟨by simp only [Content.need, Content.counts]; omega, by simp only [Content.need, Content.counts]; omega,
        by simp only [Content.need, Content.counts]; omega, by simp only [Content.need, Content.counts]; omega⟩
      ⟨by simp only [off, Content.need]; omega, by simp only [off, Content.need, Content.counts]; omega⟩]
    simp [Res.ok_bind, Res.pure_eq]
  rw [addObject_run g.toCore ho.spec hg.nz (by omega)]
  unfold ensure
  rw [if_pos (by simp; omega), hres]
  simp [Res.ok_bind, Res.pure_eq]

/-- Such a buffer: capacities for two objects and 200 slots; of the slots six are used. -/
example : ∃ s n, Reach s [plainObj clientMem 8, arrayObj clientMem 3] ∧ Used s n ∧ Capacity s ⟨2, 200, 1, 0⟩ ∧
    n.objs = 2 ∧ n.dataptrs = 1 ∧ n.slots = 6 ∧ (plainObj s.mem 8).Ok ∧ Given s (2 ^ 30) (plainObj s.mem 8) ∧
    8 * n.slots + (plainObj s.mem 8).total + 24 < 8 * 200 := by
  obtain ⟨s, c, k, h, g, rep, hB, hp, hb, -, rfl, h1, h2⟩ := two_objects 3 (by omega)
  refine ⟨s, k.counts, h, g.used, g.capacity, rep.len, h2, h1, plainObj_ok (by omega) (by omega),
    plainObj_given (by omega) (by omega) (by rw [hb]; simp) (by rw [g.pbuf, hB]; decide) fun _ _ _ => rfl, ?_⟩
  simp only [Content.counts, h1]
  simp [plainObj, Obj.total]

/-! ## C11 -/

/-- **C11** (partial: see `C11_lookup_violated`). In a reachable buffer, looking up an index
smaller than the number of objects gives the object, an index greater than the number of objects
gives null. -/
theorem C11_lookup_partial {s : St} {os : List Obj} (h : Reach s os) (i : Nat) :
    (i < os.length → ∃ r o, os[i]? = some o ∧ bufGetObject s i = .ok r ∧ r ≠ 0 ∧
      getConstObject s.mem s.buf.dataAddr i s.buf.slot = .ok r ∧ Stored s i o) ∧
    (os.length < i → bufGetObject s i = .ok 0 ∧ getConstObject s.mem s.buf.dataAddr i s.buf.slot = .ok 0) := by
  obtain ⟨c, k, g, rep⟩ := h.good
  have hh := g.lay.head
  have hnum := hh.numEntities (id := 4) (by omega) (by omega)
  have hlen : cnt k.counts 4 = os.length := rep.len
  have hnz := hh.nzB
  have hcst : ∀ i, getConstObject s.mem s.buf.dataAddr i s.buf.slot = bufGetObject s i := by
    intro i
    unfold getConstObject bufGetObject Buf.numObjects
    rw [g.slot, hh.sectionData (id := 4) (by omega) (by omega), hnum, Res.ok_bind, Res.ok_bind, Res.ok_bind, g.objs]
    simp only [Res.pure_eq]
    congr 1
    by_cases hi : i ≤ cnt k.counts 4
    · rw [if_pos ⟨hnz, hi⟩, if_pos ⟨by omega, hi⟩]; omega
    · rw [if_neg (fun h => hi h.2), if_neg (fun h => hi h.2)]
  refine ⟨fun hi => ?_, fun hi => ?_⟩
  · obtain ⟨o, ho⟩ : ∃ o, os[i]? = some o := ⟨os[i], by simp [hi]⟩
    have hst := (g.holds rep).objs i o ho
    obtain ⟨r, p, h1, h2, -⟩ := id hst
    exact ⟨r, o, ho, h1, h2, by rw [hcst, h1], hst⟩
  · have : bufGetObject s i = .ok 0 := by
      unfold bufGetObject
      rw [g.slot, hnum, Res.ok_bind, Res.pure_eq, if_neg (by omega)]
    exact ⟨this, by rw [hcst, this]⟩

/-- **C11 is violated.** Looking up the index that is equal to the number of objects gives an
address: the comparison is `<=` (buffer_generic.h:1250, managed_buffer_minimal.h:779).  In an
empty buffer without capacity for objects the address is that of the next section. -/
theorem C11_lookup_violated {s : St} {os : List Obj} (h : Reach s os) :
    ∃ r, bufGetObject s os.length = .ok r ∧ r ≠ 0 ∧ getConstObject s.mem s.buf.dataAddr os.length s.buf.slot = .ok r ∧
      ∀ c : Caps, Capacity s c → c.objs = os.length →
        sectionPtr s.mem s.buf.dataAddr 5 s.buf.slot = .ok r := by
  obtain ⟨c, k, g, rep⟩ := h.good
  have hh := g.lay.head
  have hnum := hh.numEntities (id := 4) (by omega) (by omega)
  have hlen : cnt k.counts 4 = os.length := rep.len
  have hnz := hh.nzB
  refine ⟨s.buf.dataAddr + (off c 4 + 16) + 24 * os.length, ?_, by omega, ?_, fun c' hc' he => ?_⟩
  · unfold bufGetObject
    rw [g.slot, hnum, Res.ok_bind, Res.pure_eq, if_pos ⟨by rw [g.objs]; omega, by omega⟩, g.objs]
  · unfold getConstObject Buf.numObjects
    rw [g.slot, hh.sectionData (id := 4) (by omega) (by omega), hnum, Res.ok_bind, Res.ok_bind, Res.pure_eq,
      if_pos ⟨hnz, by omega⟩]
    congr 1
  · obtain rfl := hc'.unique g.capacity
    rw [g.slot, hh.sectionPtr (by omega) (by omega)]
    simp only [off]
    congr 1; omega

/-! ## C12 -/

namespace Buf

/-- What the query computes. -/
theorem canAddObject_run {s : St} {c : Caps} {k : Content} (g : Good s c k) {o : Obj} (ho : o.Ok) :
    canAddObject s o.size (o.attrs.map fun a => (a.size, a.count)) =
      if k.recs.length + 1 ≤ c.objs ∧ k.nS + objSlots o.size o.attrs ≤ c.slots ∧ k.ptrs.length + o.attrs.length ≤ c.dataptrs then
        .ok (true, k.recs.length + 1, k.nS + objSlots o.size o.attrs, k.ptrs.length + o.attrs.length)
      else .ok (false, (if k.recs.length + 1 ≤ c.objs then 0 else (c.objs + W - (k.recs.length + 1)) % W),
        (if k.nS + objSlots o.size o.attrs ≤ c.slots then 0 else (c.slots + W - (k.nS + objSlots o.size o.attrs)) % W),
        (if k.ptrs.length + o.attrs.length ≤ c.dataptrs then 0 else (c.dataptrs + W - (k.ptrs.length + o.attrs.length)) % W)) := by
  have hh := g.lay.head
  have hlim := g.need_lim ho
  have e1 : (k.need c o.size o.attrs).len = 128 + 8 * (k.nS + objSlots o.size o.attrs) + 24 * (k.recs.length + 1) +
    8 * (k.ptrs.length + o.attrs.length) + 16 * c.garbage := rfl
  unfold canAddObject
  rw [if_pos ⟨g.append, ho.pos⟩, g.slot]
  dsimp only
  rw [hh.maxNumEntities (id := 3) (by omega) (by omega), hh.maxNumEntities (id := 4) (by omega) (by omega),
    hh.maxNumEntities (id := 5) (by omega) (by omega), hh.numEntities (id := 3) (by omega) (by omega),
    hh.numEntities (id := 4) (by omega) (by omega), hh.numEntities (id := 5) (by omega) (by omega)]
  simp only [Res.ok_bind, cnt, Content.counts, List.length_map]
  rw [show k.nS + predictSlots o.size (o.attrs.map fun a => (a.size, a.count)) 8 = k.nS + objSlots o.size o.attrs from rfl,
    fits_ok (by omega), Res.ok_bind]
  rfl

end Buf

/-- **C12** (partial: see `C12_missing_violated`). The query is defined, answers yes exactly if the
object fits, and in this case reports the numbers of entries the buffer will have. -/
theorem C12_can_add_partial {s : St} {os : List Obj} {o : Obj} {n c : Caps} (h : Reach s os) (ho : o.Ok) (hn : Used s n)
    (hc : Capacity s c) :
    ∃ a x y z, canAddObject s o.size (o.attrs.map fun a => (a.size, a.count)) = .ok (a, x, y, z) ∧ (a = true ↔ Room n c o) ∧
      (a = true → x = n.objs + 1 ∧ 8 * y = 8 * n.slots + o.total ∧ z = n.dataptrs + o.attrs.length) := by
  obtain ⟨k, g, rep, rfl⟩ := h.good_of hc hn
  have hs := ho.slots
  rw [canAddObject_run g ho]
  by_cases hr : k.recs.length + 1 ≤ c.objs ∧ k.nS + objSlots o.size o.attrs ≤ c.slots ∧
      k.ptrs.length + o.attrs.length ≤ c.dataptrs
  · rw [if_pos hr]
    exact ⟨_, _, _, _, rfl, iff_of_true rfl ((room_iff ho).1 hr), fun _ => ⟨rfl, by simp only [Content.counts]; omega, rfl⟩⟩
  · rw [if_neg hr]
    exact ⟨_, _, _, _, rfl, iff_of_false (by simp) fun hr' => hr ((room_iff ho).2 hr'), fun h0 => by simp at h0⟩

/-- **C12 is violated.** If the object does not fit, the query reports, for every section that is too
small, 2^64 minus the missing number of entries (buffer.h:1464-1477 subtracts in the wrong order). -/
theorem C12_missing_violated {s : St} {os : List Obj} {o : Obj} {n c : Caps} {a : Bool} {x y z : Nat} (h : Reach s os) (ho : o.Ok)
    (hn : Used s n) (hc : Capacity s c) (hr : ¬ Room n c o)
    (hq : canAddObject s o.size (o.attrs.map fun a => (a.size, a.count)) = .ok (a, x, y, z)) :
    (c.objs < n.objs + 1 → x + (n.objs + 1 - c.objs) = W ∧ x ≠ n.objs + 1 - c.objs) ∧
    (8 * c.slots < 8 * n.slots + o.total → 8 * y + (8 * n.slots + o.total - 8 * c.slots) = 8 * W ∧
      8 * y ≠ 8 * n.slots + o.total - 8 * c.slots) ∧
    (c.dataptrs < n.dataptrs + o.attrs.length → z + (n.dataptrs + o.attrs.length - c.dataptrs) = W ∧
      z ≠ n.dataptrs + o.attrs.length - c.dataptrs) := by
  obtain ⟨k, g, rep, rfl⟩ := h.good_of hc hn
  have hs := ho.slots
  have hlim := g.need_lim ho
  have htl := ho.lim
  have e1 : (k.need c o.size o.attrs).len = 128 + 8 * (k.nS + objSlots o.size o.attrs) + 24 * (k.recs.length + 1) +
    8 * (k.ptrs.length + o.attrs.length) + 16 * c.garbage := rfl
  have hW : W = 2 ^ 64 := rfl
  have hnr : ¬ (k.recs.length + 1 ≤ c.objs ∧ k.nS + objSlots o.size o.attrs ≤ c.slots ∧
      k.ptrs.length + o.attrs.length ≤ c.dataptrs) := fun hr' => hr ((room_iff ho).1 hr')
  rw [canAddObject_run g ho, if_neg hnr] at hq
  simp only [Res.ok.injEq, Prod.mk.injEq] at hq
  obtain ⟨-, rfl, rfl, rfl⟩ := hq
  simp only [Content.counts]
  refine ⟨fun h1 => ?_, fun h1 => ?_, fun h1 => ?_⟩
  · rw [if_neg (by omega), Nat.mod_eq_of_lt (by omega)]; omega
  · rw [if_neg (by omega), Nat.mod_eq_of_lt (by omega)]; omega
  · rw [if_neg (by omega), Nat.mod_eq_of_lt (by omega)]; omega

/-- Both cases occur for the buffer with two objects and capacities for two objects. -/
example : ∃ s n, Reach s [plainObj clientMem 8, arrayObj clientMem 3] ∧ Used s n ∧ Capacity s ⟨2, 200, 1, 0⟩ ∧
    (plainObj s.mem 8).Ok ∧ ¬ Room n ⟨2, 200, 1, 0⟩ (plainObj s.mem 8) ∧ (⟨2, 200, 1, 0⟩ : Caps).objs < n.objs + 1 := by
  obtain ⟨s, c, k, h, g, rep, -, -, -, -, rfl, -⟩ := two_objects 3 (by omega)
  have hl : k.recs.length = 2 := rep.len
  exact ⟨s, k.counts, h, g.used, g.capacity, plainObj_ok (by omega) (by omega),
    fun hr => by have := hr.objs; simp only [Content.counts] at this; omega,
    by simp only [Content.counts]; omega⟩

end SixTrack
