import Verif.Buffer.Objects

/-!
# Changing one object in place

The objects of a buffer do not share memory: a change of one of them leaves the others alone.
-/

namespace SixTrack.Buf

/-- A list of disjoint ranges in ascending order: two entries are apart. -/
theorem Content.Ok.apart {k : Content} (h : k.Ok) {i j : Nat} {a b : Nat × Nat × Nat} (hi : k.recs[i]? = some a)
    (hj : k.recs[j]? = some b) (hne : i ≠ j) :
    a.1 + roundUp a.2.2 8 ≤ b.1 ∨ b.1 + roundUp b.2.2 8 ≤ a.1 := by
  obtain ⟨h1, rfl⟩ := List.getElem?_eq_some_iff.1 hi
  obtain ⟨h2, rfl⟩ := List.getElem?_eq_some_iff.1 hj
  have hp := List.pairwise_iff_getElem.1 h.rec_mono
  rcases Nat.lt_or_gt_of_ne hne with hlt | hlt
  · exact Or.inl (hp i j h1 h2 hlt)
  · exact Or.inr (hp j i h2 h1 hlt)

/-- The bytes of an object lie in the range of its record. -/
theorem Good.payloadOf {s : St} {c : Caps} {k : Content} {os : List Obj} (h : Good s c k) (hr : Represents k os)
    {i : Nat} {o : Obj} (hi : os[i]? = some o) {r : Nat × Nat × Nat} (hri : k.recs[i]? = some r) {x : Nat}
    (hx : PayloadOf s i o x) : s.buf.dataAddr + 80 + r.1 ≤ x ∧ x < s.buf.dataAddr + 80 + (r.1 + r.2.2) := by
  obtain ⟨r0, p, e1, e2, hp⟩ := hx
  obtain ⟨r', h1', ho, e1', e2', e3⟩ := h.places hr hi
  rw [hri] at h1'
  obtain rfl := Option.some.inj h1'
  rw [e1'] at e1
  obtain rfl := Res.ok.inj e1
  rw [e2'] at e2
  obtain rfl := Res.ok.inj e2
  rw [ho.size, o.total_eq]
  have hge := roundUp_ge o.size
  rcases hp with ⟨j, hj, hpl, rfl⟩ | ⟨a, ha, q, hq, j, hj, rfl⟩
  · omega
  · obtain ⟨n, hn⟩ := List.mem_iff_getElem?.1 ha
    rw [e3 n a hn] at hq
    obtain rfl := Res.ok.inj hq
    have t1 := extSum_take_le o.attrs hn
    have t2 := a.ext_ge
    simp only [AttrSpec.bytes] at t2
    omega

/-- Changing one object in place changes this object in the list. -/
theorem Reach.change {s : St} {os : List Obj} {i : Nat} {o o' : Obj} {m' : Mem} (h : Reach s os)
    (hi : os[i]? = some o) (hb : m'.blocks = s.mem.blocks)
    (hf : ∀ x, ¬ PayloadOf s i o x → m'.byte x = s.mem.byte x)
    (hs : o'.typeId = o.typeId ∧ o'.size = o.size ∧ o'.attrs = o.attrs)
    (hn : ∀ r p, bufGetObject s i = .ok r → s.mem.load64 r = .ok p →
      (∀ j, j < o.size → o.plain j → o'.handle j = m'.byte (p + j)) ∧
      ∀ a ∈ o.attrs, ∀ q, s.mem.load64 (p + a.off) = .ok q → ∀ j, j < a.count * a.size →
        o'.data a j = m'.byte (q + j)) : Reach { s with mem := m' } (os.set i o') := by
  obtain ⟨c, k, g, rep⟩ := h.good
  have hlt := (List.getElem?_eq_some_iff.1 hi).1
  refine Reach.modify h hb (fun x hx => hf x fun hp => hx ⟨i, o, hi, hp⟩) ⟨by simp, ?_, ?_⟩
  · intro j a a' hj hj'
    by_cases e : i = j
    · subst e
      rw [List.getElem?_set_self hlt] at hj'
      rw [hi] at hj
      obtain rfl := Option.some.inj hj
      obtain rfl := Option.some.inj hj'
      exact hs
    · rw [List.getElem?_set_ne e, hj] at hj'
      obtain rfl := Option.some.inj hj'
      exact ⟨rfl, rfl, rfl⟩
  · intro j a a' hj hj' r p e1 e2
    by_cases e : i = j
    · subst e
      rw [List.getElem?_set_self hlt] at hj'
      rw [hi] at hj
      obtain rfl := Option.some.inj hj
      obtain rfl := Option.some.inj hj'
      exact hn r p e1 e2
    · rw [List.getElem?_set_ne e, hj] at hj'
      obtain rfl := Option.some.inj hj'
      obtain ⟨ri, hri, -⟩ := g.places rep hi
      obtain ⟨rj, hrj, ho, e1', e2', e3⟩ := g.places rep hj
      have hap := g.lay.ok.apart hri hrj e
      have hgi := roundUp_ge ri.2.2
      have hgj := roundUp_ge rj.2.2
      have same : ∀ x, PayloadOf s j a x → m'.byte x = s.mem.byte x := fun x hx => hf x fun hp => by
        have h1 := g.payloadOf rep hi hri hp
        have h2 := g.payloadOf rep hj hrj hx
        omega
      rw [e1'] at e1
      obtain rfl := Res.ok.inj e1
      rw [e2'] at e2
      obtain rfl := Res.ok.inj e2
      have hfit := ho.fits
      refine ⟨fun y hy hpl => ?_, fun t ht q hq y hy => ?_⟩
      · rw [same _ ⟨_, _, e1', e2', Or.inl ⟨y, hy, hpl, rfl⟩⟩]
        obtain ⟨b1, b2⟩ := ho.bytes y hy hpl
        rw [← b2, ← g.lay.data _ (by omega) b1]
        congr 1
        omega
      · rw [same _ ⟨_, _, e1', e2', Or.inr ⟨t, ht, q, hq, y, hy, rfl⟩⟩]
        obtain ⟨n, hn⟩ := List.mem_iff_getElem?.1 ht
        rw [e3 n t hn] at hq
        obtain rfl := Res.ok.inj hq
        obtain ⟨d1, d2, d3⟩ := (ho.attrs n t hn).2 y hy
        rw [← d3, ← g.lay.data _ d1 d2]
        congr 1
        omega

/-- Adding an object is defined; it fails or the object is behind the others. -/
theorem Reach.add_spec {malloc : Nat → Nat} {s : St} {os : List Obj} {src : Nat} {o : Obj} {c : Caps} {k : Content}
    (h : Reach s os) (g : Good s c k) (rep : Represents k os) (hm : MallocOk malloc s.mem) (ho : o.Ok) (hg : Given s src o) :
    ∃ s' r, addObject malloc s src o.size o.typeId o.attrs = .ok (s', r) ∧ (r = 0 ∨
      (r ≠ 0 ∧ Reach s' (os ++ [o]) ∧ bufGetObject s' os.length = .ok r ∧
        Keeps s.mem s'.mem s.pool.buffer s'.pool.buffer)) ∧ (k.room c o.size o.attrs → r ≠ 0) := by
  rcases addObject_spec g rep.gs ho.spec (hg.source g.toCore) ho.typ (g.need_lim ho) hm with
    ⟨s1, c1, data, e, g1, kp, d1, d2, -⟩ | ⟨s1, e, hnr, -⟩
  · have hnz := g1.lay.head.nzB
    refine ⟨_, _, e, Or.inr ⟨by omega, h.add hm ho hg e (by omega), ?_, by rw [g.pbuf, g1.pbuf]; exact kp⟩, fun _ => by omega⟩
    have rep1 := rep.add g.lay.ok ho (data := data) (fun j hj hp => by rw [d1 j hj hp, hg.bytes j hj hp]) d2
    have hn := (g1.holds rep1).num
    unfold bufGetObject
    rw [hn, Res.ok_bind, Res.pure_eq, if_pos ⟨by rw [g1.objs]; omega, by simp⟩, g1.objs, ← rep.len]
    congr 1; omega
  · exact ⟨_, _, e, Or.inl rfl, fun hr => absurd hr hnr⟩

end SixTrack.Buf
