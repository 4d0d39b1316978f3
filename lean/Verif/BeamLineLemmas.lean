import Verif.BeamLine
import Verif.Props.Buffer

/-!
# Lemmas about lines of beam elements
-/

namespace SixTrack.BeamLine

open Buf

/-! ## What a record stands for -/

/-- The arrays of an element of type `t` whose handle starts with the number `n` (the order of
a multipole, the number of stored values of a beam-beam element): where the pointer is, the size
and the number of entries. -/
def Arrays (n : Nat) (as : List AttrSpec) : Ty → Prop
  | .multipole => as = [⟨32, 8, 2 * n + 2⟩]
  | .rfMultipole => as = [⟨32, 8, 2 * n + 2⟩, ⟨40, 8, 2 * n + 2⟩]
  | .beamBeam4D => as = [⟨8, 8, n⟩]
  | .beamBeam6D => as = [⟨8, 8, n⟩]
  | .triCubData => ∃ k, as = [⟨96, 8, 8 * k⟩]
  | .lineDensity => ∃ k, as = [⟨16, 8, k⟩, ⟨24, 8, k⟩]
  | _ => as = []

/-- At `rec`, outside of the buffer, there is a record of an element of type `t`, namely of the
object `o`, which is also outside of the buffer. -/
structure IsElem (s : St) (rec : Nat) (t : Ty) (o : Obj) : Prop where
  nz : rec ≠ 0
  al : rec % 8 = 0
  ext : s.mem.ext s.pool.buffer rec 16
  typ : s.mem.word (rec + 8) = t.id
  alp : s.mem.word rec % 8 = 0
  given : Given s (s.mem.word rec) o
  ok : o.Ok
  id : o.typeId = t.id
  size : o.size = t.size
  arrays : Arrays (s.mem.word (s.mem.word rec)) o.attrs t

/-- From `rec` on there are the records of the elements of a line. -/
def IsLine (s : St) (rec : Nat) : List (Ty × Obj) → Prop
  | [] => True
  | (t, o) :: l => IsElem s rec t o ∧ IsLine s (rec + 24) l

theorem Ty.ofId_id (t : Ty) : Ty.ofId t.id = some t := by cases t <;> rfl

theorem Ty.size_ge (t : Ty) : 8 ≤ t.size := by cases t <;> decide

theorem Ty.newId_lt (t : Ty) : t.newId < W := by cases t <;> decide

theorem Given.keeps {s s' : St} {src : Nat} {o : Obj} (g : Given s src o) (ho : o.Ok)
    (hk : Keeps s.mem s'.mem s.pool.buffer s'.pool.buffer) : Given s' src o := by
  refine ⟨g.nz, hk.ext _ _ g.handle, fun j hj hp => ?_, fun a ha => ?_⟩
  · rw [hk.byte _ (g.handle.sub (by omega) (by omega)), g.bytes j hj hp]
  · have hw : s'.mem.word (src + a.off) = s.mem.word (src + a.off) :=
      hk.word (g.handle.sub (by omega) (by have := ho.off a ha; omega))
    rw [hw]
    rcases g.attrs a ha with h1 | ⟨h1, h2, h3⟩
    · exact Or.inl h1
    · refine Or.inr ⟨h1, hk.ext _ _ h2, fun j hj => ?_⟩
      rw [hk.byte _ (h2.sub (by omega) (by omega)), h3 j hj]

theorem IsElem.keeps {s s' : St} {rec : Nat} {t : Ty} {o : Obj} (h : IsElem s rec t o)
    (hk : Keeps s.mem s'.mem s.pool.buffer s'.pool.buffer) : IsElem s' rec t o := by
  have e1 : s'.mem.word (rec + 8) = s.mem.word (rec + 8) := hk.word (h.ext.sub (by omega) (by omega))
  have e2 : s'.mem.word rec = s.mem.word rec := hk.word (h.ext.sub (by omega) (by omega))
  have e3 : s'.mem.word (s.mem.word rec) = s.mem.word (s.mem.word rec) :=
    hk.word (h.given.handle.sub (by omega) (by rw [h.size]; have := t.size_ge; omega))
  refine ⟨h.nz, h.al, hk.ext _ _ h.ext, by rw [e1, h.typ], by rw [e2]; exact h.alp, by
    rw [e2]; exact Given.keeps h.given h.ok hk, h.ok, h.id, h.size, ?_⟩
  rw [e2, e3]; exact h.arrays

theorem IsLine.keeps {s s' : St} (hk : Keeps s.mem s'.mem s.pool.buffer s'.pool.buffer) :
    ∀ {l : List (Ty × Obj)} {rec : Nat}, IsLine s rec l → IsLine s' rec l
  | [], _, _ => trivial
  | (_, _) :: _, _, h => ⟨h.1.keeps hk, IsLine.keeps hk h.2⟩

theorem IsElem.load_id {s : St} {rec : Nat} {t : Ty} {o : Obj} (h : IsElem s rec t o) :
    s.mem.load64 (rec + 8) = .ok t.id := by
  rw [Mem.load64_ok (by have := h.al; omega) (h.ext.sub (by omega) (by omega)).valid, h.typ]

theorem IsElem.load_addr {s : St} {rec : Nat} {t : Ty} {o : Obj} (h : IsElem s rec t o) :
    s.mem.load64 rec = .ok (s.mem.word rec) :=
  Mem.load64_ok h.al (h.ext.sub (by omega) (by omega)).valid

theorem IsElem.load_first {s : St} {rec : Nat} {t : Ty} {o : Obj} (h : IsElem s rec t o) :
    s.mem.load64 (s.mem.word rec) = .ok (s.mem.word (s.mem.word rec)) :=
  Mem.load64_ok h.alp (h.given.handle.sub (by omega) (by rw [h.size]; have := t.size_ge; omega)).valid

theorem evenLength_small {w : Nat} (h : w < 2 ^ 61) : evenLength w = .ok (2 * w + 2) := if_pos (by omega)

theorem balLength_small {w : Nat} (h : w < 2 ^ 61) : balLength w = .ok (2 * w + 2) := by
  unfold balLength
  rw [if_pos (by omega), evenLength_small h]

/-- Types for which a copy is really tried. -/
def Ty.Copyable (t : Ty) : Prop := t ≠ .scInterpolated ∧ t ≠ .lineDensity ∧ t ≠ .triCubData

instance (t : Ty) : Decidable t.Copyable := by unfold Ty.Copyable; infer_instance

theorem IsElem.order_lt {s : St} {rec : Nat} {t : Ty} {o : Obj} (h : IsElem s rec t o)
    (ht : t = .multipole ∨ t = .rfMultipole) : s.mem.word (s.mem.word rec) < 2 ^ 58 := by
  have := h.ok.lim
  have ha := h.arrays
  rw [Obj.total] at this
  rcases ht with rfl | rfl <;> simp only [Arrays] at ha <;> rw [ha] at this <;>
    simp only [List.map_cons, List.map_nil, List.sum_cons, List.sum_nil, List.length_cons, List.length_nil] at this <;> omega

theorem IsElem.attrsOf {s : St} {rec : Nat} {t : Ty} {o : Obj} (h : IsElem s rec t o) (ht : t.Copyable) :
    attrsOf s.mem (s.mem.word rec) t = .ok (some o.attrs) := by
  have ha := h.arrays
  have hl := h.load_first
  cases t
  case multipole =>
    have := h.order_lt (Or.inl rfl)
    simp only [Arrays] at ha
    simp only [BeamLine.attrsOf, hl, Res.ok_bind, balLength_small (by omega : s.mem.word (s.mem.word rec) < 2 ^ 61), Res.pure_eq, ha]
  case rfMultipole =>
    have := h.order_lt (Or.inr rfl)
    simp only [Arrays] at ha
    simp only [BeamLine.attrsOf, hl, Res.ok_bind, if_pos (by omega : s.mem.word (s.mem.word rec) < 2 ^ 63),
      evenLength_small (by omega : s.mem.word (s.mem.word rec) < 2 ^ 61), Res.pure_eq, ha]
  case beamBeam4D =>
    simp only [Arrays] at ha
    simp only [BeamLine.attrsOf, hl, Res.ok_bind, Res.pure_eq, ha]
  case beamBeam6D =>
    simp only [Arrays] at ha
    simp only [BeamLine.attrsOf, hl, Res.ok_bind, Res.pure_eq, ha]
  case triCubData => exact absurd rfl ht.2.2
  case scInterpolated => exact absurd rfl ht.1
  case lineDensity => exact absurd rfl ht.2.1
  all_goals
    simp only [Arrays] at ha
    simp only [BeamLine.attrsOf, ha]

/-- The object which is stored: its type is given by the function of the type. -/
def asStored (t : Ty) (o : Obj) : Obj := { o with typeId := t.newId }

theorem asStored_ok {t : Ty} {o : Obj} (h : o.Ok) : (asStored t o).Ok :=
  ⟨h.pos, h.off, h.ne, t.newId_lt, h.lim⟩

theorem asStored_given {s : St} {src : Nat} {t : Ty} {o : Obj} (h : Given s src o) : Given s src (asStored t o) :=
  ⟨h.nz, h.handle, h.bytes, h.attrs⟩

theorem asStored_eq {s : St} {rec : Nat} {t : Ty} {o : Obj} (h : IsElem s rec t o) (ht : t ≠ .beamBeam6D) :
    asStored t o = o := by
  have e : t.newId = t.id := by cases t <;> first | rfl | exact absurd rfl ht
  cases o
  have := h.id
  simp only [asStored, e, ← this]

/-- What is used after adding `o`. -/
def addUsed (n : Caps) (o : Obj) : Caps :=
  ⟨n.objs + 1, n.slots + o.total / 8, n.dataptrs + o.attrs.length, n.garbage⟩

theorem Obj.total_mod (o : Obj) : o.total % 8 = 0 := by
  unfold Obj.total
  have : ∀ l : List AttrSpec, (l.map fun a => (a.count * a.size + 7) / 8 * 8).sum % 8 = 0 := by
    intro l
    induction l with
    | nil => rfl
    | cons a l ih => simp only [List.map_cons, List.sum_cons]; omega
  have := this o.attrs
  omega

/-- Adding an object: it succeeds, or there is no room. -/
theorem add_cases {malloc : Nat → Nat} {s : St} {os : List Obj} {src : Nat} {o : Obj} (h : Reach s os)
    (hm : MallocOk malloc s.mem) (ho : o.Ok) (hg : Given s src o) :
    (∃ s' r q, addObject malloc s src o.size o.typeId o.attrs = .ok (s', r) ∧ r ≠ 0 ∧ s'.mem.load64 r = .ok q ∧ q ≠ 0 ∧
      Reach s' (os ++ [o]) ∧ Keeps s.mem s'.mem s.pool.buffer s'.pool.buffer ∧
      ∀ n c, Used s n → Capacity s c → Room n c o → Used s' (addUsed n o) ∧ Capacity s' c ∧
        s'.buf.dataAddr = s.buf.dataAddr) ∨
    (∃ s', addObject malloc s src o.size o.typeId o.attrs = .ok (s', 0) ∧
      ∀ n c, Used s n → Capacity s c → ¬ Room n c o) := by
  obtain ⟨c, k, g, rep⟩ := h.good
  have hslots := ho.slots
  rcases addObject_spec g rep.gs ho.spec (hg.source g.toCore) ho.typ (g.need_lim ho) hm with
    ⟨s', c', data, e, g', kp, -, -, hr, -⟩ | ⟨s', e, hn, -⟩
  · left
    have hh := g'.lay.head
    have hnz := hh.nzB
    have hrec : (k.add o.typeId o.size o.attrs data).recs[k.recs.length]? =
        some (8 * k.nS, o.typeId, 8 * objSlots o.size o.attrs) := by
      simp [Content.add]
    have hw := (g'.lay.recs _ _ hrec).1
    have hle : k.recs.length + 1 ≤ c'.objs := by
      have := hh.le.objs
      simpa [Content.counts, Content.add] using this
    have hoff := off_end c' 4 (by omega) (by omega)
    have hmod := off_mod c' 4 (by omega) (by omega)
    simp only [ent, cnt] at hoff
    have hfit := hh.fit
    have hal := hh.alB
    refine ⟨s', _, _, e, by omega, Mem.load64_ok (by omega) (Mem.valid_sub hh.val (by omega) (by omega)), by rw [hw]; omega,
      Reach.add h hm ho hg e (by omega), by rw [g.pbuf, g'.pbuf]; exact kp, fun n c0 hn hc room => ?_⟩
    obtain rfl := hc.unique g.capacity
    obtain rfl := hn.unique g.used
    obtain ⟨rfl, h1, -⟩ := hr ((room_iff ho).2 room)
    refine ⟨?_, g'.capacity, h1⟩
    have hu := g'.used
    have e2 : (k.add o.typeId o.size o.attrs data).counts = addUsed k.counts o := by
      simp only [Content.counts, Content.add, addUsed, List.length_append, List.length_singleton, Caps.mk.injEq, true_and]
      refine ⟨by omega, ?_⟩
      exact ⟨by rw [newPtrs_length], trivial⟩
    rwa [e2] at hu
  · right
    refine ⟨s', e, fun n c0 hn' hc room => hn ?_⟩
    obtain rfl := hc.unique g.capacity
    obtain rfl := hn'.unique g.used
    exact (room_iff ho).2 room

/-- What is called for a record. -/
theorem copySingle_eq {malloc : Nat → Nat} {s : St} {rec : Nat} {t : Ty} {o : Obj} (he : IsElem s rec t o) (ht : t.Copyable) :
    copySingle malloc s rec = (do
      let (s', r) ← addObject malloc s (s.mem.word rec) (asStored t o).size (asStored t o).typeId (asStored t o).attrs
      let q ← beginAddr s'.mem r
      return (s', copyStatus q t)) := by
  unfold copySingle
  rw [if_neg he.nz, he.load_id, Res.ok_bind, he.load_addr, Res.ok_bind, Ty.ofId_id]
  have e : ∀ (x : Res (St × Int)) (y : Ty → Res (St × Int)),
      (match some t with | none => x | some .scInterpolated => x | some .lineDensity => x | some t => y t) = y t := by
    intro x y
    obtain ⟨h1, h2, -⟩ := ht
    cases t <;> first | rfl | exact absurd rfl h1 | exact absurd rfl h2
  refine (e _ _).trans ?_
  unfold addCopy
  rw [if_neg he.given.nz, he.attrsOf ht, Res.ok_bind]
  dsimp only
  have e2 : (asStored t o).size = t.size := he.size
  rw [e2]
  simp only [asStored]
  cases addObject malloc s (s.mem.word rec) t.size t.newId o.attrs with
  | ub => rfl
  | ok x =>
    simp only [Res.ok_bind]
    cases beginAddr x.1.mem x.2 <;> rfl

/-- Copying the element of a record. -/
theorem copySingle_cases {malloc : Nat → Nat} {s : St} {os : List Obj} {rec : Nat} {t : Ty} {o : Obj} (h : Reach s os)
    (hm : MallocOk malloc s.mem) (he : IsElem s rec t o) (ht : t.Copyable) :
    (∃ s' q, copySingle malloc s rec = .ok (s', copyStatus q t) ∧ q ≠ 0 ∧ Reach s' (os ++ [asStored t o]) ∧
      Keeps s.mem s'.mem s.pool.buffer s'.pool.buffer ∧
      ∀ n c, Used s n → Capacity s c → Room n c o → Used s' (addUsed n o) ∧ Capacity s' c ∧
        s'.buf.dataAddr = s.buf.dataAddr) ∨
    (∃ s', copySingle malloc s rec = .ok (s', copyStatus 0 t) ∧ ∀ n c, Used s n → Capacity s c → ¬ Room n c o) := by
  rw [copySingle_eq he ht]
  rcases add_cases h hm (asStored_ok (t := t) he.ok) (asStored_given he.given) with
    ⟨s', r, q, e1, nr, e2, nq, re, kp, hr⟩ | ⟨s', e1, hr⟩
  · have hroom : ∀ n c, Room n c o → Room n c (asStored t o) := fun n c h => ⟨h.1, h.2, h.3⟩
    refine Or.inl ⟨s', q, ?_, nq, re, kp, fun n c hn hc room => hr n c hn hc (hroom n c room)⟩
    rw [e1, Res.ok_bind]
    dsimp only
    rw [beginAddr, if_neg nr, e2, Res.ok_bind, Res.pure_eq]
  · have hroom : ∀ n c, Room n c o → Room n c (asStored t o) := fun n c h => ⟨h.1, h.2, h.3⟩
    refine Or.inr ⟨s', ?_, fun n c hn hc room => hr n c hn hc (hroom n c room)⟩
    rw [e1, Res.ok_bind]
    dsimp only
    rw [beginAddr, if_pos rfl, Res.ok_bind, Res.pure_eq]

/-! ## Lines -/

/-- Types of which a successful copy is reported as a failure, and the other way round. -/
def Ty.Inverted (t : Ty) : Prop := t = .beamBeam4D ∨ t = .beamBeam6D ∨ t = .scCoasting ∨ t = .scQGauss

instance (t : Ty) : Decidable t.Inverted := by unfold Ty.Inverted; infer_instance

/-- Types which are copied as they should be. -/
def Ty.Plain (t : Ty) : Prop := t.Copyable ∧ ¬ t.Inverted

instance (t : Ty) : Decidable t.Plain := by unfold Ty.Plain; infer_instance

theorem copyStatus_plain {t : Ty} (h : t.Plain) (q : Nat) : copyStatus q t = if q ≠ 0 then 0 else -1 := by
  obtain ⟨⟨h1, h2, h3⟩, h4⟩ := h
  cases t <;> first | rfl | exact absurd rfl h1 | exact absurd rfl h2 | exact absurd rfl h3 | exact absurd (by decide) h4

theorem copyStatus_inverted {t : Ty} (h : t.Inverted) (q : Nat) : copyStatus q t = if q ≠ 0 then 1 else 0 := by
  rcases h with rfl | rfl | rfl | rfl <;> rfl

theorem Ty.Inverted.copyable {t : Ty} (h : t.Inverted) : t.Copyable := by
  rcases h with rfl | rfl | rfl | rfl <;> decide

theorem Ty.Plain.ne {t : Ty} (h : t.Plain) : t ≠ .beamBeam6D := by
  rintro rfl; exact h.2 (by decide)

/-- The numbers of entries of all objects of a line. -/
def lineUsed (n : Caps) : List (Ty × Obj) → Caps
  | [] => n
  | (_, o) :: l => lineUsed (addUsed n o) l

theorem lineUsed_mono (l : List (Ty × Obj)) : ∀ n : Caps, n.objs ≤ (lineUsed n l).objs ∧
    n.slots ≤ (lineUsed n l).slots ∧ n.dataptrs ≤ (lineUsed n l).dataptrs := by
  induction l with
  | nil => exact fun n => ⟨Nat.le_refl _, Nat.le_refl _, Nat.le_refl _⟩
  | cons x l ih =>
    intro n
    have := ih (addUsed n x.2)
    simp only [addUsed] at this
    exact ⟨by simp only [lineUsed, addUsed]; omega, by simp only [lineUsed, addUsed]; omega,
      by simp only [lineUsed, addUsed]; omega⟩

/-- Room for a whole line. -/
def LineRoom (n c : Caps) (l : List (Ty × Obj)) : Prop :=
  (lineUsed n l).objs ≤ c.objs ∧ (lineUsed n l).slots ≤ c.slots ∧ (lineUsed n l).dataptrs ≤ c.dataptrs

theorem LineRoom.first {n c : Caps} {t : Ty} {o : Obj} {l : List (Ty × Obj)} (h : LineRoom n c ((t, o) :: l)) :
    Room n c o := by
  obtain ⟨h1, h2, h3⟩ := h
  obtain ⟨m1, m2, m3⟩ := lineUsed_mono l (addUsed n o)
  have := Obj.total_mod o
  simp only [lineUsed] at h1 h2 h3
  simp only [addUsed] at m1 m2 m3
  exact ⟨by simp only [addUsed] at h1; omega, by simp only [addUsed] at h2; omega, by simp only [addUsed] at h3; omega⟩

/-- Copying the plain elements at the beginning of a line. -/
theorem copyLoop_plain {malloc : Mem → Nat → Nat} (hm : ∀ m, MallocOk (malloc m) m) (more : Nat) :
    ∀ (l : List (Ty × Obj)) {s : St} {os : List Obj} {rec : Nat}, Reach s os → IsLine s rec l → (∀ x ∈ l, x.1.Plain) →
    (∃ s', copyLoop malloc s rec (l.length + more) = copyLoop malloc s' (rec + 24 * l.length) more ∧
      Reach s' (os ++ l.map Prod.snd) ∧ Keeps s.mem s'.mem s.pool.buffer s'.pool.buffer ∧
      ∀ n c, Used s n → Capacity s c → LineRoom n c l → Used s' (lineUsed n l) ∧ Capacity s' c ∧
        s'.buf.dataAddr = s.buf.dataAddr) ∨
    (∃ s', copyLoop malloc s rec (l.length + more) = .ok (s', -1) ∧
      ∀ n c, Used s n → Capacity s c → ¬ LineRoom n c l)
  | [], s, os, rec, h, _, _ => by
    refine Or.inl ⟨s, by simp, by simpa using h, Keeps.refl _ _, fun n c hn hc _ => ⟨hn, hc, rfl⟩⟩
  | (t, o) :: l, s, os, rec, h, hl, hp => by
    have pt : t.Plain := hp (t, o) (by simp)
    have hstep : copyLoop malloc s rec (((t, o) :: l).length + more) = (do
        let (s', ret) ← copySingle (malloc s.mem) s rec
        if ret ≠ 0 then return (s', ret) else copyLoop malloc s' (rec + 24) (l.length + more)) := by
      rw [show ((t, o) :: l).length + more = (l.length + more) + 1 by simp only [List.length_cons]; omega]
      rfl
    rcases copySingle_cases h (hm _) hl.1 pt.1 with ⟨s1, q, e1, nq, r1, k1, u1⟩ | ⟨s1, e1, u1⟩
    · rw [copyStatus_plain pt, if_pos nq] at e1
      rw [asStored_eq hl.1 pt.ne] at r1
      rw [e1] at hstep
      simp only [Res.ok_bind, ne_eq, not_true_eq_false, if_false] at hstep
      rcases copyLoop_plain hm more l r1 (hl.2.keeps k1) (fun x hx => hp x (by simp [hx])) with
        ⟨s2, e2, r2, k2, u2⟩ | ⟨s2, e2, u2⟩
      · refine Or.inl ⟨s2, ?_, ?_, k1.trans k2, fun n c hn hc room => ?_⟩
        · rw [hstep, e2]
          congr 1
          simp only [List.length_cons]; omega
        · simpa using r2
        · obtain ⟨a1, a2, a3⟩ := u1 n c hn hc room.first
          obtain ⟨b1, b2, b3⟩ := u2 _ c a1 a2 room
          exact ⟨b1, b2, b3.trans a3⟩
      · refine Or.inr ⟨s2, by rw [hstep, e2], fun n c hn hc room => ?_⟩
        obtain ⟨a1, a2, a3⟩ := u1 n c hn hc room.first
        exact u2 _ c a1 a2 room
    · rw [copyStatus_plain pt] at e1
      simp only [ne_eq, not_true_eq_false, if_false] at e1
      refine Or.inr ⟨s1, ?_, fun n c hn hc room => u1 n c hn hc room.first⟩
      rw [hstep, e1, Res.ok_bind]
      rfl

theorem IsLine.append {s : St} : ∀ {l l' : List (Ty × Obj)} {rec : Nat}, IsLine s rec (l ++ l') →
    IsLine s rec l ∧ IsLine s (rec + 24 * l.length) l'
  | [], _, _, h => ⟨trivial, by simpa using h⟩
  | (_, _) :: l, l', rec, h => by
    obtain ⟨h1, h2⟩ := IsLine.append (l := l) h.2
    refine ⟨⟨h.1, h1⟩, ?_⟩
    rw [show rec + 24 * (((_, _) :: l : List (Ty × Obj))).length = rec + 24 + 24 * l.length by
      simp only [List.length_cons]; omega]
    exact h2

/-! ## Required capacity -/

/-- Types of which the number of slots is computed as it should be. -/
def Ty.Counted (t : Ty) : Prop := t ≠ .scCoasting ∧ t ≠ .scInterpolated ∧ t ≠ .triCubData ∧ t ≠ .lineDensity

instance (t : Ty) : Decidable t.Counted := by unfold Ty.Counted; infer_instance

theorem ceilSlots_8 (n : Nat) : ceilSlots n 8 = (n + 7) / 8 := by
  unfold ceilSlots
  split <;> omega

theorem IsElem.numSlots {s : St} {rec : Nat} {t : Ty} {o : Obj} (h : IsElem s rec t o) (ht : t.Counted) :
    numSlots s.mem (s.mem.word rec) 8 t = .ok (o.total / 8) := by
  have ha := h.arrays
  have hl := h.load_first
  have hz := h.size
  have hlim := h.ok.lim
  have hnz := h.given.nz
  have hW : W = 2 ^ 64 := rfl
  generalize hw : s.mem.word (s.mem.word rec) = w at ha hl
  cases t
  case multipole =>
    have := h.order_lt (Or.inl rfl)
    rw [hw] at this
    simp only [Arrays] at ha
    simp only [Obj.total, ha, hz, Ty.size, List.map_cons, List.map_nil, List.sum_cons, List.sum_nil]
    simp only [BeamLine.numSlots, if_neg hnz, hl, Res.ok_bind, balLength_small (by omega : w < 2 ^ 61), Res.pure_eq,
      ceilSlots_8, roundUp_8]
    have e : (2 * w + 2) * 8 % W = (2 * w + 2) * 8 := Nat.mod_eq_of_lt (by rw [hW]; omega)
    simp only [e]
    refine congrArg Res.ok ?_; clear e; omega
  case rfMultipole =>
    have := h.order_lt (Or.inr rfl)
    rw [hw] at this
    simp only [Arrays] at ha
    simp only [Obj.total, ha, hz, Ty.size, List.map_cons, List.map_nil, List.sum_cons, List.sum_nil]
    simp only [BeamLine.numSlots, if_neg hnz, hl, Res.ok_bind, evenLength_small (by omega : w < 2 ^ 61), Res.pure_eq,
      ceilSlots_8, roundUp_8]
    have e : 8 * (2 * w + 2) % W = 8 * (2 * w + 2) := Nat.mod_eq_of_lt (by rw [hW]; omega)
    simp only [e]
    refine congrArg Res.ok ?_; clear e; omega
  case beamBeam4D =>
    simp only [Arrays] at ha
    rw [Obj.total, ha] at hlim
    simp only [List.map_cons, List.map_nil, List.sum_cons, List.sum_nil] at hlim
    simp only [Obj.total, ha, hz, Ty.size, List.map_cons, List.map_nil, List.sum_cons, List.sum_nil]
    simp only [BeamLine.numSlots, if_neg hnz, hl, Res.ok_bind, Res.pure_eq, ceilSlots_8, roundUp_8]
    have e : w * 8 % W = w * 8 := Nat.mod_eq_of_lt (by rw [hW]; omega)
    simp only [e]
    refine congrArg Res.ok ?_; clear e; omega
  case beamBeam6D =>
    simp only [Arrays] at ha
    rw [Obj.total, ha] at hlim
    simp only [List.map_cons, List.map_nil, List.sum_cons, List.sum_nil] at hlim
    simp only [Obj.total, ha, hz, Ty.size, List.map_cons, List.map_nil, List.sum_cons, List.sum_nil]
    simp only [BeamLine.numSlots, if_neg hnz, hl, Res.ok_bind, Res.pure_eq, ceilSlots_8, roundUp_8]
    have e : w * 8 % W = w * 8 := Nat.mod_eq_of_lt (by rw [hW]; omega)
    simp only [e]
    refine congrArg Res.ok ?_; clear e; omega
  case scCoasting => exact absurd rfl ht.1
  case scInterpolated => exact absurd rfl ht.2.1
  case triCubData => exact absurd rfl ht.2.2.1
  case lineDensity => exact absurd rfl ht.2.2.2
  all_goals
    simp only [Arrays] at ha
    simp only [Obj.total, ha, hz, Ty.size, List.map_nil, List.sum_nil]
    simp only [BeamLine.numSlots, if_neg hnz, Ty.size, ceilSlots_8, roundUp_8]
    exact congrArg Res.ok (by omega)

theorem IsElem.numDataptrs {s : St} {rec : Nat} {t : Ty} {o : Obj} (h : IsElem s rec t o) :
    numDataptrs t = o.attrs.length := by
  have ha := h.arrays
  cases t
  case triCubData => obtain ⟨k, e⟩ := ha; rw [e]; rfl
  case lineDensity => obtain ⟨k, e⟩ := ha; rw [e]; rfl
  all_goals (simp only [Arrays] at ha; rw [ha]; rfl)

theorem IsElem.calcObject {s : St} {rec : Nat} {t : Ty} {o : Obj} (h : IsElem s rec t o) (ht : t.Counted) (n : Caps) :
    calcObject s.mem 8 n rec = .ok (addUsed n o, 0) := by
  unfold BeamLine.calcObject
  rw [if_pos ⟨h.nz, by decide⟩, h.load_addr, Res.ok_bind, h.load_id, Res.ok_bind, Ty.ofId_id]
  have e : ∀ (x : Res (Caps × Int)) (y : Ty → Res (Caps × Int)),
      (match some t with | none => x | some .lineDensity => x | some t => y t) = y t := by
    intro x y
    have := ht.2.2.2
    cases t <;> first | rfl | exact absurd rfl this
  refine (e _ _).trans ?_
  rw [h.numSlots ht, Res.ok_bind, h.numDataptrs]
  rfl

theorem calcLoop_line {s : St} : ∀ (l : List (Ty × Obj)) {rec : Nat} (n : Caps), IsLine s rec l →
    (∀ x ∈ l, x.1.Counted) → calcLoop s.mem 8 n rec l.length = .ok (lineUsed n l, 0)
  | [], _, _, _, _ => rfl
  | (t, o) :: l, rec, n, h, ht => by
    rw [List.length_cons, calcLoop, h.1.calcObject (ht (t, o) (by simp)), Res.ok_bind]
    exact calcLoop_line l (addUsed n o) h.2 fun x hx => ht x (by simp [hx])

end SixTrack.BeamLine
