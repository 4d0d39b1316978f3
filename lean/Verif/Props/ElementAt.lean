import Verif.ElementAt

/-!
# C106: an element is found by its index exactly if the object there has its type
-/

namespace SixTrack
open ElementAt

theorem drop_words (objs : List Entry) (tail : List Nat) (i : Nat) (h : i ≤ objs.length) :
    (objs.flatMap Entry.words ++ tail).drop (3 * i) = (objs.drop i).flatMap Entry.words ++ tail := by
  induction objs generalizing i with
  | nil =>
    have : i = 0 := by simpa using h
    subst this
    rfl
  | cons e es ih =>
    cases i with
    | zero => rfl
    | succ i =>
      have := ih i (by simpa using h)
      simpa [Entry.words, Nat.mul_succ] using this

theorem readEntry_words (objs : List Entry) (tail : List Nat) (i : Nat) (e : Entry) (h : objs[i]? = some e) :
    readEntry (objs.flatMap Entry.words ++ tail) i = .ok e := by
  obtain ⟨hi, he⟩ := List.getElem?_eq_some_iff.mp h
  unfold readEntry
  rw [drop_words objs tail i (Nat.le_of_lt hi), List.drop_eq_getElem_cons hi, he]
  rfl

/-- The element with an index is the address of the object there if that has its type and is large enough, and else null. -/
theorem C106_found (sizeof : Kind → Nat) (k : Kind) (objs : List Entry) (tail : List Nat) (i : Nat) (e : Entry)
    (h : objs[i]? = some e) :
    element sizeof k (objs.flatMap Entry.words ++ tail) objs.length i =
      .ok (if e.type = k.id ∧ sizeof k ≤ e.size then e.addr else 0) := by
  obtain ⟨hi, _⟩ := List.getElem?_eq_some_iff.mp h
  unfold element
  rw [if_pos (Nat.le_of_lt hi), readEntry_words objs tail i e h]
  rfl

/-- No two types have the same number, and none has 0. -/
theorem C106_ids (k k' : Kind) : (k.id = k'.id ↔ k = k') ∧ k.id ≠ 0 := by
  cases k <;> cases k' <;> decide

/-- The numbers are those that stored buffers have. -/
theorem C106_numbers (k : Kind) : (k, k.id) ∈ [(Kind.drift, 2), (.driftExact, 3), (.multipole, 4), (.rfMultipole, 256), (.cavity, 5),
    (.xyShift, 6), (.sRotation, 7), (.beamBeam4D, 8), (.beamBeam6D, 9), (.monitor, 10), (.limitRect, 11), (.limitEllipse, 12),
    (.limitRectEllipse, 16), (.scCoasting, 13), (.scQGauss, 14), (.scInterpolated, 257), (.lineDensity, 258), (.tricubData, 260),
    (.tricub, 261), (.dipedge, 24), (.elemByElem, 65534), (.assignItem, 65536)] := by
  cases k <;> decide

/-- An object is found as an element of one type at most. -/
theorem C106_one_type (sizeof : Kind → Nat) (k k' : Kind) (objs : List Entry) (tail : List Nat) (i p p' : Nat)
    (hi : i < objs.length)
    (h : element sizeof k (objs.flatMap Entry.words ++ tail) objs.length i = .ok p) (hp : p ≠ 0)
    (h' : element sizeof k' (objs.flatMap Entry.words ++ tail) objs.length i = .ok p') (hp' : p' ≠ 0) : k = k' ∧ p = p' := by
  have e := List.getElem?_eq_getElem hi
  rw [C106_found sizeof k objs tail i _ e] at h
  rw [C106_found sizeof k' objs tail i _ e] at h'
  have h := Res.ok.inj h
  have h' := Res.ok.inj h'
  split at h
  · rename_i c
    split at h'
    · rename_i c'
      exact ⟨((C106_ids k k').1).mp (c.1.symm.trans c'.1), h.symm.trans h'⟩
    · exact absurd h'.symm hp'
  · exact absurd h.symm hp

/-- Indices greater than the number of objects give null. -/
theorem C106_outside (sizeof : Kind → Nat) (k : Kind) (mem : List Nat) (n i : Nat) (h : n < i) :
    element sizeof k mem n i = .ok 0 := by
  unfold element
  rw [if_neg (by omega)]

/-- The index that is the number of objects is not refused.  In a buffer without reserves the header of the next section is taken
for an object, whose type is the number of data pointers, whose size is the first of them, and whose address is the size of the
section. -/
theorem C106_behind (sizeof : Kind → Nat) (k : Kind) (objs : List Entry) (p : Nat) (ptrs rest : List Nat) :
    element sizeof k (fullBuffer objs (p :: ptrs) rest) objs.length objs.length =
      .ok (if ptrs.length + 1 = k.id ∧ sizeof k ≤ p then 16 + 8 * (ptrs.length + 1) else 0) := by
  have e : readEntry (fullBuffer objs (p :: ptrs) rest) objs.length = .ok ⟨16 + 8 * (ptrs.length + 1), ptrs.length + 1, p⟩ := by
    unfold readEntry fullBuffer
    rw [List.append_assoc, drop_words objs _ objs.length (Nat.le_refl _), List.drop_length]
    rfl
  unfold element
  rw [if_pos (Nat.le_refl _), e]
  rfl

/-- If fewer than three words follow the object index, the index that is the number of objects is undefined. -/
theorem C106_end_violated (sizeof : Kind → Nat) (k : Kind) (objs : List Entry) (tail : List Nat) (h : tail.length < 3) :
    element sizeof k (objs.flatMap Entry.words ++ tail) objs.length objs.length = .ub := by
  have e : readEntry (objs.flatMap Entry.words ++ tail) objs.length = .ub := by
    unfold readEntry
    rw [drop_words objs _ objs.length (Nat.le_refl _), List.drop_length]
    match tail, h with
    | [], _ => rfl
    | [_], _ => rfl
    | [_, _], _ => rfl
  unfold element
  rw [if_pos (Nat.le_refl _), e]
  rfl

/-- A buffer of two multipoles has a third element, a drift at address 32. -/
theorem C106_index_violated :
    ∃ (objs : List Entry) (ptrs rest : List Nat), objs.length = 2 ∧ (∀ e ∈ objs, e.type = Kind.multipole.id) ∧
      ∀ sizeof : Kind → Nat, sizeof .drift ≤ 4096 →
        element sizeof .drift (fullBuffer objs ptrs rest) objs.length 2 = .ok 32 := by
  refine ⟨[⟨4096, 4, 40⟩, ⟨4136, 4, 40⟩], [4120, 4160], [16, 0], rfl, by decide, ?_⟩
  intro sizeof h
  have := C106_behind sizeof .drift [⟨4096, 4, 40⟩, ⟨4136, 4, 40⟩] 4120 [4160] [16, 0]
  rw [if_pos ⟨rfl, by omega⟩] at this
  exact this

/-- C106_found, C106_one_type and C106_outside have cases -/
example : element (fun _ => 8) .multipole (fullBuffer [⟨4096, 4, 40⟩, ⟨4136, 2, 8⟩] [4120] [16, 0]) 2 0 = .ok 4096 ∧
    element (fun _ => 8) .drift (fullBuffer [⟨4096, 4, 40⟩, ⟨4136, 2, 8⟩] [4120] [16, 0]) 2 0 = .ok 0 ∧
    element (fun _ => 8) .drift (fullBuffer [⟨4096, 4, 40⟩, ⟨4136, 2, 8⟩] [4120] [16, 0]) 2 1 = .ok 4136 ∧
    element (fun _ => 9) .drift (fullBuffer [⟨4096, 4, 40⟩, ⟨4136, 2, 8⟩] [4120] [16, 0]) 2 1 = .ok 0 ∧
    element (fun _ => 8) .drift (fullBuffer [⟨4096, 4, 40⟩, ⟨4136, 2, 8⟩] [4120] [16, 0]) 2 3 = .ok 0 :=
  ⟨rfl, rfl, rfl, rfl, rfl⟩

/-- C106_end_violated has a case: no data pointers, and nothing behind their section -/
example : element (fun _ => 8) .drift (fullBuffer [⟨4096, 2, 8⟩] [] []) 1 1 = .ub := rfl

end SixTrack
