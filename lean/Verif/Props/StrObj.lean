import Verif.StrObj
import Mathlib.Data.List.Basic

/-!
# C100: strings in buffers
-/

namespace SixTrack
open SixTrack.StrObj

/-- The C string at `m` has the characters `t`. -/
def IsText (m t : List Byte) : Prop := 0#8 ∉ t ∧ ∃ rest, m = t ++ 0#8 :: rest

/-- The object holds the characters `t`, and zeros after them. -/
structure StrHas (s : Str) (t : List Byte) : Prop where
  here : s.here = true
  length : s.length = t.length
  fits : t.length < s.capacity
  room : s.capacity ≤ s.cells.length
  text : 0#8 ∉ t
  cells : s.cells.take s.capacity = t ++ List.replicate (s.capacity - t.length) 0#8

theorem idxOf_text {t rest : List Byte} (h : 0#8 ∉ t) : (t ++ 0#8 :: rest).idxOf 0#8 = t.length := by
  rw [List.idxOf_append_of_notMem h, List.idxOf_cons_self]
  rfl

theorem strlen_text {m t : List Byte} (h : IsText m t) : strlen m = .ok t.length := by
  obtain ⟨h0, rest, rfl⟩ := h
  unfold strlen
  rw [if_pos (by simp), idxOf_text h0]

theorem take_text {m t : List Byte} (h : IsText m t) : m.take t.length = t := by
  obtain ⟨-, rest, rfl⟩ := h
  exact List.take_left

theorem StrHas.isText {s : Str} {t : List Byte} (h : StrHas s t) : IsText s.cells t := by
  have h2 : 0 < s.capacity - t.length := by have := h.fits; omega
  obtain ⟨k, hk⟩ : ∃ k, s.capacity - t.length = k + 1 := ⟨s.capacity - t.length - 1, by omega⟩
  refine ⟨h.text, List.replicate k 0#8 ++ s.cells.drop s.capacity, ?_⟩
  conv_lhs => rw [← List.take_append_drop s.capacity s.cells, h.cells, hk, List.replicate_succ]
  simp

theorem StrHas.getLength {s : Str} {t : List Byte} (h : StrHas s t) : s.getLength = t.length := by
  unfold Str.getLength
  rw [if_pos ⟨h.here, by rw [h.length]; exact h.fits⟩, h.length]

theorem write_spec {s : Str} {p t m : List Byte} (hp : s.cells.take p.length = p) (ht : m.take t.length = t)
    (h1 : p.length + t.length ≤ s.capacity) (h2 : s.capacity ≤ s.cells.length) :
    s.write p.length m t.length = .ok { s with
      length := p.length + t.length,
      cells := p ++ t ++ List.replicate (s.capacity - (p.length + t.length)) 0#8 ++ s.cells.drop s.capacity } := by
  unfold Str.write Str.put
  rw [ht, if_pos (by omega), Res.ok_bind]
  simp only
  have hlen : (s.cells.take p.length ++ t ++ s.cells.drop (p.length + t.length)).length = s.cells.length := by
    simp only [List.length_append, List.length_take, List.length_drop]
    omega
  rw [if_pos (by rw [hlen, List.length_replicate]; omega), Res.ok_bind, List.length_replicate, hp]
  have e1 : (p ++ t ++ s.cells.drop (p.length + t.length)).take (p.length + t.length) = p ++ t := by
    rw [← List.length_append, List.take_left]
  have e2 : (p ++ t ++ s.cells.drop (p.length + t.length)).drop
      (p.length + t.length + (s.capacity - (p.length + t.length))) = s.cells.drop s.capacity := by
    rw [← List.length_append, ← List.drop_drop, List.drop_left, List.drop_drop, List.length_append]
    congr 1
    omega
  rw [e1, e2]
  rfl

theorem StrHas.take_self {s : Str} {t : List Byte} (h : StrHas s t) : s.cells.take t.length = t :=
  take_text h.isText

theorem written_has {s : Str} (hh : s.here = true) {t : List Byte} (ht : 0#8 ∉ t) (h1 : t.length < s.capacity)
    (h2 : s.capacity ≤ s.cells.length) :
    StrHas { s with length := t.length,
                    cells := t ++ List.replicate (s.capacity - t.length) 0#8 ++ s.cells.drop s.capacity } t where
  here := hh
  length := rfl
  fits := h1
  room := by
    simp only [List.length_append, List.length_replicate, List.length_drop]
    omega
  text := ht
  cells := by
    have : (t ++ List.replicate (s.capacity - t.length) 0#8).length = s.capacity := by
      simp only [List.length_append, List.length_replicate]
      omega
    conv_lhs => rw [← this]
    simp only
    rw [this]
    exact List.take_left' this

/-- The length, the largest length and what is left are those of the string. -/
theorem C100_length {s : Str} {t : List Byte} (h : StrHas s t) :
    s.getLength = t.length ∧ s.maxLength = s.capacity - 1 ∧ s.available = s.capacity - 1 - t.length ∧
      strlen s.cells = .ok t.length := by
  have hf := h.fits
  refine ⟨h.getLength, ?_, ?_, strlen_text h.isText⟩
  · unfold Str.maxLength
    by_cases hc : 1 < s.capacity
    · rw [if_pos ⟨hc, h.here⟩]
    · rw [if_neg (fun x => hc x.1)]
      omega
  · unfold Str.available
    rw [h.getLength]
    by_cases hc : t.length + 1 < s.capacity
    · rw [if_pos ⟨hc, h.here⟩]
      omega
    · rw [if_neg (fun x => hc x.1)]
      omega

/-- Assigning a C string that fits makes the object hold it; one that does not fit changes nothing, and that is told.  The
capacity is more than 1, see `C100_assign_violated`. -/
theorem C100_assign_partial {s : Str} {t u m : List Byte} (h : StrHas s t) (hc : 1 < s.capacity) (hm : IsText m u) :
    (u.length < s.capacity → ∃ s', s.assign (some m) = .ok (true, s') ∧ StrHas s' u ∧ s'.capacity = s.capacity ∧
      s'.cells.drop s.capacity = s.cells.drop s.capacity) ∧
    (s.capacity ≤ u.length → s.assign (some m) = .ok (false, s)) := by
  unfold Str.assign
  simp only
  rw [if_pos ⟨h.here, hc⟩, strlen_text hm, Res.ok_bind]
  refine ⟨fun hu => ?_, fun hu => ?_⟩
  · rw [if_pos hu]
    have := write_spec (s := s) (p := []) rfl (take_text hm) (by simp; omega) h.room
    simp only [List.length_nil, Nat.zero_add, List.nil_append] at this
    rw [this]
    refine ⟨_, rfl, written_has h.here hm.1 hu h.room, rfl, ?_⟩
    rw [List.drop_left']
    simp only [List.length_append, List.length_replicate]
    omega
  · rw [if_neg (by omega)]
    rfl

/-- Appending a C string makes the object hold both if they fit; otherwise nothing changes, and that is told. -/
theorem C100_append {s : Str} {t u m : List Byte} (h : StrHas s t) (hm : IsText m u) :
    (t.length + u.length < s.capacity → ∃ s', s.append (some m) = .ok (true, s') ∧ StrHas s' (t ++ u) ∧
      s'.capacity = s.capacity ∧ s'.cells.drop s.capacity = s.cells.drop s.capacity) ∧
    (s.capacity ≤ t.length + u.length → s.append (some m) = .ok (false, s)) := by
  unfold Str.append
  simp only
  rw [h.getLength, if_pos ⟨h.here, h.fits⟩, strlen_text hm, Res.ok_bind]
  refine ⟨fun hu => ?_, fun hu => ?_⟩
  · rw [if_pos hu, write_spec h.take_self (take_text hm) (by omega) h.room, Res.ok_bind]
    have hn : 0#8 ∉ t ++ u := by
      rw [List.mem_append]
      exact not_or.2 ⟨h.text, hm.1⟩
    have := written_has h.here hn (by rw [List.length_append]; exact hu) h.room
    rw [List.length_append] at this
    refine ⟨_, rfl, this, rfl, ?_⟩
    rw [List.drop_left']
    simp only [List.length_append, List.length_replicate]
    omega
  · rw [if_neg (by omega)]
    rfl

/-- A null pointer is not assigned or appended, nor does an object without data take anything. -/
theorem C100_null (s : Str) : s.assign none = .ok (false, s) ∧ s.append none = .ok (false, s) ∧
    (s.here = false → ∀ m, s.assign m = .ok (false, s) ∧ s.append m = .ok (false, s) ∧ s.getLength = 0 ∧ s.maxLength = 0 ∧
      s.available = 0) := by
  refine ⟨rfl, rfl, fun h m => ?_⟩
  unfold Str.assign Str.append Str.maxLength Str.available Str.getLength
  rw [h]
  cases m <;> simp

/-- Clearing leaves an empty string of the same capacity. -/
theorem C100_clear {s : Str} {t : List Byte} (h : StrHas s t) :
    ∃ s', s.clear = .ok s' ∧ StrHas s' [] ∧ s'.capacity = s.capacity ∧
      s'.cells.drop s.capacity = s.cells.drop s.capacity := by
  have hf := h.fits
  have hr := h.room
  unfold Str.clear
  rw [h.getLength]
  by_cases ht : 0 < t.length
  · rw [if_pos ⟨h.here, ht, hf⟩]
    unfold Str.put
    rw [List.length_replicate, if_pos (by omega), Res.ok_bind]
    have hcells : s.cells = t ++ List.replicate (s.capacity - t.length) 0#8 ++ s.cells.drop s.capacity := by
      rw [← h.cells, List.take_append_drop]
    have hd : s.cells.drop t.length = List.replicate (s.capacity - t.length) 0#8 ++ s.cells.drop s.capacity := by
      conv_lhs => rw [hcells, List.append_assoc, List.drop_left]
    have e : List.take 0 s.cells ++ List.replicate t.length 0#8 ++ List.drop (0 + t.length) s.cells =
        [] ++ List.replicate (s.capacity - ([] : List Byte).length) 0#8 ++ s.cells.drop s.capacity := by
      rw [Nat.zero_add, hd, List.take_zero, List.nil_append, List.nil_append, ← List.append_assoc, List.replicate_append_replicate]
      congr 2
      simp
      omega
    simp only [e]
    refine ⟨_, rfl, written_has (t := []) h.here (by simp) (by simp; omega) hr, rfl, ?_⟩
    rw [List.drop_left']
    simp
  · rw [if_neg (fun x => ht x.2.1)]
    have : t = [] := List.eq_nil_of_length_eq_zero (by omega)
    subst this
    exact ⟨s, rfl, h, rfl, rfl⟩

/-- Updating the length changes nothing if the object holds a string. -/
theorem C100_sync_same {s : Str} {t : List Byte} (h : StrHas s t) : s.sync = .ok s := by
  unfold Str.sync
  have := h.fits
  rw [if_pos ⟨h.here, by omega⟩]
  unfold Str.string
  rw [if_pos h.here]
  show (strlen s.cells >>= _) = _
  rw [strlen_text h.isText, Res.ok_bind, if_pos h.fits, ← h.length]
  rfl

/-- If a program has written a C string that fits into the data, updating gives the length of this string. -/
theorem C100_sync {s : Str} {u : List Byte} (hh : s.here = true) (hm : IsText s.cells u) (hu : u.length < s.capacity) :
    s.sync = .ok { s with length := u.length } ∧ ({ s with length := u.length } : Str).getLength = u.length := by
  constructor
  · unfold Str.sync
    rw [if_pos ⟨hh, by omega⟩]
    unfold Str.string
    rw [if_pos hh]
    show (strlen s.cells >>= _) = _
    rw [strlen_text hm, Res.ok_bind, if_pos hu]
    rfl
  · unfold Str.getLength
    rw [if_pos ⟨hh, hu⟩]

end SixTrack
