import Verif.Props.StrObj

/-!
# C100: sequences of operations, adding strings to a buffer, and what goes wrong
-/

namespace SixTrack
open SixTrack.StrObj
open SixTrack.ArrayObj (slotLen)

/-- C strings end within their memory. -/
def StrOpFine : StrObj.Op → Prop
  | .assign (some m) | .append (some m) => 0#8 ∈ m
  | _ => True

/-- the characters of a C string -/
def textOf (m : List Byte) : List Byte := m.takeWhile (· != 0#8)

/-- What an operation does to a string which may have less than `cap` characters. -/
def textStep (cap : Nat) (t : List Byte) : StrObj.Op → List Byte
  | .assign (some m) => if (textOf m).length < cap then textOf m else t
  | .append (some m) => if (t ++ textOf m).length < cap then t ++ textOf m else t
  | .clear => []
  | _ => t

theorem isText_textOf {m : List Byte} (h : 0#8 ∈ m) : IsText m (textOf m) := by
  induction m with
  | nil => cases h
  | cons c m ih =>
    by_cases hc : c = 0#8
    · subst hc
      exact ⟨by simp [textOf], m, by simp [textOf]⟩
    · obtain ⟨h1, rest, h2⟩ := ih ((List.mem_cons.1 h).resolve_left (fun x => hc x.symm))
      have e : textOf (c :: m) = c :: textOf m := by simp [textOf, hc]
      rw [e]
      refine ⟨?_, rest, ?_⟩
      · rw [List.mem_cons]
        exact not_or.2 ⟨fun x => hc x.symm, h1⟩
      · rw [List.cons_append, ← h2]

theorem step_has {s : Str} {t : List Byte} (h : StrHas s t) (hc : 1 < s.capacity) {o : StrObj.Op} (ho : StrOpFine o) :
    ∃ s', s.step o = .ok s' ∧ StrHas s' (textStep s.capacity t o) ∧ s'.capacity = s.capacity ∧
      s'.cells.drop s.capacity = s.cells.drop s.capacity := by
  unfold Str.step textStep
  match o with
  | .assign none =>
    simp only
    rw [(C100_null s).1]
    exact ⟨s, rfl, h, rfl, rfl⟩
  | .append none =>
    simp only
    rw [(C100_null s).2.1]
    exact ⟨s, rfl, h, rfl, rfl⟩
  | .assign (some m) =>
    simp only
    obtain ⟨h1, h2⟩ := C100_assign_partial h hc (isText_textOf ho)
    by_cases hu : (textOf m).length < s.capacity
    · obtain ⟨s', e, r⟩ := h1 hu
      rw [e, if_pos hu]
      exact ⟨s', rfl, r⟩
    · rw [h2 (by omega), if_neg hu]
      exact ⟨s, rfl, h, rfl, rfl⟩
  | .append (some m) =>
    simp only
    obtain ⟨h1, h2⟩ := C100_append h (isText_textOf ho)
    rw [List.length_append]
    by_cases hu : t.length + (textOf m).length < s.capacity
    · obtain ⟨s', e, r⟩ := h1 hu
      rw [e, if_pos hu]
      exact ⟨s', rfl, r⟩
    · rw [h2 (by omega), if_neg hu]
      exact ⟨s, rfl, h, rfl, rfl⟩
  | .clear => exact C100_clear h
  | .sync => exact ⟨s, C100_sync_same h, h, rfl, rfl⟩

/-- Any sequence of operations is defined, does to the object what it does to a string that is limited in length, and leaves
the memory beyond the capacity alone. -/
theorem C100_history {s : Str} {t : List Byte} (h : StrHas s t) (hc : 1 < s.capacity) {os : List StrObj.Op}
    (ho : ∀ o ∈ os, StrOpFine o) :
    ∃ s', s.run os = .ok s' ∧ StrHas s' (os.foldl (textStep s.capacity) t) ∧ s'.capacity = s.capacity ∧
      s'.cells.drop s.capacity = s.cells.drop s.capacity := by
  induction os generalizing s t with
  | nil => exact ⟨s, rfl, h, rfl, rfl⟩
  | cons o os ih =>
    obtain ⟨s1, e1, a1, a2, a3⟩ := step_has h hc (ho o List.mem_cons_self)
    obtain ⟨s2, e2, b1, b2, b3⟩ := ih a1 (by rw [a2]; exact hc) (fun o ho' => ho o (List.mem_cons_of_mem _ ho'))
    rw [a2] at b1 b3
    refine ⟨s2, ?_, b1, b2.trans a2, b3.trans a3⟩
    unfold Str.run
    rw [e1, Res.ok_bind]
    exact e2

/-! ## Adding -/

theorem le_slotLen (n slot : Nat) : n ≤ slotLen n slot := by
  unfold slotLen
  simp only
  split_ifs <;> omega

theorem slotLen_dvd {n slot : Nat} (h : 0 < slot) : slot ∣ slotLen n slot := by
  unfold slotLen
  simp only
  rw [if_pos h]
  by_cases h0 : n % slot = 0
  · rw [if_pos h0]
    exact Nat.dvd_of_mod_eq_zero h0
  · rw [if_neg h0]
    have hlt := Nat.mod_lt n h
    have := Nat.div_add_mod n slot
    refine ⟨n / slot + 1, ?_⟩
    rw [Nat.mul_add, Nat.mul_one]
    omega

theorem capacityOf_eq {n : Nat} (h : n < 2 ^ 64 - 1) : capacityOf n = n + 1 := Nat.mod_eq_of_lt (by omega)

theorem make_has (slot : Nat) {n : Nat} (h : n < 2 ^ 64 - 1) : ∃ s, make true slot n = some s ∧ StrHas s [] ∧
    s.capacity = n + 1 ∧ s.cells = List.replicate (slotLen (n + 1) slot) 0#8 := by
  refine ⟨_, rfl, ⟨rfl, rfl, ?_, ?_, by simp, ?_⟩, capacityOf_eq h, by rw [capacityOf_eq h]⟩
  · simp only [capacityOf_eq h]
    exact Nat.succ_pos n
  · simp only [List.length_replicate]
    exact le_slotLen _ _
  · simp only [List.take_replicate, List.nil_append, List.length_nil, Nat.sub_zero]
    rw [Nat.min_eq_left (le_slotLen _ _)]

/-- Adding a C string of at most `n` characters gives an object which holds it and has room for `n`; without a C string it is
empty.  If there is no room on the buffer, or the C string is longer than `n + 1`, there is no object. -/
theorem C100_add_partial (slot : Nat) {n : Nat} (hn : n < 2 ^ 64 - 1) {m u : List Byte} (hm : IsText m u) :
    (u.length ≤ n → ∃ s, add true slot (some m) n = .ok (some s) ∧ StrHas s u ∧ s.capacity = n + 1) ∧
    (∃ s, add true slot none n = .ok (some s) ∧ StrHas s [] ∧ s.capacity = n + 1) ∧
    add false slot (some m) n = .ok none ∧ add false slot none n = .ok none ∧
    ∀ room, n + 1 < u.length → add room slot (some m) n = .ok none := by
  obtain ⟨s, e, hs, hcap, -⟩ := make_has slot hn
  have hc := capacityOf_eq hn
  have hl : cstringLength (some m) = .ok u.length := strlen_text hm
  refine ⟨fun hu => ?_, ?_, ?_, ?_, fun room hu => ?_⟩
  · unfold add
    rw [hl, Res.ok_bind]
    simp only
    by_cases h0 : 0 < u.length
    · rw [if_pos ⟨h0, by rw [hc]; omega⟩, e]
      have := write_spec (s := s) (p := []) rfl (take_text hm) (by simp; omega) hs.room
      simp only [List.length_nil, Nat.zero_add, List.nil_append] at this
      simp only
      rw [this, Res.ok_bind]
      refine ⟨_, rfl, ?_, hc⟩
      have := written_has hs.here hm.1 (by omega : u.length < s.capacity) hs.room
      rw [hc, ← hcap]
      exact this
    · have : u = [] := List.eq_nil_of_length_eq_zero (by omega)
      subst this
      rw [if_neg (fun x => h0 x.1), if_pos ⟨by rw [hc]; omega, rfl⟩, e]
      exact ⟨s, rfl, hs, hcap⟩
  · unfold add cstringLength
    rw [Res.ok_bind]
    simp only
    rw [if_pos (by rw [hc]; omega), e]
    exact ⟨s, rfl, hs, hcap⟩
  · unfold add
    rw [hl, Res.ok_bind]
    simp only
    split_ifs <;> rfl
  · unfold add cstringLength
    rw [Res.ok_bind]
    simp only
    split_ifs <;> rfl
  · unfold add
    rw [hl, Res.ok_bind]
    simp only
    rw [if_neg (fun x => by have := x.2; rw [hc] at this; omega), if_neg (fun x => by have := x.2; omega)]
    rfl

/-- An object for a given C string has just the room for it. -/
theorem C100_new_from (slot : Nat) {m u : List Byte} (hm : IsText m u) (hu : u.length < 2 ^ 64 - 1) :
    ∃ s, newFrom true slot (some m) = .ok (some s) ∧ StrHas s u ∧ s.capacity = u.length + 1 ∧ s.available = 0 := by
  obtain ⟨s, e, h, hc⟩ := (C100_add_partial slot hu hm).1 (Nat.le_refl _)
  refine ⟨s, ?_, h, hc, ?_⟩
  · unfold newFrom
    rw [show cstringLength (some m) = .ok u.length from strlen_text hm, Res.ok_bind, e]
  · rw [(C100_length h).2.2.1, hc]
    omega

/-- Adding an object with the address, the length and the capacity of another one copies the string and the capacity. -/
theorem C100_detailed (slot : Nat) {s : Str} {t : List Byte} (h : StrHas s t) :
    ∃ s', addDetailed true slot s.string s.length s.capacity = .ok (some s') ∧ StrHas s' t ∧ s'.capacity = s.capacity := by
  unfold addDetailed Str.string
  rw [if_pos rfl, if_pos h.here]
  simp only
  rw [if_pos h.room]
  have hl : (s.cells.take s.capacity).length = s.capacity := by
    rw [List.length_take]
    exact Nat.min_eq_left h.room
  refine ⟨_, rfl, ⟨rfl, h.length, h.fits, ?_, h.text, ?_⟩, rfl⟩
  · simp only [List.length_append, hl]
    omega
  · simp only
    rw [List.take_left' hl]
    exact h.cells

/-- The slots that are asked for are enough for the object and its characters, and less than two slots are left over. -/
theorem C100_slots {slot n : Nat} (hs : 0 < slot) (hn : n < 2 ^ 64 - 1) :
    requiredSlots n slot * slot = slotLen 24 slot + slotLen (n + 1) slot ∧ 24 + (n + 1) ≤ requiredSlots n slot * slot ∧
      requiredSlots n slot * slot < 24 + (n + 1) + 2 * slot := by
  have e : requiredSlots n slot * slot = slotLen 24 slot + slotLen (n + 1) slot := by
    unfold requiredSlots
    rw [if_pos hs, capacityOf_eq hn]
    exact Nat.div_mul_cancel (Nat.dvd_add (slotLen_dvd hs) (slotLen_dvd hs))
  have hlt : ∀ k, slotLen k slot < k + slot := fun k => by
    unfold slotLen
    simp only
    rw [if_pos hs]
    by_cases h0 : k % slot = 0
    · rw [if_pos h0]
      omega
    · rw [if_neg h0]
      omega
  have h1 := le_slotLen 24 slot
  have h2 := le_slotLen (n + 1) slot
  have h3 := hlt 24
  have h4 := hlt (n + 1)
  refine ⟨e, ?_, ?_⟩ <;> omega

/-! ## What goes wrong -/

/-- **C100 (an added string can be read), violated**: a C string of `n + 1` characters is accepted for an object that has room
for `n`.  Its end is not marked, its length is given as 0; reading it as a C string is undefined if it fills its slots. -/
theorem C100_add_violated (slot : Nat) {n : Nat} (hn : n < 2 ^ 64 - 1) {m u : List Byte} (hm : IsText m u)
    (hu : u.length = n + 1) :
    ∃ s, add true slot (some m) n = .ok (some s) ∧ s.capacity = n + 1 ∧ s.getLength = 0 ∧ s.cells.take s.capacity = u ∧
      (slotLen (n + 1) slot = n + 1 → strlen s.cells = .ub ∧ s.sync = .ub ∧ addCopy true slot s = .ub) := by
  obtain ⟨s, e, hs, hcap, hcells⟩ := make_has slot hn
  have hc := capacityOf_eq hn
  have hl : cstringLength (some m) = .ok u.length := strlen_text hm
  have hw := write_spec (s := s) (p := []) rfl (take_text hm) (by simp; omega) hs.room
  simp only [List.length_nil, Nat.zero_add, List.nil_append, hcap, hu, Nat.sub_self, List.replicate_zero, List.append_nil] at hw
  refine ⟨{ s with length := n + 1, cells := u ++ s.cells.drop (n + 1) }, ?_, hcap, ?_, ?_, fun hfull => ?_⟩
  · unfold add
    rw [hl, Res.ok_bind]
    simp only
    rw [if_pos ⟨by omega, by rw [hc]; omega⟩, e]
    simp only
    rw [hu, hw, Res.ok_bind, hc, ← hcap]
    rfl
  · unfold Str.getLength
    rw [if_neg (fun x => by have := x.2; simp only at this; omega)]
  · simp only
    rw [hcap, ← hu, List.take_left]
  · have hd : s.cells.drop (n + 1) = [] := by
      rw [hcells, hfull, List.drop_eq_nil_of_le]
      rw [List.length_replicate]
      exact Nat.le_refl _
    have hub : strlen u = .ub := by
      unfold strlen
      rw [if_neg hm.1]
    simp only [hd, List.append_nil]
    have hstr : ({ s with length := n + 1, cells := u } : Str).string = some u := by
      unfold Str.string
      rw [if_pos hs.here]
    refine ⟨hub, ?_, ?_⟩
    · unfold Str.sync
      rw [if_pos ⟨hs.here, by simp only; omega⟩, hstr]
      show (strlen u >>= _) = _
      rw [hub]
      rfl
    · unfold addCopy add
      rw [hstr]
      show (strlen u >>= _) = _
      rw [hub]
      rfl

/-- **C100 (appending keeps what is there), violated**: appending to such an object overwrites its characters. -/
theorem C100_append_violated : ∃ s s' : Str, add true 8 (some [65#8, 66#8, 67#8, 0#8]) 2 = .ok (some s) ∧
    s.append (some [68#8, 0#8]) = .ok (true, s') ∧ StrHas s' [68#8] := by
  refine ⟨⟨true, 3, 3, [65#8, 66#8, 67#8, 0#8, 0#8, 0#8, 0#8, 0#8]⟩, ⟨true, 1, 3, [68#8, 0#8, 0#8, 0#8, 0#8, 0#8, 0#8, 0#8]⟩,
    by decide, by decide, ⟨rfl, rfl, by decide, by decide, by decide, by decide⟩⟩

/-- **C100 (a copy is like the original), violated**: a copy has the same characters, but its capacity is larger by one. -/
theorem C100_copy_violated (slot : Nat) {s : Str} {t : List Byte} (h : StrHas s t) (hc : s.capacity < 2 ^ 64 - 1) :
    ∃ s', addCopy true slot s = .ok (some s') ∧ StrHas s' t ∧ s'.capacity = s.capacity + 1 := by
  have hst : s.string = some s.cells := by
    unfold Str.string
    rw [if_pos h.here]
  unfold addCopy
  rw [hst]
  exact (C100_add_partial slot hc h.isText).1 (Nat.le_of_lt h.fits)

/-- **C100 (a string that fits can be assigned), violated**: an object with room for 0 characters can not be assigned the empty
string, though it can be appended. -/
theorem C100_assign_violated {s : Str} (h : StrHas s []) (hc : s.capacity = 1) {m : List Byte} (hm : IsText m []) :
    s.assign (some m) = .ok (false, s) ∧ ∃ s', s.append (some m) = .ok (true, s') ∧ StrHas s' [] := by
  constructor
  · unfold Str.assign
    simp only
    rw [if_neg (fun x => by have := x.2; omega)]
  · obtain ⟨s', e, h', -⟩ := (C100_append h hm).1 (by simp [hc])
    exact ⟨s', e, h'⟩

theorem reverseLoop_zeros {m t : List Byte} {c : Byte} (hc : c ≠ 0#8) (k : Nat) {r : List Byte}
    (hm : m = t ++ [c] ++ List.replicate k 0#8 ++ r) : reverseLoop m (t.length + k) = .ok t.length := by
  induction k generalizing r with
  | zero =>
    cases ht : t.length with
    | zero => rfl
    | succ n =>
      unfold reverseLoop
      have : m[n + 1]? = some c := by
        rw [hm, ← ht]
        simp
      rw [this]
      simp only
      rw [if_neg hc]
  | succ k ih =>
    rw [← Nat.add_assoc]
    unfold reverseLoop
    have : m[t.length + k + 1]? = some 0#8 := by
      rw [hm, List.getElem?_append_left (by simp; omega), List.getElem?_append_right (by simp)]
      rw [List.getElem?_replicate, if_pos]
      simp
    rw [this]
    simp only
    rw [if_pos trivial]
    apply ih (r := 0#8 :: r)
    rw [hm, List.replicate_succ']
    simp

/-- The length found from the end is the index of the last character: it is one less than the length. -/
theorem C100_reverse_violated {s : Str} {t : List Byte} (h : StrHas s t) :
    lengthReverse s.string s.capacity = .ok (t.length - 1) := by
  have hf := h.fits
  unfold lengthReverse Str.string
  rw [if_pos h.here]
  simp only
  rw [if_pos (by omega)]
  have hcells : s.cells = t ++ List.replicate (s.capacity - t.length) 0#8 ++ s.cells.drop s.capacity := by
    rw [← h.cells, List.take_append_drop]
  rcases List.eq_nil_or_concat t with rfl | ⟨p, c, rfl⟩
  · have key : ∀ n, n < s.capacity → reverseLoop s.cells n = .ok 0 := by
      intro n
      induction n with
      | zero => exact fun _ => rfl
      | succ n ih =>
        intro hn
        unfold reverseLoop
        have : s.cells[n + 1]? = some 0#8 := by
          rw [hcells, List.getElem?_append_left (by simp; omega)]
          simp [List.getElem?_replicate]
          omega
        rw [this]
        simp only
        rw [if_pos trivial]
        exact ih (by omega)
    exact key _ (by omega)
  · rw [List.concat_eq_append] at *
    have hc : c ≠ 0#8 := fun e => h.text (by rw [e]; simp)
    have hlen : (p ++ [c]).length = p.length + 1 := by simp
    rw [hlen] at hf ⊢
    have := reverseLoop_zeros (m := s.cells) (t := p) hc (s.capacity - (p.length + 1)) (r := s.cells.drop s.capacity)
      (by conv_lhs => rw [hcells, hlen])
    rw [show s.capacity - 1 = p.length + (s.capacity - (p.length + 1)) by omega, this]
    rfl

/-- **C100 (assertions hold), violated**: in builds with assertions, asking a string of 1024 or more characters for its length
ends the program; for shorter ones the assertions hold. -/
theorem C100_assert_violated {s : Str} {t : List Byte} (h : StrHas s t) :
    s.lengthAsserts = .ok (decide (t.length < 1024)) := by
  unfold Str.lengthAsserts
  rw [if_pos h.here, h.length, if_pos h.fits]
  by_cases hl : t.length < 1024
  · rw [if_pos hl]
    have hst : s.string = some s.cells := by
      unfold Str.string
      rw [if_pos h.here]
    rw [hst]
    show (strlen s.cells >>= _) = _
    rw [strlen_text h.isText, Res.ok_bind]
    simp [hl]
  · rw [if_neg hl, C100_reverse_violated h, Res.ok_bind]
    simp [hl]
    omega

/-! ## Examples -/

/-- "AB" with room for 5 characters -/
def strAB : Str := ⟨true, 2, 6, [65#8, 66#8, 0#8, 0#8, 0#8, 0#8, 7#8, 7#8]⟩

theorem strAB_has : StrHas strAB [65#8, 66#8] := ⟨rfl, rfl, by decide, by decide, by decide, by decide⟩

example : 1 < strAB.capacity ∧ IsText [67#8, 68#8, 69#8, 0#8, 9#8] [67#8, 68#8, 69#8] ∧
    IsText strAB.cells [65#8, 66#8] :=
  ⟨by decide, ⟨by decide, [9#8], rfl⟩, strAB_has.isText⟩

/-- the fifth operation does not fit -/
example : (strAB.run [.append (some [67#8, 68#8, 69#8, 0#8, 9#8]), .clear, .assign (some [70#8, 0#8]), .sync,
    .append (some [71#8, 71#8, 71#8, 71#8, 71#8, 0#8])]) = .ok ⟨true, 1, 6, [70#8, 0#8, 0#8, 0#8, 0#8, 0#8, 7#8, 7#8]⟩ := by
  decide

example : add true 8 (some [65#8, 66#8, 0#8]) 5 = .ok (some ⟨true, 2, 6, [65#8, 66#8, 0#8, 0#8, 0#8, 0#8, 0#8, 0#8]⟩) ∧
    addCopy true 8 strAB = .ok (some ⟨true, 2, 7, [65#8, 66#8, 0#8, 0#8, 0#8, 0#8, 0#8, 0#8]⟩) ∧ requiredSlots 8 8 = 5 := by
  decide

/-- `C100_add_violated` with eight characters on slots of eight bytes, `C100_assign_violated` -/
example : IsText (List.replicate 8 65#8 ++ [0#8]) (List.replicate 8 65#8) ∧ slotLen (7 + 1) 8 = 7 + 1 ∧
    StrHas ⟨true, 0, 1, [0#8, 0#8]⟩ [] ∧ IsText [0#8] [] :=
  ⟨⟨by decide, [], rfl⟩, by decide, ⟨rfl, rfl, by decide, by decide, by decide, by decide⟩, by decide, [], rfl⟩

/-- a string of 1024 characters -/
example : ∃ s t, StrHas s t ∧ t.length = 1024 := by
  have hm : IsText (List.replicate 1024 65#8 ++ 0#8 :: []) (List.replicate 1024 65#8) := ⟨fun h => absurd (List.eq_of_mem_replicate h) (by decide), [], rfl⟩
  obtain ⟨s, -, h, -⟩ := C100_new_from 8 hm (by rw [List.length_replicate]; decide)
  exact ⟨s, _, h, List.length_replicate⟩

end SixTrack
