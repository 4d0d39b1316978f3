import Verif.ArrayObj
import Mathlib.Tactic.ByContra
import Mathlib.Tactic.SplitIfs

/-! # Property C15: binary array objects -/

namespace SixTrack
open ArrayObj

namespace ArrayObj

/-- The offset list is sorted, starts at 0 and ends inside the data. -/
structure Arr.WF (a : Arr) : Prop where
  slot : 0 < a.slot
  num : a.num ≤ a.maxNum
  first : a.offs 0 = 0
  mono : ∀ i j, i ≤ j → j ≤ a.num → a.offs i ≤ a.offs j
  last : a.offs a.num ≤ a.capacity

/-- Reading all elements gives the list `xs`. -/
def ReadsAs (a : Arr) (xs : List (List UInt8)) : Prop :=
  a.num = xs.length ∧ ∀ i (h : i < xs.length), element a i = .ok xs[i]

theorem Arr.off_ok {a : Arr} {i : Nat} (h : i ≤ a.maxNum) : a.off i = .ok (a.offs i) := by
  unfold Arr.off; rw [if_pos h]

theorem elementLength_ok {a : Arr} {i : Nat} (h : i + 1 ≤ a.maxNum) :
    elementLength a i = .ok (a.offs (i + 1) - a.offs i) := by
  unfold elementLength
  rw [Arr.off_ok h, Arr.off_ok (show i ≤ a.maxNum by omega)]
  simp only [Res.ok_bind, Res.pure_eq, Res.ok_inj]
  by_cases h : a.offs (i + 1) ≥ a.offs i
  · rw [if_pos h]
  · rw [if_neg h]; omega

theorem element_ok {a : Arr} {i : Nat} (h : i + 1 ≤ a.maxNum)
    (hc : a.offs i + (a.offs (i + 1) - a.offs i) ≤ a.capacity) :
    element a i = .ok ((List.range (a.offs (i + 1) - a.offs i)).map
      (fun j => a.data (a.offs i + j))) := by
  unfold element elementBegin
  rw [elementLength_ok h, Arr.off_ok (show i ≤ a.maxNum by omega)]
  simp only [Res.ok_bind, Res.pure_eq]
  rw [if_pos hc]

theorem element_eq {a : Arr} (hw : a.WF) {i : Nat} (h : i < a.num) :
    element a i = .ok ((List.range (a.offs (i + 1) - a.offs i)).map
      (fun j => a.data (a.offs i + j))) := by
  have h1 := hw.mono i (i + 1) (by omega) (by omega)
  have h2 := hw.mono (i + 1) a.num (by omega) (by omega)
  have h3 := hw.num
  have h4 := hw.last
  exact element_ok (by omega) (by omega)

theorem zeroOffs_eq (a : Arr) (i n : Nat) (h : i + n ≤ a.maxNum + 1) :
    zeroOffs a i n = .ok { a with offs := fun j => if i ≤ j ∧ j < i + n then 0 else a.offs j } := by
  induction n generalizing a i with
  | zero =>
    unfold zeroOffs
    congr 1
    cases a
    simp only [Arr.mk.injEq, true_and, and_true]
    funext j
    rw [if_neg (by omega)]
  | succ n ih =>
    unfold zeroOffs Arr.setOff
    rw [if_pos (by omega), Res.ok_bind, ih _ _ (by simp only; omega)]
    congr 1
    simp only [Arr.mk.injEq, true_and, and_true]
    funext j
    by_cases h1 : j = i
    · subst h1; simp
    · by_cases h2 : i ≤ j ∧ j < i + (n + 1)
      · rw [if_pos h2, if_pos (by omega)]
      · rw [if_neg h2, if_neg (by omega), if_neg h1]

end ArrayObj

/-- **C15**, removal: removing the last element of a well-formed array leaves the other elements as
they were, and overwrites the bytes of the removed one with zeros. -/
theorem C15_remove_last_partial (a : Arr) (hw : a.WF) (xs : List (List UInt8)) (x : List UInt8)
    (hr : ReadsAs a (xs ++ [x])) :
    ∃ a', removeLast a = .ok (a', true) ∧ a'.WF ∧ ReadsAs a' xs ∧
      (∀ j, a'.offs xs.length ≤ j → j < a.offs a.num → a'.data j = 0) ∧
      a'.capacity = a.capacity ∧ a'.maxNum = a.maxNum ∧ a'.slot = a.slot := by
  obtain ⟨hn, he⟩ := hr
  have hlen : a.num = xs.length + 1 := by simpa using hn
  have hnum := hw.num
  have hlast := hw.last
  have hm1 := hw.mono xs.length a.num (by omega) (by omega)
  have hz : ∃ d, (if 0 < a.offs a.num - a.offs xs.length then
      a.zero (a.offs xs.length) (a.offs a.num - a.offs xs.length) else .ok a) =
      .ok { a with data := d } ∧ (∀ j, j < a.offs xs.length → d j = a.data j) ∧
      (∀ j, a.offs xs.length ≤ j → j < a.offs a.num → d j = 0) := by
    by_cases h0 : 0 < a.offs a.num - a.offs xs.length
    · rw [if_pos h0]
      unfold Arr.zero
      rw [if_neg (by omega), if_pos (by omega)]
      refine ⟨_, rfl, ?_, ?_⟩
      · intro j hj; rw [if_neg (by omega)]
      · intro j h1 h2; rw [if_pos (by omega)]
    · rw [if_neg h0]
      exact ⟨a.data, rfl, fun _ _ => rfl, fun j h1 h2 => by omega⟩
  obtain ⟨d, hd, hd1, hd2⟩ := hz
  have hlast' : a.num - 1 = xs.length := by omega
  refine ⟨{ a with data := d, offs := fun j => if j = a.num then 0 else a.offs j,
                   num := a.num - 1 }, ?_, ?_, ?_, ?_, rfl, rfl, rfl⟩
  · unfold removeLast
    rw [if_pos (by omega)]
    unfold elementBegin
    simp only [hlast']
    rw [Arr.off_ok (show xs.length ≤ a.maxNum by omega),
      elementLength_ok (show xs.length + 1 ≤ a.maxNum by omega)]
    simp only [Res.ok_bind]
    rw [← hlen, hd]
    simp only [Res.ok_bind]
    unfold Arr.setOff
    rw [if_pos (by simp only; omega)]
    rfl
  · refine ⟨hw.slot, by simp only; omega, ?_, ?_, ?_⟩
    · simp only; rw [if_neg (by omega)]; exact hw.first
    · intro i j hij hj
      simp only at hj ⊢
      rw [if_neg (by omega), if_neg (by omega)]
      exact hw.mono i j hij (by omega)
    · simp only
      rw [if_neg (by omega), hlast']
      omega
  · refine ⟨by simp only; omega, ?_⟩
    intro i hi
    have hei := he i (by simp; omega)
    rw [element_eq hw (by omega), List.getElem_append_left hi] at hei
    have hm2 := hw.mono i (i + 1) (by omega) (by omega)
    have hm3 := hw.mono (i + 1) xs.length (by omega) (by omega)
    rw [← hei]
    have e1 : (if i = a.num then 0 else a.offs i) = a.offs i := if_neg (by omega)
    have e2 : (if i + 1 = a.num then 0 else a.offs (i + 1)) = a.offs (i + 1) := if_neg (by omega)
    rw [element_ok (by simp only; omega) (by simp only; rw [e1, e2]; omega)]
    simp only
    rw [e1, e2]
    congr 1
    apply List.map_congr_left
    intro j hj
    rw [List.mem_range] at hj
    exact hd1 _ (by omega)
  · intro j h1 h2
    simp only at h1 ⊢
    rw [if_neg (by omega)] at h1
    exact hd2 j h1 h2

/-- **C15**, clearing: a cleared array has no elements, and the used bytes are zero. -/
theorem C15_clear_partial (a : Arr) (hw : a.WF) :
    ∃ a', clear a = .ok a' ∧ a'.WF ∧ ReadsAs a' [] ∧
      (∀ j, j < a.offs a.num → a'.data j = 0) ∧ (∀ j, a.offs a.num ≤ j → a'.data j = a.data j) := by
  have hnum := hw.num
  have hlast := hw.last
  by_cases h0 : 0 < a.num
  · have hz : ∀ b : Arr, b.capacity = a.capacity → ∃ d, b.zero 0 (a.offs a.num) =
        .ok { b with data := d } ∧ (∀ j, j < a.offs a.num → d j = 0) ∧
        (∀ j, a.offs a.num ≤ j → d j = b.data j) := by
      intro b hb
      unfold Arr.zero
      by_cases hl : a.offs a.num = 0
      · rw [if_pos hl]
        exact ⟨b.data, rfl, fun j hj => by omega, fun _ _ => rfl⟩
      · rw [if_neg hl, if_pos (by omega)]
        refine ⟨_, rfl, fun j hj => ?_, fun j hj => ?_⟩
        · rw [if_pos (by omega)]
        · rw [if_neg (by omega)]
    unfold clear length elementOffset Arr.off
    rw [if_pos h0, if_pos (Nat.le_refl _), if_pos hnum, Res.ok_bind,
      zeroOffs_eq a 0 (a.num + 1) (by omega), Res.ok_bind]
    obtain ⟨d, hd, h1, h2⟩ := hz ⟨a.num, a.maxNum, a.capacity, a.slot,
      fun j => if 0 ≤ j ∧ j < 0 + (a.num + 1) then 0 else a.offs j, a.data⟩ rfl
    rw [hd, Res.ok_bind]
    refine ⟨_, rfl, ⟨hw.slot, by simp only; omega, by simp, ?_, by simp⟩, ⟨rfl, by simp⟩, h1, h2⟩
    intro i j hij hj
    simp only at hj ⊢
    rw [if_pos (by omega), if_pos (by omega)]
    exact Nat.le_refl 0
  · unfold clear
    rw [if_neg h0]
    have : a.num = 0 := by omega
    refine ⟨a, rfl, hw, ⟨by simpa using this, by simp⟩, ?_, fun _ _ => rfl⟩
    intro j hj
    rw [this, hw.first] at hj
    omega

/-- An array of three 8-byte elements with room for two more. -/
def arr3 : Arr := ⟨3, 5, 64, 8, fun i => if i ≤ 3 then 8 * i else 0, fun j => UInt8.ofNat j⟩

theorem arr3_wf : arr3.WF := by
  refine ⟨by decide, by decide, by decide, ?_, by decide⟩
  intro i j hij hj
  have : arr3.num = 3 := rfl
  unfold arr3
  simp only
  rw [if_pos (by omega), if_pos (by omega)]
  omega

example : ReadsAs arr3 [[0, 1, 2, 3, 4, 5, 6, 7], [8, 9, 10, 11, 12, 13, 14, 15],
    [16, 17, 18, 19, 20, 21, 22, 23]] := by
  refine ⟨rfl, ?_⟩
  intro i h
  have h' : i < 3 := h
  have hi : i = 0 ∨ i = 1 ∨ i = 2 := by omega
  rcases hi with rfl | rfl | rfl <;> decide +revert

/-- **C15 is false of the code**: appending to a well-formed array with room left (whose unused
offsets are zero) succeeds, but the new element cannot be read: it has length 0.  Its bytes were
written over the beginning of the data, and the element that was the last before has become longer
by the length of the new one. -/
theorem C15_append_violated (a : Arr) (hw : a.WF) (bytes : List UInt8) (hb : 0 < bytes.length)
    (hroom : slotLen bytes.length a.slot + a.offs a.num ≤ a.capacity) (hmax : a.num < a.maxNum)
    (hstale : a.offs (a.num + 1) = 0) :
    ∃ a', append a (some bytes) bytes.length = .ok (a', true) ∧ a'.num = a.num + 1 ∧
      elementLength a' a.num = .ok 0 ∧ element a' a.num = .ok [] ∧
      (∀ j (h : j < bytes.length), a'.data j = bytes[j]) ∧
      (∀ i, i + 1 = a.num → elementLength a' i =
        .ok (a.offs a.num - a.offs i + slotLen bytes.length a.slot)) := by
  have hs := hw.slot
  have hle : bytes.length ≤ slotLen bytes.length a.slot ∧
      slotLen bytes.length a.slot % a.slot = 0 := by
    unfold slotLen
    simp only
    rw [if_pos hs]
    have := Nat.mod_lt bytes.length hs
    by_cases h0 : bytes.length % a.slot = 0
    · rw [if_pos h0]; exact ⟨Nat.le_refl _, h0⟩
    · rw [if_neg h0]
      refine ⟨by omega, ?_⟩
      have h1 := Nat.div_add_mod bytes.length a.slot
      have : bytes.length + (a.slot - bytes.length % a.slot) =
          a.slot * (bytes.length / a.slot + 1) := by
        rw [Nat.mul_add, Nat.mul_one]; omega
      rw [this, Nat.mul_mod_right]
  obtain ⟨hle, hmod⟩ := hle
  generalize hE : slotLen bytes.length a.slot = E at *
  have hnum := hw.num
  refine ⟨{ a with data := fun j => if h : j < bytes.length then bytes[j] else a.data j,
                   offs := fun j => if j = a.num then E + a.offs a.num else a.offs j,
                   num := a.num + 1 }, ?_, rfl, ?_, ?_, ?_, ?_⟩
  · unfold append length elementOffset Arr.off
    rw [if_pos ⟨hb, hs⟩, if_pos (Nat.le_refl _), if_pos hnum, Res.ok_bind]
    simp only
    rw [hE, if_pos ⟨hmod, hroom, hmax⟩]
    unfold Arr.copyIn Arr.setOff
    rw [if_pos (by omega), Res.ok_bind]
    simp only
    rw [if_pos hnum]
    rfl
  · rw [elementLength_ok (by simp only; omega)]
    simp [hstale]
  · rw [element_ok (by simp only; omega) (by simp [hstale]; omega)]
    simp [hstale]
  · intro j hj
    simp only
    rw [dif_pos hj]
  · intro i hi
    have hm := hw.mono i a.num (by omega) (Nat.le_refl _)
    rw [elementLength_ok (by simp only; omega)]
    simp only
    rw [if_pos hi, if_neg (by omega)]
    congr 1
    omega

example : ∃ a', append arr3 (some [1, 2, 3]) 3 = .ok (a', true) ∧ a'.num = 4 ∧
    element a' 3 = .ok [] ∧ element a' 0 = .ok [1, 2, 3, 3, 4, 5, 6, 7] := by
  obtain ⟨a', h1, h2, _, h4, _⟩ := C15_append_violated arr3 arr3_wf [1, 2, 3] (by decide)
    (by decide) (by decide) (by decide)
  refine ⟨a', h1, h2, h4, ?_⟩
  have : append arr3 (some [1, 2, 3]) 3 = .ok (a', true) := h1
  unfold append at this
  cases this
  decide

/-- **C15 is false of the code**: removing several elements, but not all, reports success without
changing the number of elements; and it clears one element too many behind the removed ones, which
for a full array is a write past the end of the data. -/
theorem C15_remove_several_violated :
    (∀ (a a' : Arr) (k : Nat) (r : Bool), 0 < k → k < a.num → removeLastNum a k = .ok (a', r) →
      r = true ∧ a'.num = a.num) ∧
    removeLastNum { arr3 with capacity := 24 } 1 = .ub ∧
    ({ arr3 with capacity := 24 } : Arr).WF := by
  refine ⟨?_, ?_, ?_⟩
  · intro a a' k r h0 hk h
    have hzn : ∀ (n i : Nat) (b c : Arr), zeroOffs b i n = .ok c → c.num = b.num := by
      intro n
      induction n with
      | zero =>
        intro i b c hc
        unfold zeroOffs at hc
        rw [Res.ok_inj] at hc
        rw [hc]
      | succ n ih =>
        intro i b c hc
        unfold zeroOffs Arr.setOff at hc
        by_cases hi : i ≤ b.maxNum
        · rw [if_pos hi, Res.ok_bind] at hc
          rw [ih _ _ _ hc]
        · rw [if_neg hi] at hc
          simp at hc
    unfold removeLastNum at h
    rw [if_pos ⟨h0, by omega⟩] at h
    simp only at h
    rw [if_pos (by omega)] at h
    rw [Res.bind_eq_ok] at h
    obtain ⟨len, _, h⟩ := h
    rw [Res.bind_eq_ok] at h
    obtain ⟨nl, _, h⟩ := h
    rw [Res.bind_eq_ok] at h
    obtain ⟨a1, h1, h⟩ := h
    rw [Res.bind_eq_ok] at h
    obtain ⟨a2, h2, h⟩ := h
    rw [Res.pure_eq, Res.ok_inj, Prod.mk.injEq] at h
    obtain ⟨rfl, rfl⟩ := h
    refine ⟨rfl, ?_⟩
    rw [hzn _ _ _ _ h2]
    by_cases hl : nl < len
    · rw [if_pos hl, Res.bind_eq_ok] at h1
      obtain ⟨b, _, h1⟩ := h1
      unfold Arr.zero at h1
      split_ifs at h1
      · rw [Res.ok_inj] at h1; rw [← h1]
      · rw [Res.ok_inj] at h1; rw [← h1]
    · rw [if_neg hl, Res.ok_inj] at h1
      rw [← h1]
  · rfl
  · obtain ⟨h1, h2, h3, h4, _⟩ := arr3_wf
    exact ⟨h1, h2, h3, h4, by decide⟩

end SixTrack
