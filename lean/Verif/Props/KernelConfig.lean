import Verif.KernelConfig
import Mathlib.Tactic.IntervalCases

/-! # Property C45: kernel configurations -/

namespace SixTrack
open KConf

namespace KConf

/-- All sizes read back as the given list. -/
def Reads (s : Sizes) (xs : List Nat) : Prop :=
  s.dim = xs.length ∧ ∀ i (h : i < xs.length), s.read i = .ok xs[i]

/-- What C45 asks of a setter that is given the sizes `xs`: it succeeds exactly if the dimension
matches and all sizes are positive, then the sizes read back, otherwise the configuration stays. -/
def Validates (s : Sizes) (xs : List Nat) (r : Sizes × Bool) : Prop :=
  (r.2 = true ↔ s.dim = xs.length ∧ ∀ x ∈ xs, 0 < x) ∧
    (r.2 = true → Reads r.1 xs) ∧ (r.2 = false → r.1 = s)

theorem reset_dim (d : Nat) : (reset d).dim ≤ 3 := by
  unfold reset
  dsimp only
  split <;> omega

end KConf

/-- **C45**, partial: the setter for one size validates. -/
theorem C45_one_partial (s : Sizes) (a : Nat) : Validates s [a] (s.set1 a) := by
  unfold Validates Sizes.set1
  by_cases h : s.dim = 1 ∧ 0 < a
  · rw [if_pos h]
    refine ⟨by simp [h], fun _ => ⟨h.1, ?_⟩, by simp⟩
    intro i hi
    obtain rfl : i = 0 := by simpa using hi
    simp [Sizes.read, h.1, Vec3.get]
  · rw [if_neg h]
    refine ⟨by simpa using h, by simp, by simp⟩

example : ((reset 1).set1 7).2 = true ∧ ((reset 1).set1 0).2 = false ∧ ((reset 2).set1 7).2 = false := by
  decide

/-- **C45 is false of the code**: in a configuration of dimension 2 the setter for two sizes fails
for all sizes; the dimension it tests for is 1. -/
theorem C45_two_violated (a b : Nat) (ha : 0 < a) (hb : 0 < b) :
    (reset 2).dim = 2 ∧ (reset 2).set2 a b = (reset 2, false) ∧
      ((reset 1).set2 a b).2 = true ∧ ((reset 1).set2 a b).1.read 1 = .ok 0 := by
  refine ⟨by decide, by unfold Sizes.set2; rw [if_neg (by simp [reset])], ?_, ?_⟩
  · unfold Sizes.set2
    rw [if_pos ⟨by decide, ha, hb⟩]
  · unfold Sizes.set2
    rw [if_pos ⟨by decide, ha, hb⟩]
    rfl

/-- **C45 is false of the code**: in a configuration of dimension 3 the setter for three sizes fails
for all sizes. -/
theorem C45_three_violated (a b c : Nat) (ha : 0 < a) (hb : 0 < b) (hc : 0 < c) :
    (reset 3).dim = 3 ∧ (reset 3).set3 a b c = (reset 3, false) ∧
      ((reset 1).set3 a b c).2 = true := by
  refine ⟨by decide, by unfold Sizes.set3; rw [if_neg (by simp [reset])], ?_⟩
  unfold Sizes.set3
  rw [if_pos ⟨by decide, ha, hb, hc⟩]

namespace KConf

theorem setLoop_zero (xs : List Nat) : ∀ i v, i + xs.length ≤ 3 →
    ∃ v', setLoop xs i v 0 = .ok (v', 0) ∧ (∀ j, j < i → v'.get j = v.get j) ∧
      ∀ j (h : j < xs.length), v'.get (i + j) = .ok xs[j] := by
  induction xs with
  | nil => intro i v _; exact ⟨v, rfl, fun _ _ => rfl, by simp⟩
  | cons x rest ih =>
    intro i v hi
    rw [List.length_cons] at hi
    have hset : ∃ w, v.set i x = .ok w ∧ w.get i = .ok x ∧ ∀ j, j < i → w.get j = v.get j := by
      have h3 : i < 3 := by omega
      interval_cases i
      · exact ⟨_, rfl, rfl, by omega⟩
      · refine ⟨_, rfl, rfl, ?_⟩
        intro j hj
        interval_cases j
        rfl
      · refine ⟨_, rfl, rfl, ?_⟩
        intro j hj
        interval_cases j <;> rfl
    obtain ⟨w, hw, hwi, hwj⟩ := hset
    obtain ⟨v', h1, h2, h3⟩ := ih (i + 1) w (by omega)
    refine ⟨v', ?_, ?_, ?_⟩
    · rw [setLoop, hw, Res.ok_bind]
      simp only [Nat.zero_mul, Nat.zero_mod]
      exact h1
    · intro j hj
      rw [h2 j (by omega), hwj j hj]
    · intro j hj
      cases j with
      | zero => rw [Nat.add_zero, h2 i (by omega), hwi]; rfl
      | succ k =>
        rw [List.length_cons] at hj
        have := h3 k (by omega)
        rw [show i + (k + 1) = i + 1 + k by omega, this]
        rfl

end KConf

/-- **C45**, partial: what the array overload does.  It succeeds exactly if the dimension matches —
also for sizes that are 0 — and then the sizes read back. -/
theorem C45_array_partial (s : Sizes) (hs : s.dim ≤ 3) (xs : List Nat) :
    ∃ r, s.setArray xs = .ok r ∧ (r.2 = true ↔ s.dim = xs.length) ∧
      (r.2 = true → Reads r.1 xs) ∧ (r.2 = false → r.1 = s) := by
  unfold Sizes.setArray
  by_cases h : s.dim = xs.length
  · rw [if_pos h]
    obtain ⟨v', h1, _, h3⟩ := setLoop_zero xs 0 s.v (by omega)
    rw [h1]
    refine ⟨({ s with v := v' }, true), rfl, by simp [h], fun _ => ⟨h, ?_⟩, by simp⟩
    intro i hi
    have := h3 i hi
    rw [Nat.zero_add] at this
    unfold Sizes.read
    dsimp only
    rw [if_pos (by omega), this]
  · rw [if_neg h]
    exact ⟨_, rfl, by simp [h], by simp, by simp⟩

example : (reset 2).setArray [4, 5] = .ok (⟨⟨4, 5, 0⟩, 2⟩, true) := by decide

/-- **C45 is false of the code**: the array overload accepts a size of 0. -/
theorem C45_array_violated :
    ∃ s xs r, s.dim = xs.length ∧ 0 ∈ xs ∧ Sizes.setArray s xs = .ok r ∧ r.2 = true ∧
      r.1.read 1 = .ok 0 :=
  ⟨reset 2, [4, 0], (⟨⟨4, 0, 0⟩, 2⟩, true), by decide, by decide, by decide, rfl, by decide⟩

/-- **C45 is false of the code**: the total number of work items that reads back is always 0. -/
theorem C45_total_violated (s : Sizes) (hs : s.dim ≤ 3) : s.total = .ok 0 := by
  have key : ∀ k i, k = s.dim - i → totalLoop s.v s.dim i 0 = .ok 0 := by
    intro k
    induction k with
    | zero =>
      intro i hk
      rw [totalLoop, if_neg (by omega)]
    | succ n ih =>
      intro i hk
      rw [totalLoop, if_pos (by omega)]
      have : ∃ x, s.v.get i = .ok x := by
        have : i < 3 := by omega
        interval_cases i <;> exact ⟨_, rfl⟩
      obtain ⟨x, hx⟩ := this
      rw [hx, Res.ok_bind, Nat.zero_mul, Nat.zero_mod]
      exact ih (i + 1) (by omega)
  exact key _ 0 rfl

example : (⟨⟨4, 5, 0⟩, 2⟩ : Sizes).total = .ok 0 := C45_total_violated _ (by decide)

/-- **C45** for the preferred work group multiples: the setters for one, two and three values
validate. -/
theorem C45_multiples_partial (s : Sizes) (a b c : Nat) :
    Validates s [a] (s.mult1 a) ∧ Validates s [a, b] (s.mult2 a b) ∧
      Validates s [a, b, c] (s.mult3 a b c) := by
  unfold Validates Sizes.mult1 Sizes.mult2 Sizes.mult3
  refine ⟨?_, ?_, ?_⟩
  · by_cases h : 0 < a ∧ s.dim = 1
    · rw [if_pos h]
      refine ⟨by simp [h], fun _ => ⟨h.2, ?_⟩, by simp⟩
      intro i hi
      obtain rfl : i = 0 := by simpa using hi
      simp [Sizes.read, h.2, Vec3.get]
    · rw [if_neg h]
      refine ⟨by simp at h ⊢; omega, by simp, by simp⟩
  · by_cases h : 0 < a ∧ 0 < b ∧ s.dim = 2
    · rw [if_pos h]
      refine ⟨by simp [h], fun _ => ⟨h.2.2, ?_⟩, by simp⟩
      intro i hi
      have : i < 2 := by simpa using hi
      interval_cases i <;> simp [Sizes.read, h.2.2, Vec3.get]
    · rw [if_neg h]
      refine ⟨by simp at h ⊢; omega, by simp, by simp⟩
  · by_cases h : 0 < a ∧ 0 < b ∧ 0 < c ∧ s.dim = 3
    · rw [if_pos h]
      refine ⟨by simp [h], fun _ => ⟨h.2.2.2, ?_⟩, by simp⟩
      intro i hi
      have : i < 3 := by simpa using hi
      interval_cases i <;> simp [Sizes.read, h.2.2.2, Vec3.get]
    · rw [if_neg h]
      refine ⟨by simp at h ⊢; omega, by simp, by simp⟩

example : ((reset 3).mult3 8 4 2).2 = true ∧ ((reset 3).mult3 8 0 2).2 = false := by decide

/-- **C45 is false of the code**: the array overload for the multiples looks at the last entry
only, so that it accepts 0 elsewhere; and if it fails, the values have been stored all the same. -/
theorem C45_multiples_array_violated :
    (∃ r, (reset 2).multArray [0, 5] = .ok r ∧ r.2 = true ∧ r.1.read 0 = .ok 0) ∧
      (∃ r, (reset 2).multArray [5, 0] = .ok r ∧ r.2 = false ∧ r.1 ≠ reset 2) :=
  ⟨⟨(⟨⟨0, 5, 0⟩, 2⟩, true), by decide, rfl, by decide⟩,
    ⟨(⟨⟨5, 0, 0⟩, 2⟩, false), by decide, rfl, by decide⟩⟩

end SixTrack
