import Verif.ElementObjects
import Mathlib.Data.Nat.Factorial.Basic
import Mathlib.Tactic.IntervalCases

/-!
# Helper lemmas about element objects
-/

namespace SixTrack
namespace Elem
open Particles

variable {K : Type}

theorem fillCells_spec (mem : Nat → K) (it : Nat) (v : Nat → K) (k n j : Nat) :
    fillCells mem it v k n j = if it ≤ j ∧ j < it + n then v (k + (j - it)) else mem j := by
  induction n generalizing mem it k with
  | zero => simp only [fillCells]; rw [if_neg (by omega)]
  | succ n ih =>
    simp only [fillCells]
    rw [ih]
    by_cases h : it + 1 ≤ j ∧ j < it + 1 + n
    · rw [if_pos h, if_pos (by omega)]
      congr 1; omega
    · rw [if_neg h]
      unfold setAt
      by_cases hj : j = it
      · rw [if_pos hj, if_pos (by omega)]
        congr 1; omega
      · rw [if_neg hj, if_neg (by omega)]

theorem strideLoop_spec (mem : Nat → K) (addr bound : Nat) (v : Nat → K) (index k j : Nat) :
    strideLoop mem addr bound v index k j =
      if addr + index ≤ j ∧ j < addr + bound ∧ (j - (addr + index)) % 2 = 0
      then v (k + (j - (addr + index)) / 2) else mem j := by
  induction h : bound - index using Nat.strongRecOn generalizing mem index k with
  | ind d ih =>
    rw [strideLoop]
    by_cases hi : index < bound
    · rw [if_pos hi, ih (bound - (index + 2)) (by omega) _ _ _ rfl]
      by_cases hc : addr + (index + 2) ≤ j ∧ j < addr + bound ∧ (j - (addr + (index + 2))) % 2 = 0
      · rw [if_pos hc, if_pos (by omega)]
        congr 1; omega
      · rw [if_neg hc]
        unfold setAt
        by_cases hj : j = addr + index
        · rw [if_pos hj, if_pos (by omega)]
          congr 1; omega
        · rw [if_neg hj, if_neg (by omega)]
    · rw [if_neg hi, if_neg (by omega)]

theorem countLoop_spec2 (mem : Nat → K) (addr order : Nat) (v : Nat → Nat → K) (index k i j : Nat) :
    countLoop mem addr order v index 2 k i j =
      if addr + index ≤ j ∧ j < addr + index + 2 * (order + 1 - k) ∧ (j - (addr + index)) % 2 = 0
      then v (k + (j - (addr + index)) / 2) (i + (j - (addr + index)) / 2) else mem j := by
  induction h : order + 1 - k using Nat.strongRecOn generalizing mem index k i with
  | ind d ih =>
    rw [countLoop]
    by_cases hi : k ≤ order
    · rw [if_pos hi, ih (order + 1 - (k + 1)) (by omega) _ _ _ _ rfl]
      by_cases hc : addr + (index + 2) ≤ j ∧ j < addr + (index + 2) + 2 * (order + 1 - (k + 1)) ∧
          (j - (addr + (index + 2))) % 2 = 0
      · rw [if_pos hc, if_pos (by omega)]
        congr 1 <;> omega
      · rw [if_neg hc]
        unfold setAt
        by_cases hj : j = addr + index
        · rw [if_pos hj, if_pos (by omega)]
          congr 1 <;> omega
        · rw [if_neg hj, if_neg (by omega)]
    · rw [if_neg hi, if_neg (by omega)]

/-- The table of factorials is right up to 20, except at 11; beyond 20 it is wrong. -/
theorem factorial_small (n : Nat) (h : n ≤ 20) (h11 : n ≠ 11) : factorial n = n.factorial := by
  interval_cases n <;> first | (exfalso; omega) | (rw [factorial]; rfl)

theorem factorial_lt20 (r : Nat) (h : r < 20) : 0 < factorial r ∧ factorial r < 2432902008176640000 := by
  interval_cases r <;> (rw [factorial]; decide)

theorem factorial_big (n : Nat) (h : 20 < n) : 0 < factorial n ∧ factorial n < n.factorial := by
  obtain ⟨m, rfl⟩ : ∃ m, n = m + 21 := ⟨n - 21, by omega⟩
  rw [factorial]
  have h20 : (20).factorial = 2432902008176640000 := by decide
  have hle : (20).factorial ≤ (m + 20).factorial := Nat.factorial_le (by omega)
  have hf : (m + 21).factorial = (m + 21) * (m + 20).factorial := Nat.factorial_succ (m + 20)
  have hmul : (m + 21) * 2432902008176640000 ≤ (m + 21) * (m + 20).factorial :=
    Nat.mul_le_mul_left _ (by omega)
  have hr := factorial_lt20 ((m + 21) % 20) (Nat.mod_lt _ (by omega))
  rw [hf]
  split <;> omega

theorem factorial_pos' (n : Nat) : 0 < factorial n := by
  by_cases h : 20 < n
  · exact (factorial_big n h).1
  · by_cases h11 : n = 11
    · subst h11; rw [factorial]; decide
    · rw [factorial_small n (by omega) h11]; exact Nat.factorial_pos n

theorem factorial_right_iff (n : Nat) : factorial n = n.factorial ↔ n ≤ 20 ∧ n ≠ 11 := by
  constructor
  · intro h
    constructor
    · by_contra hn
      have := (factorial_big n (by omega)).2
      omega
    · rintro rfl
      rw [factorial] at h
      revert h
      decide
  · intro ⟨h1, h2⟩
    exact factorial_small n h1 h2

end Elem
end SixTrack
