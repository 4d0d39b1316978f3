import Verif.PowInt
import Mathlib.Algebra.Order.Field.Basic
import Mathlib.Data.Rat.Defs
import Mathlib.Tactic.NormNum
import Mathlib.Tactic.Linarith
import Mathlib.Tactic.IntervalCases

/-!
# Property C63: powers with integer exponents
-/

namespace SixTrack
open Beam

variable {K : Type} [Field K]

/-- The exponent that `powPos` arrives at. -/
def Beam.reached (n : Nat) : Nat := if n ≤ 8 then n else 8 * reached (n / 8) + 8 * (n % 8)
termination_by n
decreasing_by omega

theorem Beam.powPos_small (b : K) {n : Nat} (h : n ≤ 8) : powPos b n = b ^ n := by
  interval_cases n <;> unfold powPos <;> ring

theorem Beam.powPos_reached (n : Nat) : ∀ b : K, powPos b n = b ^ reached n := by
  induction n using Nat.strongRecOn with
  | ind n ih =>
    intro b
    by_cases h : n ≤ 8
    · rw [powPos_small b h, reached, if_pos h]
    · obtain ⟨k, rfl⟩ : ∃ k, n = k + 9 := ⟨n - 9, by omega⟩
      rw [powPos, reached, if_neg h]
      rw [ih ((k + 9) / 8) (by omega), powPos_small _ (show k + 9 - (k + 9) / 8 * 8 ≤ 8 by omega),
        show k + 9 - (k + 9) / 8 * 8 = (k + 9) % 8 by omega,
        show b * b * (b * b) * (b * b * (b * b)) = b ^ 8 by ring, ← pow_mul, ← pow_mul, ← pow_add]

theorem Beam.reached_ge (n : Nat) : n ≤ reached n := by
  induction n using Nat.strongRecOn with
  | ind n ih =>
    rw [reached]
    split
    · exact le_rfl
    · have := ih (n / 8) (by omega); omega

theorem Beam.reached_eq (n : Nat) : reached n = n ↔ ∃ k m, m ≤ 8 ∧ n = 8 ^ k * m := by
  induction n using Nat.strongRecOn with
  | ind n ih =>
    constructor
    · intro h
      by_cases h8 : n ≤ 8
      · exact ⟨0, n, h8, by simp⟩
      · rw [reached, if_neg h8] at h
        have h1 := reached_ge (n / 8)
        obtain ⟨k, m, hm, he⟩ := (ih (n / 8) (by omega)).mp (by omega)
        exact ⟨k + 1, m, hm, by rw [pow_succ]; have : n = 8 * (n / 8) := by omega
                                rw [this, he]; ring⟩
    · rintro ⟨k, m, hm, he⟩
      by_cases h8 : n ≤ 8
      · rw [reached, if_pos h8]
      · rcases k with _ | k
        · simp at he; omega
        · have h1 : n = 8 * (8 ^ k * m) := by rw [he, pow_succ]; ring
          have h2 : reached (n / 8) = n / 8 := (ih (n / 8) (by omega)).mpr ⟨k, m, hm, by omega⟩
          rw [reached, if_neg h8, h2]; omega

variable [DecidableEq K]

/-- For exponents up to 8 in absolute value the result is the power (and its reciprocal). -/
theorem C63_small_partial (b : K) (n : Int) (h : n.natAbs ≤ 8) (hb : b ≠ 0 ∨ 0 ≤ n) : powInt b n = .ok (b ^ n) := by
  unfold powInt
  rw [if_neg (by omega)]
  simp only
  rw [powPos_small b h]
  by_cases hn : 0 ≤ n
  · rw [if_pos hn]
    obtain ⟨k, rfl⟩ := Int.eq_ofNat_of_zero_le hn
    simp
  · rw [if_neg hn]
    have hb : b ≠ 0 := hb.resolve_right hn
    rw [if_neg (pow_ne_zero _ hb)]
    obtain ⟨k, rfl⟩ : ∃ k : ℕ, n = -(k : Int) := ⟨n.natAbs, by omega⟩
    simp

/-- Which exponents are right: those whose absolute value is a digit up to eight times a power of eight. -/
theorem C63_which_partial {K : Type} [Field K] [LinearOrder K] [IsStrictOrderedRing K] (b : K) (hb : 1 < b) (n : Int)
    (hn : n.natAbs < 2 ^ 63) : powInt b n = .ok (b ^ n) ↔ ∃ k m : ℕ, m ≤ 8 ∧ n.natAbs = 8 ^ k * m := by
  have hb0 : b ≠ 0 := by intro h; rw [h] at hb; exact absurd hb (by simp)
  rw [← reached_eq]
  unfold powInt
  rw [if_neg (by omega)]
  simp only
  rw [powPos_reached]
  have hinj : ∀ i j : ℕ, b ^ i = b ^ j ↔ i = j := fun i j => (pow_right_injective₀ (by linarith) hb.ne').eq_iff
  by_cases h0 : 0 ≤ n
  · rw [if_pos h0]
    obtain ⟨k, rfl⟩ := Int.eq_ofNat_of_zero_le h0
    simp only [Int.natAbs_natCast, zpow_natCast]
    rw [← hinj]
    exact ⟨fun h => Res.ok.inj h, fun h => congrArg Res.ok h⟩
  · rw [if_neg h0, if_neg (pow_ne_zero _ hb0)]
    obtain ⟨k, rfl⟩ : ∃ k : ℕ, n = -(k : Int) := ⟨n.natAbs, by omega⟩
    simp only [Int.natAbs_neg, Int.natAbs_natCast, zpow_neg, zpow_natCast]
    rw [← hinj]
    constructor
    · intro h
      have := Res.ok.inj h
      rwa [one_div, inv_inj] at this
    · intro h
      rw [h, one_div]

/-- The ninth power of two comes out as the sixteenth. -/
theorem C63_nine_violated : powInt (2 : ℚ) 9 = .ok (2 ^ 16) ∧ (2 : ℚ) ^ (9 : ℤ) ≠ 2 ^ 16 := by
  refine ⟨?_, by norm_num⟩
  unfold powInt
  rw [if_neg (by norm_num)]
  simp only
  rw [powPos_reached, if_pos (by norm_num)]
  congr 2
  decide +kernel

/-- A negative exponent gives the reciprocal of the result for the positive one. -/
theorem C63_negative (b : K) (n : Int) (h0 : 0 < n) (h : n < 2 ^ 63) (hb : b ≠ 0) :
    ∃ r, powInt b n = .ok r ∧ powInt b (-n) = .ok (1 / r) := by
  refine ⟨powPos b n.natAbs, ?_, ?_⟩
  · unfold powInt; rw [if_neg (by omega)]; simp only; rw [if_pos h0.le]
  · unfold powInt; rw [if_neg (by omega)]; simp only
    rw [if_neg (by omega), Int.natAbs_neg, if_neg (by rw [powPos_reached]; exact pow_ne_zero _ hb)]

/-- The absolute value of the least integer overflows. -/
theorem C63_least_violated (b : K) : powInt b (-2 ^ 63) = .ub := if_pos (Or.inl le_rfl)

example : ∃ n : Int, n.natAbs < 2 ^ 63 ∧ 8 < n.natAbs ∧ ∃ k m : ℕ, m ≤ 8 ∧ n.natAbs = 8 ^ k * m :=
  ⟨-64, by norm_num, by norm_num, 2, 1, by norm_num, by norm_num⟩

end SixTrack
