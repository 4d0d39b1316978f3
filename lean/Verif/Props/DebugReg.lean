import Verif.DebugRegLemmas
import Mathlib.Logic.Function.Iterate

/-! # Properties C16, C17: debug register -/

namespace SixTrack
open DebugReg

/-- **C16**: storing a status code and reading it back returns the code; the error flags (bits 32
and up) keep their values, and the register reports a status exactly if a nonzero one was stored.
The smallest 32 bit integer cannot be negated and is excluded, see `C16_min_status_violated`. -/
theorem C16_status_roundtrip (reg : BitVec 64) (s : BitVec 32) (hs : s.toInt ≠ -2^31) :
    ∃ r, storeStatus reg s = .ok r ∧ getStatus r = .ok s ∧
      (∀ i, 32 ≤ i → r.getLsbD i = reg.getLsbD i) ∧
      (hasStatusFlags r = true ↔ s.toInt ≠ 0) := by
  have hs' : s ≠ 0x80000000#32 := by rintro rfl; exact hs (by decide)
  refine ⟨put reg s, storeStatus_eq hs' reg, getStatus_put hs' reg, ?_, ?_⟩
  · intro i hi
    rw [put_bit, if_neg (by omega)]
  · unfold hasStatusFlags
    rw [and_mask_put, bne_iff_ne, zext_ne_zero]
    rw [not_iff_not]
    exact ⟨fun h => by rw [h]; rfl, fun h => BitVec.eq_of_toInt_eq (by simpa using h)⟩

example : ∃ r, storeStatus 0xF0F0F0F012345678#64 (-77#32) = .ok r ∧ getStatus r = .ok (-77#32) ∧
    (∀ i, 32 ≤ i → r.getLsbD i = (0xF0F0F0F012345678#64).getLsbD i) ∧
    (hasStatusFlags r = true ↔ (-77#32).toInt ≠ 0) :=
  C16_status_roundtrip _ _ (by decide)

/-- **C16**: evaluating a register after a nonzero status was stored reports that status; with
status zero the evaluation reports success exactly if no error flag is raised. -/
theorem C16_evaluate (reg : BitVec 64) (s : BitVec 32) (hs : s.toInt ≠ -2^31) :
    ∃ r, storeStatus reg s = .ok r ∧
      (s.toInt ≠ 0 → evaluate r = .ok s) ∧
      (s.toInt = 0 → ((evaluate r = .ok 0#32 ∧ ∀ i, 32 ≤ i → reg.getLsbD i = false) ∨
        (evaluate r = .ok (-1#32) ∧ ∃ i, 32 ≤ i ∧ reg.getLsbD i = true))) := by
  obtain ⟨r, h1, h2, h3, h4⟩ := C16_status_roundtrip reg s hs
  refine ⟨r, h1, fun h => ?_, fun h => ?_⟩
  · unfold evaluate
    rw [if_pos (h4.2 h), h2]
  · have hst : hasStatusFlags r = false := by
      cases hh : hasStatusFlags r
      · rfl
      · exact absurd h (h4.1 hh)
    have hlow : ∀ i, i < 32 → r.getLsbD i = false := by
      intro i hi
      unfold hasStatusFlags at hst
      simp only [bne_eq_false_iff_eq] at hst
      have := congrArg (fun b => BitVec.getLsbD b i) hst
      simp only [BitVec.getLsbD_and, mask_bit, hi, decide_true, Bool.and_true] at this
      simpa using this
    unfold evaluate
    simp only [hst]
    by_cases hz : r = 0#64
    · left
      refine ⟨by subst hz; rfl, fun i hi => ?_⟩
      rw [← h3 i hi, hz]; simp
    · right
      have ha : hasAnyFlags r = true := by simpa [hasAnyFlags] using hz
      refine ⟨by rw [ha]; rfl, ?_⟩
      obtain ⟨k, hk, hb, -⟩ := exists_top hz
      have : 32 ≤ k := by
        by_contra hc
        rw [hlow k (by omega)] at hb; simp at hb
      exact ⟨k, this, by rw [← h3 k this]; exact hb⟩

example : ∃ r, storeStatus 0x0000000300000000#64 0#32 = .ok r ∧
    ((0#32).toInt ≠ 0 → evaluate r = .ok 0#32) ∧
    ((0#32).toInt = 0 → ((evaluate r = .ok 0#32 ∧ ∀ i, 32 ≤ i →
        (0x0000000300000000#64).getLsbD i = false) ∨
      (evaluate r = .ok (-1#32) ∧ ∃ i, 32 ≤ i ∧ (0x0000000300000000#64).getLsbD i = true))) :=
  C16_evaluate _ _ (by decide)

/-- **C16**: resetting removes the status and nothing else. -/
theorem C16_reset (reg : BitVec 64) :
    hasStatusFlags (resetStatus reg) = false ∧ getStatus (resetStatus reg) = .ok 0#32 ∧
      ∀ i, 32 ≤ i → (resetStatus reg).getLsbD i = reg.getLsbD i := by
  have hb : ∀ i, (resetStatus reg).getLsbD i = if i < 32 then false else reg.getLsbD i := by
    intro i
    unfold resetStatus
    rw [BitVec.getLsbD_and, BitVec.getLsbD_not, mask_bit]
    by_cases h : i < 32
    · simp [h]
    · by_cases h2 : i < 64
      · simp [h, h2]
      · simp [h, h2, BitVec.getLsbD_of_ge reg i (by omega)]
  have hp : resetStatus reg = put reg 0#32 := by
    apply BitVec.eq_of_getLsbD_eq
    intro i hi
    rw [hb, put_bit]; simp
  refine ⟨?_, ?_, ?_⟩
  · rw [hp, hasStatusFlags, and_mask_put]; decide
  · rw [hp]; exact getStatus_put (by decide) reg
  · intro i hi; rw [hb, if_neg (by omega)]

/-- The round trip does not extend to the smallest status code: storing it negates the smallest
32 bit integer, which is undefined behaviour. -/
theorem C16_min_status_violated (reg : BitVec 64) :
    ∃ s : BitVec 32, s.toInt = -2^31 ∧ storeStatus reg s = .ub :=
  ⟨0x80000000#32, by decide, rfl⟩

/-! ## C17 -/

/-- **C17**: as long as the last flag (bit 63) is not set, raising the next flag sets exactly one
error flag that was not set before, and every other bit keeps its value. -/
theorem C17_raise_sets_new_flag (reg : BitVec 64) (h : reg.getLsbD 63 = false) :
    ∃ k, 32 ≤ k ∧ k < 64 ∧ reg.getLsbD k = false ∧
      ∀ i, (raiseNext reg).getLsbD i = (decide (i = k) || reg.getLsbD i) := by
  by_cases hz : reg = 0#64
  · subst hz
    refine ⟨32, by omega, by omega, by simp, fun i => ?_⟩
    have : raiseNext 0#64 = BitVec.twoPow 64 32 := by decide
    rw [this, BitVec.getLsbD_twoPow]
    by_cases hi : i = 32
    · subst hi; decide
    · have : ¬ 32 = i := fun h => hi h.symm
      simp [hi, this]
  · obtain ⟨k, hk, hb, htop⟩ := exists_top hz
    have hk63 : k ≠ 63 := by rintro rfl; rw [h] at hb; simp at hb
    have hh := highestFlag_eq hk hb htop
    have hp : 2 ^ k < 2 ^ 64 := Nat.pow_lt_pow_right (by omega) hk
    have hn : (BitVec.twoPow 64 k).toNat = 2 ^ k := by
      rw [BitVec.toNat_twoPow, Nat.mod_eq_of_lt hp]
    have key : ∀ m, 32 ≤ m → m < 64 → k < m → raiseNext reg = reg ||| BitVec.twoPow 64 m →
        ∃ k, 32 ≤ k ∧ k < 64 ∧ reg.getLsbD k = false ∧
          ∀ i, (raiseNext reg).getLsbD i = (decide (i = k) || reg.getLsbD i) := by
      intro m h1 h2 h3 h4
      refine ⟨m, h1, h2, htop m h3, fun i => ?_⟩
      rw [h4, BitVec.getLsbD_or, BitVec.getLsbD_twoPow, Bool.or_comm]
      by_cases e : i = m
      · subst e; simp [h2]
      · have : ¬ m = i := fun h => e h.symm
        simp [e, this]
    by_cases hlow : k < 32
    · apply key 32 (by omega) (by omega) hlow
      unfold raiseNext nextErrorFlag
      simp only [hh]
      rw [if_pos]
      · rfl
      · rw [BitVec.lt_def, hn]
        have : 2 ^ k < 2 ^ 32 := Nat.pow_lt_pow_right (by omega) hlow
        simpa [MIN_FLAG] using this
    · apply key (k + 1) (by omega) (by omega) (by omega)
      unfold raiseNext nextErrorFlag
      simp only [hh]
      have hge : 2 ^ 32 ≤ 2 ^ k := Nat.pow_le_pow_right (by omega) (by omega)
      have hlt : 2 ^ k < 2 ^ 63 := Nat.pow_lt_pow_right (by omega) (by omega)
      rw [if_neg, if_pos]
      · congr 1
        apply BitVec.eq_of_toNat_eq
        rw [BitVec.toNat_shiftLeft, hn, BitVec.toNat_twoPow, Nat.shiftLeft_eq, Nat.pow_succ 2 k, Nat.pow_one]
      · rw [BitVec.lt_def, hn]; simpa [MAX_FLAG] using hlt
      · rw [BitVec.lt_def, hn]; simp [MIN_FLAG]; omega

example : ∃ k, 32 ≤ k ∧ k < 64 ∧ (0x0000001500000007#64).getLsbD k = false ∧
    ∀ i, (raiseNext 0x0000001500000007#64).getLsbD i =
      (decide (i = k) || (0x0000001500000007#64).getLsbD i) :=
  C17_raise_sets_new_flag _ (by decide)

/-- **C17**: once the last flag is set, raising changes nothing. -/
theorem C17_raise_full (reg : BitVec 64) (h : reg.getLsbD 63 = true) : raiseNext reg = reg := by
  have hh := highestFlag_eq (x := reg) (k := 63) (by omega) h
    (fun j hj => BitVec.getLsbD_of_ge reg j (by omega))
  unfold raiseNext nextErrorFlag
  simp only [hh]
  rw [if_neg (by decide), if_neg (by decide), BitVec.or_zero]

example : raiseNext 0x8000000000000001#64 = 0x8000000000000001#64 :=
  C17_raise_full _ (by decide)

/-- **C17**: `n` raises of a register without error flags set exactly the first `n` error flags
(all 32 of them once `n ≥ 32`) and keep the status. -/
theorem C17_raise_n (reg : BitVec 64) (h : ∀ i, 32 ≤ i → reg.getLsbD i = false) (n : Nat) :
    ∀ i, (raiseNext^[n] reg).getLsbD i =
      if i < 32 then reg.getLsbD i else decide (i < 32 + n ∧ i < 64) := by
  induction n with
  | zero =>
    intro i
    rw [Function.iterate_zero_apply]
    by_cases hi : i < 32
    · simp [hi]
    · rw [h i (by omega), if_neg hi]
      simp; omega
  | succ n ih =>
    rw [Function.iterate_succ_apply']
    generalize raiseNext^[n] reg = r at ih
    by_cases hn : n < 32
    · obtain ⟨k, hk1, hk2, hk3, hk4⟩ := C17_raise_sets_new_flag r (by
        rw [ih, if_neg (by omega)]; simp; omega)
      have hk : k = 32 + n := by
        by_contra hne
        rw [ih, if_neg (by omega)] at hk3
        have hgt : 32 + n < k := by simp at hk3; omega
        -- the highest set flag is below bit 32 + n, so the flag after it is at most 32 + n
        have hz : highestFlag r = 0#64 ∨ ∃ m, m < 32 + n ∧ highestFlag r = BitVec.twoPow 64 m := by
          by_cases hz : r = 0#64
          · left; rw [hz]; exact highestFlag_zero
          · right
            obtain ⟨m, hm, hb, ht⟩ := exists_top hz
            refine ⟨m, ?_, highestFlag_eq hm hb ht⟩
            rw [ih] at hb
            by_cases hm2 : m < 32
            · omega
            · rw [if_neg hm2] at hb; simp at hb; omega
        have hbit := hk4 k
        rw [decide_eq_true rfl, Bool.true_or, raiseNext, BitVec.getLsbD_or] at hbit
        have hrk : r.getLsbD k = false := by
          rw [ih, if_neg (by omega)]; simp; omega
        rw [hrk, Bool.false_or] at hbit
        unfold nextErrorFlag at hbit
        rcases hz with hz | ⟨m, hm, hz⟩
        · rw [hz] at hbit
          simp only [] at hbit
          rw [if_pos (by decide)] at hbit
          have : MIN_FLAG = BitVec.twoPow 64 32 := by decide
          rw [this, BitVec.getLsbD_twoPow] at hbit
          simp at hbit
          omega
        · rw [hz] at hbit
          simp only [] at hbit
          split at hbit
          · have : MIN_FLAG = BitVec.twoPow 64 32 := by decide
            rw [this, BitVec.getLsbD_twoPow] at hbit
            simp at hbit
            omega
          · split at hbit
            · rw [BitVec.getLsbD_shiftLeft, BitVec.getLsbD_twoPow] at hbit
              simp at hbit
              omega
            · simp at hbit
      intro i
      rw [hk4, ih, hk]
      by_cases hi : i < 32
      · simp [hi]; omega
      · simp only [hi, if_false]
        by_cases hi2 : i = 32 + n
        · subst hi2; simp; omega
        · have : (decide (i = 32 + n)) = false := by simpa using hi2
          rw [this, Bool.false_or, decide_eq_decide]
          omega
    · rw [C17_raise_full r (by rw [ih, if_neg (by omega)]; simp; omega)]
      intro i
      rw [ih]
      by_cases hi : i < 32
      · simp [hi]
      · simp only [hi, if_false, decide_eq_decide]; omega

example : ∀ i, (raiseNext^[5] 0x00000000deadbeef#64).getLsbD i =
    if i < 32 then (0x00000000deadbeef#64).getLsbD i else decide (i < 32 + 5 ∧ i < 64) :=
  C17_raise_n _ (fun i hi => by
    rw [BitVec.getLsbD]; exact Nat.testBit_lt_two_pow
      (Nat.lt_of_lt_of_le (by decide : (0x00000000deadbeef#64).toNat < 2 ^ 32)
        (Nat.pow_le_pow_right (by omega) hi))) 5

end SixTrack
