import Verif.DebugReg
import Mathlib.Tactic.ByContra

/-! # Helper lemmas about the debug register -/

namespace SixTrack.DebugReg

theorem mask_bit (i : Nat) : STATUS_BITMASK.getLsbD i = decide (i < 32) := by
  have : STATUS_BITMASK = (BitVec.allOnes 32).setWidth 64 := by decide
  rw [this, BitVec.getLsbD_setWidth, BitVec.getLsbD_allOnes]
  by_cases h : i < 32
  · have h' : i < 64 := by omega
    rw [decide_eq_true h, decide_eq_true h']; rfl
  · rw [decide_eq_false h]; simp

theorem invmask_bit (i : Nat) :
    STATUS_INV_BITMASK.getLsbD i = decide (32 ≤ i ∧ i < 64) := by
  have : STATUS_INV_BITMASK = ~~~STATUS_BITMASK := by decide
  rw [this, BitVec.getLsbD_not, mask_bit]
  by_cases h : i < 32 <;> by_cases h2 : i < 64 <;> simp [h, h2] <;> omega

/-- the register with the status part replaced -/
def put (reg : BitVec 64) (s : BitVec 32) : BitVec 64 :=
  (reg &&& STATUS_INV_BITMASK) ||| s.setWidth 64

theorem put_bit (reg : BitVec 64) (s : BitVec 32) (i : Nat) :
    (put reg s).getLsbD i = if i < 32 then s.getLsbD i else reg.getLsbD i := by
  unfold put
  rw [BitVec.getLsbD_or, BitVec.getLsbD_and, invmask_bit,
    BitVec.getLsbD_setWidth]
  by_cases h : i < 32
  · have h' : i < 64 := by omega
    simp [h, h']; omega
  · have h0 : s.getLsbD i = false := BitVec.getLsbD_of_ge _ _ (by omega)
    by_cases h2 : i < 64
    · simp [h, h0]; omega
    · simp [h, h0]; intro h3; have := BitVec.lt_of_getLsbD h3; omega

theorem storeStatus_eq {s : BitVec 32} (hs : s ≠ 0x80000000#32) (reg : BitVec 64) :
    storeStatus reg s = .ok (put reg s) := by
  unfold storeStatus
  split
  · rename_i h
    have hm : s.msb = false := by
      rw [BitVec.msb_eq_toInt]; simp; omega
    rw [put, BitVec.signExtend_eq_setWidth_of_msb_false hm]
  · rename_i h
    simp only [Res.ok_inj, put]
    congr 1
    have hm : s.msb = true := by
      rw [BitVec.msb_eq_toInt]; simp; omega
    have h1 : 2^31 ≤ s.toNat := by
      rw [BitVec.msb_eq_decide] at hm; simpa using hm
    have h2 := s.isLt
    apply BitVec.eq_of_toNat_eq
    simp only [BitVec.toNat_add, BitVec.toNat_setWidth,
      BitVec.toNat_not, BitVec.toNat_neg, BitVec.toNat_ofNat]
    omega

theorem and_mask_put (reg : BitVec 64) (s : BitVec 32) :
    put reg s &&& STATUS_BITMASK = s.setWidth 64 := by
  apply BitVec.eq_of_getLsbD_eq
  intro i hi
  rw [BitVec.getLsbD_and, put_bit, mask_bit, BitVec.getLsbD_setWidth]
  by_cases h : i < 32
  · simp [h, hi]
  · have h0 : s.getLsbD i = false := BitVec.getLsbD_of_ge _ _ (by omega)
    simp [h, h0]

theorem mask_and (x : BitVec 64) : (STATUS_BITMASK &&& x).setWidth 32 = x.setWidth 32 := by
  apply BitVec.eq_of_getLsbD_eq
  intro i hi
  simp only [BitVec.getLsbD_setWidth, BitVec.getLsbD_and, mask_bit]
  simp [hi]

theorem getStatus_put {s : BitVec 32} (hs : s ≠ 0x80000000#32) (reg : BitVec 64) :
    getStatus (put reg s) = .ok s := by
  unfold getStatus
  simp only [and_mask_put]
  have h2 := s.isLt
  have hs' : s.toNat ≠ 0x80000000 := fun h => hs (BitVec.eq_of_toNat_eq h)
  split
  · rename_i h
    rw [BitVec.le_def] at h
    simp only [STATUS_MAX_FLAG, BitVec.toNat_setWidth,
      BitVec.toNat_ofNat] at h
    rw [mask_and]
    have e : (~~~(s.setWidth 64 - 1#64)).setWidth 32 = -s := by
      apply BitVec.eq_of_toNat_eq
      simp only [BitVec.toNat_sub, BitVec.toNat_setWidth,
        BitVec.toNat_not, BitVec.toNat_neg, BitVec.toNat_ofNat]
      omega
    rw [e, BitVec.neg_neg, if_neg]
    intro h3
    have := congrArg BitVec.toNat h3
    rw [BitVec.toNat_neg] at this
    simp at this
    omega
  · rw [mask_and]
    congr 1
    apply BitVec.eq_of_toNat_eq
    simp only [BitVec.toNat_setWidth]
    omega

theorem zext_ne_zero (s : BitVec 32) : s.setWidth 64 ≠ 0#64 ↔ s ≠ 0#32 := by
  have h2 := s.isLt
  constructor
  · rintro h rfl; apply h; decide
  · intro h h1
    apply h
    have := congrArg BitVec.toNat h1
    simp only [BitVec.toNat_setWidth] at this
    apply BitVec.eq_of_toNat_eq
    simp at this ⊢
    omega

/-! ## highest set flag -/

/-- `smear` steps collect the bits of a window -/
theorem smear_bit {x r : BitVec 64} {w : Nat}
    (h : ∀ i, r.getLsbD i = true ↔ ∃ d, d < w ∧ x.getLsbD (i + d) = true) :
    ∀ i, (smear r w).getLsbD i = true ↔ ∃ d, d < w + w ∧ x.getLsbD (i + d) = true := by
  intro i
  unfold smear
  rw [BitVec.getLsbD_or, BitVec.getLsbD_ushiftRight, Bool.or_eq_true, h, h]
  constructor
  · rintro (⟨d, hd, hx⟩ | ⟨d, hd, hx⟩)
    · exact ⟨d, by omega, hx⟩
    · exact ⟨w + d, by omega, by rw [← hx]; congr 1; omega⟩
  · rintro ⟨d, hd, hx⟩
    by_cases h1 : d < w
    · exact Or.inl ⟨d, h1, hx⟩
    · exact Or.inr ⟨d - w, by omega, by rw [← hx]; congr 1; omega⟩

theorem highestFlag_bit (x : BitVec 64) (i : Nat) :
    (highestFlag x).getLsbD i = true ↔ x.getLsbD i = true ∧ ∀ j, i < j → x.getLsbD j = false := by
  unfold highestFlag
  have h0 : ∀ i, x.getLsbD i = true ↔ ∃ d, d < 1 ∧ x.getLsbD (i + d) = true := by
    intro i
    constructor
    · intro h; exact ⟨0, by omega, h⟩
    · rintro ⟨d, hd, h⟩
      have : d = 0 := by omega
      subst this; exact h
  have h6 := smear_bit (smear_bit (smear_bit (smear_bit (smear_bit (smear_bit h0)))))
  simp only [Nat.reduceAdd] at h6
  generalize smear (smear (smear (smear (smear (smear x 1) 2) 4) 8) 16) 32 = r at h6
  have h7 : ∀ i, r.getLsbD i = true ↔ ∃ j, i ≤ j ∧ x.getLsbD j = true := by
    intro i
    rw [h6]
    constructor
    · rintro ⟨d, _, h⟩; exact ⟨i + d, by omega, h⟩
    · rintro ⟨j, hj, h⟩
      have : j < 64 := by
        by_contra hc
        rw [BitVec.getLsbD_of_ge _ _ (by omega)] at h
        simp at h
      exact ⟨j - i, by omega, by rw [← h]; congr 1; omega⟩
  show (r ^^^ r >>> 1).getLsbD i = true ↔ _
  rw [BitVec.getLsbD_xor, BitVec.getLsbD_ushiftRight]
  constructor
  · intro h
    have h1 : r.getLsbD i = true ∧ r.getLsbD (1 + i) = false := by
      have hmono : r.getLsbD (1 + i) = true → r.getLsbD i = true := by
        intro b
        obtain ⟨j, hj, hx⟩ := (h7 _).1 b
        exact (h7 _).2 ⟨j, by omega, hx⟩
      clear h6 h7
      cases a : r.getLsbD i <;> cases b : r.getLsbD (1 + i) <;> simp_all
    obtain ⟨a, b⟩ := h1
    have hlt : ∀ j, i < j → x.getLsbD j = false := by
      intro j hj
      cases hx : x.getLsbD j
      · rfl
      · have : r.getLsbD (1 + i) = true := (h7 _).2 ⟨j, by omega, hx⟩
        rw [b] at this; simp at this
    refine ⟨?_, hlt⟩
    obtain ⟨j, hj, hx⟩ := (h7 i).1 a
    by_cases e : j = i
    · rwa [e] at hx
    · rw [hlt j (by omega)] at hx; simp at hx
  · rintro ⟨a, b⟩
    have h1 : r.getLsbD i = true := (h7 i).2 ⟨i, by omega, a⟩
    have h2 : r.getLsbD (1 + i) = false := by
      cases hh : r.getLsbD (1 + i)
      · rfl
      · obtain ⟨j, hj, hx⟩ := (h7 _).1 hh
        rw [b j (by omega)] at hx; simp at hx
    rw [h1, h2]; rfl

/-- Every nonzero register has a highest bit. -/
theorem exists_top {x : BitVec 64} (hx : x ≠ 0#64) :
    ∃ k, k < 64 ∧ x.getLsbD k = true ∧ ∀ j, k < j → x.getLsbD j = false := by
  have hn : x.toNat ≠ 0 := fun h => hx (BitVec.eq_of_toNat_eq h)
  refine ⟨x.toNat.log2, ?_, ?_, ?_⟩
  · exact (Nat.log2_lt hn).2 x.isLt
  · unfold BitVec.getLsbD
    exact Nat.testBit_log2 hn
  · intro j hj
    unfold BitVec.getLsbD
    exact Nat.testBit_lt_two_pow ((Nat.log2_lt hn).1 hj)

theorem highestFlag_eq {x : BitVec 64} {k : Nat} (hk : k < 64) (h1 : x.getLsbD k = true)
    (h2 : ∀ j, k < j → x.getLsbD j = false) : highestFlag x = BitVec.twoPow 64 k := by
  apply BitVec.eq_of_getLsbD_eq
  intro i hi
  rw [BitVec.getLsbD_twoPow, Bool.eq_iff_iff, highestFlag_bit]
  simp only [hk, decide_true, Bool.true_and, decide_eq_true_eq]
  constructor
  · rintro ⟨a, b⟩
    by_contra hne
    rcases Nat.lt_or_gt_of_ne hne with h | h
    · rw [h2 i h] at a; simp at a
    · rw [b k h] at h1; simp at h1
  · rintro rfl; exact ⟨h1, h2⟩

theorem highestFlag_zero : highestFlag 0#64 = 0#64 := by decide

end SixTrack.DebugReg
