import Verif.Align
import Mathlib.Data.Nat.GCD.Basic
import Mathlib.Data.Nat.Log
import Mathlib.Tactic.IntervalCases

/-! # Property C14: alignment arithmetic -/

namespace SixTrack
open Align

/-- **C14**: the greatest common divisor helper returns the greatest common divisor, for all
arguments, zero included. -/
theorem C14_gcd (a b : Nat) : Align.gcd a b = Nat.gcd a b := by
  induction a using Nat.strongRecOn generalizing b with
  | _ a ih =>
    rw [Align.gcd]
    by_cases h : a ≠ 0 ∧ b ≠ 0
    · rw [dif_pos h]
      by_cases hb : b % a = 0
      · rw [if_pos hb]
        exact (Nat.gcd_eq_left (Nat.dvd_of_mod_eq_zero hb)).symm
      · rw [if_neg hb]
        have h1 : b % a < a := Nat.mod_lt _ (Nat.pos_of_ne_zero h.1)
        have h2 : a % (b % a) < b % a := Nat.mod_lt _ (by omega)
        rw [ih _ (by omega), ← Nat.gcd_rec, ← Nat.gcd_rec]
    · rw [dif_neg h]
      rcases Nat.eq_zero_or_pos a with rfl | ha
      · simp
      · have : b = 0 := by
          by_contra hb
          exact h ⟨by omega, hb⟩
        subst this
        simp [ha]

example : Align.gcd 84 36 = Nat.gcd 84 36 ∧ Nat.gcd 84 36 = 12 := ⟨C14_gcd _ _, by decide⟩

/-- **C14**: the least common multiple helper returns the least common multiple whenever the
product of its arguments is representable. -/
theorem C14_lcm_partial (a b : Nat) (h : a * b < 2 ^ 64) : Align.lcm a b = Nat.lcm a b := by
  unfold Align.lcm
  rw [C14_gcd, Align.u64, Nat.mod_eq_of_lt h]
  by_cases hg : Nat.gcd a b = 0
  · rw [if_neg (by simp [hg])]
    rw [Nat.gcd_eq_zero_iff] at hg
    simp [hg.1]
  · rw [if_pos hg]
    rfl

example : Align.lcm 12 18 = Nat.lcm 12 18 ∧ Nat.lcm 12 18 = 36 :=
  ⟨C14_lcm_partial _ _ (by decide), by decide⟩

/-- **C14 is false of the code**: when the product of the arguments overflows, the least common
multiple is wrong although it is representable.  `lcm( 2^40, 2^40 )` comes out as 0 and
`lcm( 2^32 + 1, 2^32 )` as a number that is no multiple of the first argument. -/
theorem C14_lcm_violated :
    (Align.lcm (2 ^ 40) (2 ^ 40) = 0 ∧ Nat.lcm (2 ^ 40) (2 ^ 40) = 2 ^ 40) ∧
    Align.lcm (3 * 2 ^ 33) (2 ^ 32) = 0 ∧ Nat.lcm (3 * 2 ^ 33) (2 ^ 32) < 2 ^ 64 ∧
    ¬ (2 ^ 32 + 1 ∣ Align.lcm (2 ^ 32 + 1) (2 ^ 32)) := by
  refine ⟨⟨?_, ?_⟩, ?_, ?_, ?_⟩
  · unfold Align.lcm; rw [C14_gcd]; decide
  · decide
  · unfold Align.lcm; rw [C14_gcd]; decide
  · decide
  · unfold Align.lcm; rw [C14_gcd]; decide

namespace Align

/-- With a product that fits, the common alignment of two positive numbers is the least common
multiple; it is positive and at most the product. -/
theorem common_spec {a b : Nat} (ha : 0 < a) (hb : 0 < b) (h : a * b < 2 ^ 64) :
    Align.lcm a b = Nat.lcm a b ∧ 0 < Align.lcm a b ∧ Align.lcm a b ≤ a * b := by
  rw [C14_lcm_partial a b h]
  exact ⟨rfl, Nat.lcm_pos ha hb, Nat.le_of_dvd (Nat.mul_pos ha hb) (Nat.lcm_dvd_mul a b)⟩

/-- Result of combining groups. -/
theorem common_group {x y p q : Nat} (hx : 0 < x) (hy : 0 < y) (hp : x ≤ p) (hq : y ≤ q)
    (h : p * q < 2 ^ 64) :
    Align.lcm x y = Nat.lcm x y ∧ 0 < Align.lcm x y ∧ Align.lcm x y ≤ p * q := by
  have hle : x * y ≤ p * q := Nat.mul_le_mul hp hq
  obtain ⟨h1, h2, h3⟩ := common_spec hx hy (by omega)
  exact ⟨h1, h2, by omega⟩

theorem part_lt {p q : Nat} (hq : 0 < q) (h : p * q < 2 ^ 64) : p < 2 ^ 64 :=
  Nat.lt_of_le_of_lt (Nat.le_mul_of_pos_right p hq) h

theorem part_lt' {p q : Nat} (hp : 0 < p) (h : p * q < 2 ^ 64) : q < 2 ^ 64 :=
  Nat.lt_of_le_of_lt (Nat.le_mul_of_pos_left q hp) h

theorem common3_spec {s t u : Nat} (hs : 0 < s) (ht : 0 < t) (hu : 0 < u)
    (h : s * t * u < 2 ^ 64) :
    common3 s t u = Nat.lcm (Nat.lcm s t) u ∧ 0 < common3 s t u ∧ common3 s t u ≤ s * t * u := by
  obtain ⟨a1, a2, a3⟩ := common_spec hs ht (part_lt hu h)
  obtain ⟨b1, b2, b3⟩ := common_group a2 hu a3 (Nat.le_refl u) h
  exact ⟨by unfold common3; rw [b1, a1], b2, b3⟩

theorem common4_spec {s t u v : Nat} (hs : 0 < s) (ht : 0 < t) (hu : 0 < u) (hv : 0 < v)
    (h : s * t * (u * v) < 2 ^ 64) :
    common4 s t u v = Nat.lcm (Nat.lcm s t) (Nat.lcm u v) ∧ 0 < common4 s t u v ∧
      common4 s t u v ≤ s * t * (u * v) := by
  obtain ⟨a1, a2, a3⟩ := common_spec hs ht (part_lt (Nat.mul_pos hu hv) h)
  obtain ⟨c1, c2, c3⟩ := common_spec hu hv (part_lt' (Nat.mul_pos hs ht) h)
  obtain ⟨b1, b2, b3⟩ := common_group a2 c2 a3 c3 h
  exact ⟨by unfold common4; rw [b1, a1, c1], b2, b3⟩

end Align

/-- `m` is the least common multiple of a list of numbers: every entry divides `m`, and `m` divides
every common multiple. -/
def IsLCM (m : Nat) (l : List Nat) : Prop := (∀ x ∈ l, x ∣ m) ∧ ∀ k, (∀ x ∈ l, x ∣ k) → m ∣ k

/-- **C14**: the common alignment of three to eight positive numbers is their least common
multiple, provided that the product of all of them is representable. -/
theorem C14_common_partial :
    (∀ s t : Nat, 0 < s → 0 < t → s * t < 2 ^ 64 → IsLCM (common s t) [s, t]) ∧
    (∀ s t u : Nat, 0 < s → 0 < t → 0 < u → s * t * u < 2 ^ 64 →
      IsLCM (common3 s t u) [s, t, u]) ∧
    (∀ s t u v : Nat, 0 < s → 0 < t → 0 < u → 0 < v → s * t * (u * v) < 2 ^ 64 →
      IsLCM (common4 s t u v) [s, t, u, v]) ∧
    (∀ s t u v w : Nat, 0 < s → 0 < t → 0 < u → 0 < v → 0 < w →
      s * t * (u * v) * w < 2 ^ 64 → IsLCM (common5 s t u v w) [s, t, u, v, w]) ∧
    (∀ s t u v w x : Nat, 0 < s → 0 < t → 0 < u → 0 < v → 0 < w → 0 < x →
      s * t * (u * v) * (w * x) < 2 ^ 64 → IsLCM (common6 s t u v w x) [s, t, u, v, w, x]) ∧
    (∀ s t u v w x y : Nat, 0 < s → 0 < t → 0 < u → 0 < v → 0 < w → 0 < x → 0 < y →
      s * t * (u * v) * (w * x * y) < 2 ^ 64 →
      IsLCM (common7 s t u v w x y) [s, t, u, v, w, x, y]) ∧
    (∀ s t u v w x y z : Nat, 0 < s → 0 < t → 0 < u → 0 < v → 0 < w → 0 < x → 0 < y → 0 < z →
      s * t * (u * v) * (w * x * (y * z)) < 2 ^ 64 →
      IsLCM (common8 s t u v w x y z) [s, t, u, v, w, x, y, z]) := by
  have L2 : ∀ a b : Nat, ∀ k, (Nat.lcm a b ∣ k ↔ a ∣ k ∧ b ∣ k) := fun a b k => Nat.lcm_dvd_iff
  have key : ∀ (m : Nat) (l : List Nat), (∀ k, m ∣ k ↔ ∀ x ∈ l, x ∣ k) → IsLCM m l :=
    fun m l h => ⟨(h m).1 (Nat.dvd_refl m), fun k hk => (h k).2 hk⟩
  refine ⟨?_, ?_, ?_, ?_, ?_, ?_, ?_⟩
  · intro s t hs ht h
    refine key _ _ fun k => ?_
    rw [common, (common_spec hs ht h).1, L2]
    simp
  · intro s t u hs ht hu h
    refine key _ _ fun k => ?_
    rw [(common3_spec hs ht hu h).1, L2, L2]
    simp [and_assoc]
  · intro s t u v hs ht hu hv h
    refine key _ _ fun k => ?_
    rw [(common4_spec hs ht hu hv h).1, L2, L2, L2]
    simp [and_assoc]
  · intro s t u v w hs ht hu hv hw h
    refine key _ _ fun k => ?_
    obtain ⟨a1, a2, a3⟩ := common4_spec hs ht hu hv (part_lt hw h)
    rw [common5, common, (common_group a2 hw a3 (Nat.le_refl w) h).1, L2, a1, L2, L2, L2]
    simp [and_assoc]
  · intro s t u v w x hs ht hu hv hw hx h
    refine key _ _ fun k => ?_
    have p1 := Nat.mul_pos (Nat.mul_pos hs ht) (Nat.mul_pos hu hv)
    obtain ⟨a1, a2, a3⟩ := common4_spec hs ht hu hv (part_lt (Nat.mul_pos hw hx) h)
    obtain ⟨b1, b2, b3⟩ := common_spec hw hx (part_lt' p1 h)
    rw [common6, common, common, (common_group a2 b2 a3 b3 h).1, L2, a1, b1, L2, L2, L2, L2]
    simp [and_assoc]
  · intro s t u v w x y hs ht hu hv hw hx hy h
    refine key _ _ fun k => ?_
    have p1 := Nat.mul_pos (Nat.mul_pos hs ht) (Nat.mul_pos hu hv)
    obtain ⟨a1, a2, a3⟩ := common4_spec hs ht hu hv
      (part_lt (Nat.mul_pos (Nat.mul_pos hw hx) hy) h)
    obtain ⟨b1, b2, b3⟩ := common3_spec hw hx hy (part_lt' p1 h)
    rw [common7, common, (common_group a2 b2 a3 b3 h).1, L2, a1, b1, L2, L2, L2, L2, L2]
    simp [and_assoc]
  · intro s t u v w x y z hs ht hu hv hw hx hy hz h
    refine key _ _ fun k => ?_
    have p1 := Nat.mul_pos (Nat.mul_pos hs ht) (Nat.mul_pos hu hv)
    obtain ⟨a1, a2, a3⟩ := common4_spec hs ht hu hv
      (part_lt (Nat.mul_pos (Nat.mul_pos hw hx) (Nat.mul_pos hy hz)) h)
    obtain ⟨b1, b2, b3⟩ := common4_spec hw hx hy hz (part_lt' p1 h)
    rw [common8, common, (common_group a2 b2 a3 b3 h).1, L2, a1, b1, L2, L2, L2, L2, L2, L2]
    simp [and_assoc]

example : IsLCM (common8 2 4 8 16 32 3 9 5) [2, 4, 8, 16, 32, 3, 9, 5] :=
  C14_common_partial.2.2.2.2.2.2 _ _ _ _ _ _ _ _ (by decide) (by decide) (by decide) (by decide)
    (by decide) (by decide) (by decide) (by decide) (by decide)

namespace Align

/-- The loop of `log2_floor` finds the largest `N ≤ 63` with `2^N - 1 ≤ x`. -/
theorem log2FloorLoop_eq (x r : Nat) (hr : r ≤ 63) (hx : 2 ^ r ≤ x + 1)
    (hm : x + 1 < 2 ^ (r + 1) ∨ r = 63) :
    ∀ k N, k = 64 - N → 1 ≤ N → N ≤ r + 1 → log2FloorLoop x N (N - 1) = r := by
  intro k
  induction k with
  | zero =>
    intro N hk h1 hN
    rw [log2FloorLoop, dif_neg (by omega)]
    omega
  | succ k ih =>
    intro N hk h1 hN
    rw [log2FloorLoop, dif_pos (by omega)]
    by_cases hc : N ≤ r
    · have h2 : 2 ^ N ≤ 2 ^ r := Nat.pow_le_pow_right (by decide) hc
      rw [if_neg (by omega)]
      have := ih (N + 1) (by omega) (by omega) (by omega)
      simpa using this
    · have hNr : N = r + 1 := by omega
      subst hNr
      rcases hm with hm | hm
      · rw [if_pos (by omega)]
        omega
      · omega

/-- What `log2_floor` computes: `⌊log2 (x + 1)⌋`, cut off at 63. -/
theorem log2Floor_eq {x : Nat} (hx : x < 2 ^ 64) :
    log2Floor x = min 63 (Nat.log 2 (x + 1)) := by
  unfold log2Floor
  by_cases h1 : 0x7FFFFFFFFFFFFFFF < x
  · rw [if_pos h1]
    have : 63 ≤ Nat.log 2 (x + 1) := Nat.le_log_of_pow_le (by decide) (by omega)
    omega
  · rw [if_neg h1]
    by_cases h0 : 0 < x
    · rw [if_pos h0]
      have hle : Nat.log 2 (x + 1) ≤ 63 := by
        have : Nat.log 2 (x + 1) < 64 := Nat.log_lt_of_lt_pow (by omega) (by omega)
        omega
      rw [Nat.min_eq_right hle]
      have := log2FloorLoop_eq x (Nat.log 2 (x + 1)) hle (Nat.pow_log_le_self 2 (by omega))
        (Or.inl (Nat.lt_pow_succ_log_self (by decide) _)) 63 1 rfl (by omega) (by omega)
      simpa using this
    · rw [if_neg h0]
      have : x = 0 := by omega
      subst this
      decide

/-- `⌊log2 (x + 1)⌋` agrees with `⌊log2 x⌋` unless `x + 1` is a power of two. -/
theorem log_succ {x : Nat} (h0 : 0 < x) (h : ∀ k, x + 1 ≠ 2 ^ k) :
    Nat.log 2 (x + 1) = Nat.log 2 x := by
  have h1 : 2 ^ Nat.log 2 x ≤ x := Nat.pow_log_le_self 2 (by omega)
  have h2 : x < 2 ^ (Nat.log 2 x + 1) := Nat.lt_pow_succ_log_self (by decide) x
  have h3 := h (Nat.log 2 x + 1)
  exact (Nat.log_eq_iff (Or.inr ⟨by decide, by omega⟩)).2 ⟨by omega, by omega⟩

end Align

/-- **C14**: `log2_floor` returns the integer part of the binary logarithm of every positive
64-bit number `x` for which `x + 1` is not one of the powers of two up to `2^63`. -/
theorem C14_log2_floor_partial (x : Nat) (h0 : 0 < x) (hx : x < 2 ^ 64)
    (h : ∀ k ≤ 63, x + 1 ≠ 2 ^ k) : log2Floor x = Nat.log 2 x := by
  rw [log2Floor_eq hx]
  by_cases hm : x + 1 = 2 ^ 64
  · rw [hm, Nat.log_pow (by decide)]
    have : x = 2 ^ 64 - 1 := by omega
    subst this
    rw [(Nat.log_eq_iff (b := 2) (m := 63) (Or.inr ⟨by decide, by decide⟩)).2 ⟨by decide, by decide⟩]
    rfl
  · rw [log_succ h0]
    · have : Nat.log 2 x < 64 := Nat.log_lt_of_lt_pow (by omega) hx
      omega
    · intro k hk
      rcases Nat.lt_or_ge k 64 with h' | h'
      · exact h k (by omega) hk
      · have : 2 ^ 64 ≤ 2 ^ k := Nat.pow_le_pow_right (by decide) h'
        omega

example : log2Floor 1000 = Nat.log 2 1000 ∧ Nat.log 2 1000 = 9 :=
  ⟨C14_log2_floor_partial 1000 (by decide) (by decide) (by decide), by decide⟩

/-- **C14 is false of the code**: for every `x = 2^k - 1` with `1 ≤ k ≤ 63`, `log2_floor( x )` is
`k`, one more than the integer part of the binary logarithm. -/
theorem C14_log2_floor_violated (k : Nat) (h1 : 1 ≤ k) (h2 : k ≤ 63) :
    log2Floor (2 ^ k - 1) = k ∧ Nat.log 2 (2 ^ k - 1) = k - 1 := by
  have hp : 2 ^ k ≤ 2 ^ 63 := Nat.pow_le_pow_right (by decide) h2
  have h0 : 0 < 2 ^ k := Nat.pow_pos (by decide)
  constructor
  · rw [log2Floor_eq (by omega), Nat.sub_add_cancel h0, Nat.log_pow (by decide)]
    omega
  · obtain ⟨j, rfl⟩ : ∃ j, k = j + 1 := ⟨k - 1, by omega⟩
    have hj : 0 < 2 ^ j := Nat.pow_pos (by decide)
    have : 2 ^ (j + 1) = 2 * 2 ^ j := by rw [Nat.pow_succ, Nat.mul_comm]
    refine (Nat.log_eq_iff (Or.inr ⟨by decide, by omega⟩)).2 ⟨?_, ?_⟩
    · simp only [Nat.add_sub_cancel]; omega
    · simp only [Nat.add_sub_cancel]; omega

example : log2Floor 1 = 1 ∧ Nat.log 2 1 = 0 := C14_log2_floor_violated 1 (by decide) (by decide)

/-- **C14**: `log2_ceil` returns the smallest exponent whose power of two is at least `x`, for the
64-bit numbers `x` below `2^63` such that neither `x` nor `x + 1` is a power of two. -/
theorem C14_log2_ceil_partial (x : Nat) (h0 : 0 < x) (hx : x < 2 ^ 63)
    (h : ∀ k, x + 1 ≠ 2 ^ k) (h' : ∀ k, x ≠ 2 ^ k) : log2Ceil x = Nat.clog 2 x := by
  have hf := C14_log2_floor_partial x h0 (by omega) (fun k _ => h k)
  unfold log2Ceil
  have hl : Nat.log 2 x < 63 := Nat.log_lt_of_lt_pow (by omega) hx
  rw [hf, if_pos hl]
  have h1 : 2 ^ Nat.log 2 x ≤ x := Nat.pow_log_le_self 2 (by omega)
  have h2 : x < 2 ^ (Nat.log 2 x + 1) := Nat.lt_pow_succ_log_self (by decide) x
  have h3 := h' (Nat.log 2 x)
  refine Nat.le_antisymm ?_ ?_
  · exact (Nat.lt_clog_iff_pow_lt (by decide)).2 (by omega)
  · exact (Nat.clog_le_iff_le_pow (by decide)).2 (by omega)

example : log2Ceil 1000 = Nat.clog 2 1000 := by
  have h : ∀ k, (1000 : Nat) + 1 ≠ 2 ^ k ∧ (1000 : Nat) ≠ 2 ^ k := by
    intro k
    rcases Nat.lt_or_ge k 10 with hk | hk
    · interval_cases k <;> decide
    · have : 2 ^ 10 ≤ 2 ^ k := Nat.pow_le_pow_right (by decide) hk
      omega
  exact C14_log2_ceil_partial 1000 (by decide) (by decide) (fun k => (h k).1) (fun k => (h k).2)

/-- **C14 is false of the code**: for every power of two `x = 2^k` with `1 ≤ k ≤ 62`,
`log2_ceil( x )` is `k + 1` instead of `k`; for `x = 1` it is 2 instead of 0. -/
theorem C14_log2_ceil_violated :
    (∀ k, 1 ≤ k → k ≤ 62 → log2Ceil (2 ^ k) = k + 1 ∧ Nat.clog 2 (2 ^ k) = k) ∧
    log2Ceil 1 = 2 ∧ Nat.clog 2 1 = 0 := by
  refine ⟨fun k h1 h2 => ⟨?_, Nat.clog_pow 2 k (by decide)⟩, ?_, by decide⟩
  · have hp : 2 ^ k ≤ 2 ^ 62 := Nat.pow_le_pow_right (by decide) h2
    have h2k : 2 ^ 1 ≤ 2 ^ k := Nat.pow_le_pow_right (by decide) h1
    have hs : 2 ^ (k + 1) = 2 ^ k * 2 := Nat.pow_succ 2 k
    have hlog : Nat.log 2 (2 ^ k + 1) = k :=
      (Nat.log_eq_iff (Or.inr ⟨by decide, by omega⟩)).2 ⟨by omega, by omega⟩
    unfold log2Ceil
    rw [log2Floor_eq (by omega), hlog, Nat.min_eq_right (by omega), if_pos (by omega)]
  · unfold log2Ceil
    rw [show log2Floor 1 = 1 from (C14_log2_floor_violated 1 (by decide) (by decide)).1]
    rfl

namespace Align

/-- The rounds of the outer loop after the first one: `step2` only grows until it wraps to 0, and
no pair of entries is combined any more. -/
def skips (L : Nat) : Nat → Nat → Bool
  | 0, _ => false
  | fuel + 1, s => if 2 < s then decide (L ≤ s / 2) && skips L fuel (u64 (s * 2)) else true

theorem commonNOuter_skip (L : Nat) (t : Temp) :
    ∀ fuel s, skips L fuel s = true → commonNOuter L fuel s t = .ok (some t)
  | 0, _, h => by simp [skips] at h
  | fuel + 1, s, h => by
    unfold skips at h
    unfold commonNOuter
    by_cases hs : 2 < s
    · rw [if_pos hs] at h ⊢
      rw [Bool.and_eq_true, decide_eq_true_eq] at h
      rw [commonNInner, dif_neg (by omega)]
      exact commonNOuter_skip L t fuel _ h.2
    · rw [if_neg hs]

/-- `log2_ceil` of the numbers of operands that fit into the stack array. -/
theorem log2Ceil_small : ∀ n, 1 ≤ n → n ≤ 64 →
    log2Ceil n = (if n ≤ 2 then 2 else if n ≤ 6 then 3 else if n ≤ 14 then 4
      else if n ≤ 30 then 5 else if n ≤ 62 then 6 else 7) := by
  intro n h1 h2
  unfold log2Ceil
  rw [log2Floor_eq (by omega)]
  interval_cases n <;> decide

/-- The first round of the outer loop combines the entries 0 and `L / 2`. -/
theorem commonNInner_first {L a b : Nat} {t : Temp} (hL : 3 ≤ L) (h0 : t 0 = some a)
    (h1 : t (L / 2) = some b) :
    commonNInner L (L / 2) L 0 (L / 2) t = .ok (t.set 0 (common a b)) := by
  rw [commonNInner, dif_pos (by omega)]
  simp only [Nat.sub_self, Temp.get, h0, h1, Res.ok_bind]
  rw [commonNInner, dif_neg (by omega)]

end Align

/-- What `Alignment_calculate_commonN` returns for 3 to 64 operands: the common alignment of the
first operand and of one other, at position `L / 2` where `L = log2_ceil( n )`.  The other operands
are ignored. -/
theorem C14_commonN_value (numbers : List Nat) (h3 : 3 ≤ numbers.length)
    (h64 : numbers.length ≤ 64) :
    ∃ (h0 : 0 < numbers.length) (hm : log2Ceil numbers.length / 2 < numbers.length),
      commonN numbers =
        .ok (common numbers[0] (numbers[log2Ceil numbers.length / 2])) := by
  have hL := log2Ceil_small numbers.length (by omega) h64
  have hL3 : 3 ≤ log2Ceil numbers.length ∧ log2Ceil numbers.length ≤ 7 ∧
      log2Ceil numbers.length / 2 < numbers.length := by
    rw [hL]
    split_ifs <;> omega
  obtain ⟨ha, hb, hc⟩ := hL3
  refine ⟨by omega, hc, ?_⟩
  unfold commonN
  simp only
  rw [if_neg (by omega)]
  generalize log2Ceil numbers.length = L at ha hb hc
  have e0 : commonNInit numbers L 0 = some numbers[0] := by
    unfold commonNInit
    rw [if_pos (by omega), List.getElem?_eq_getElem (by omega)]
  have e1 : commonNInit numbers L (L / 2) = some numbers[L / 2] := by
    unfold commonNInit
    rw [if_pos hc, List.getElem?_eq_getElem hc]
  have hskip : skips L 69 (u64 (L * 2)) = true := by
    interval_cases L <;> decide
  rw [commonNOuter, if_pos (by omega), commonNInner_first ha e0 e1]
  simp only [Res.ok_bind]
  rw [commonNOuter_skip L _ 69 _ hskip]
  simp [Temp.get, Temp.set]

/-- **C14**: for at most one operand `Alignment_calculate_commonN` is right. -/
theorem C14_commonN_partial (x : Nat) : commonN [] = .ok 1 ∧ commonN [x] = .ok x := by
  constructor
  · decide
  · unfold commonN
    have : log2Ceil [x].length = 2 := log2Ceil_small 1 (by omega) (by omega)
    simp only [this]
    rw [if_neg (by simp), commonNOuter, if_neg (by omega)]
    rfl

/-- **C14 is false of the code**: for two operands only the first is returned; more than 64
operands are written past the end of the stack array (undefined behaviour); and for any number of
operands from 3 to 64 at least one operand does not influence the result, so that the result is
not a common multiple. -/
theorem C14_commonN_violated :
    (∀ a b : Nat, commonN [a, b] = .ok a) ∧
    (∀ numbers : List Nat, 64 < numbers.length → commonN numbers = .ub) ∧
    (∀ n, 3 ≤ n → n ≤ 64 → ∃ (i : Nat) (numbers : List Nat) (m : Nat), numbers.length = n ∧
      commonN numbers = .ok m ∧ ∃ hi : i < numbers.length, 0 < numbers[i] ∧ ¬ numbers[i] ∣ m) := by
  refine ⟨fun a b => ?_, fun numbers h => ?_, fun n h3 h64 => ?_⟩
  · unfold commonN
    have : log2Ceil [a, b].length = 2 := log2Ceil_small 2 (by omega) (by omega)
    simp only [this]
    rw [if_neg (by simp), commonNOuter, if_neg (by omega)]
    rfl
  · unfold commonN
    simp only
    rw [if_pos h]
  · have hlen : (List.replicate (n - 1) 1 ++ [2]).length = n := by simp; omega
    obtain ⟨h0, hm, hv⟩ := C14_commonN_value (List.replicate (n - 1) 1 ++ [2]) (by omega) (by omega)
    have hL := log2Ceil_small n (by omega) h64
    have hlt : log2Ceil n / 2 < n - 1 := by
      rw [hL]
      split_ifs <;> omega
    refine ⟨n - 1, _, _, hlen, hv, by omega, ?_, ?_⟩
    · simp
    · have e0 : (List.replicate (n - 1) 1 ++ [2])[0] = 1 := by
        rw [List.getElem_append_left (by simp; omega)]
        simp
      have e1 : (List.replicate (n - 1) 1 ++ [2])[log2Ceil
          (List.replicate (n - 1) 1 ++ [2]).length / 2] = 1 := by
        have : log2Ceil (List.replicate (n - 1) 1 ++ [2]).length / 2 < n - 1 := by
          rw [hlen]; exact hlt
        rw [List.getElem_append_left (by simpa using this)]
        simp
      rw [e0, e1]
      have : common 1 1 = 1 := by unfold common; rw [C14_lcm_partial _ _ (by decide)]; rfl
      rw [this]
      simp

end SixTrack
