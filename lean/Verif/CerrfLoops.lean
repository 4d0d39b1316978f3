import Verif.BeamFieldsReal
import Verif.RayIntegral

/-!
# The loops of `cerrf`

The continued fraction and the sum of `cerrf` as complex numbers.
-/

namespace SixTrack
namespace Beam

open Complex

/-- A pair of real numbers as a complex number. -/
def toC (a : ℝ × ℝ) : ℂ := ⟨a.1, a.2⟩

@[simp] theorem toC_re (a : ℝ × ℝ) : (toC a).re = a.1 := rfl
@[simp] theorem toC_im (a : ℝ × ℝ) : (toC a).im = a.2 := rfl

/-- `-i z` for `z = yh + i xh`. -/
def cfU (xh yh : ℝ) : ℂ := ⟨xh, -yh⟩

@[simp] theorem cfU_re (x y : ℝ) : (cfU x y).re = x := rfl
@[simp] theorem cfU_im (x y : ℝ) : (cfU x y).im = -y := rfl

theorem dec_half : (dec 5 1 : ℝ) = 1 / 2 := by norm_num [dec]

/-- One step of the continued fraction. -/
theorem cfStep_ok {xh yh : ℝ} {n : ℕ} {a : ℝ × ℝ} (h : cfU xh yh + n * toC a ≠ 0) :
    ∃ b, cfStep xh yh n a = .ok b ∧ toC b = 1 / (2 * (cfU xh yh + n * toC a)) ∧
      b.1 = (xh + n * a.1) / (2 * normSq (cfU xh yh + n * toC a)) ∧
      b.2 = (yh - n * a.2) / (2 * normSq (cfU xh yh + n * toC a)) := by
  have hn : (xh + n * a.1) * (xh + n * a.1) + (yh - n * a.2) * (yh - n * a.2) = normSq (cfU xh yh + n * toC a) := by
    rw [normSq_apply]
    simp
    ring
  have h0 := normSq_pos.mpr h
  refine ⟨((xh + n * a.1) / (2 * normSq (cfU xh yh + n * toC a)),
    (yh - n * a.2) / (2 * normSq (cfU xh yh + n * toC a))), ?_, ?_, rfl, rfl⟩
  · simp only [cfStep]
    rw [hn, cdiv_ok h0.ne', cdiv_ok h0.ne', dec_half]
    simp only [Res.ok_bind, Res.pure_eq]
    congr 2 <;> field_simp
  · apply Complex.ext
    · rw [one_div, inv_re]
      simp only [toC_re]
      rw [map_mul]
      simp [normSq_apply]
      field_simp
    · rw [one_div, inv_im]
      simp only [toC_im]
      rw [map_mul]
      simp [normSq_apply]
      field_simp
      ring

theorem cfU_add_ne {xh yh : ℝ} (hx : 0 < xh) (n : ℕ) {a : ℝ × ℝ} (ha : 0 ≤ a.1) : cfU xh yh + n * toC a ≠ 0 := by
  intro h
  have := congrArg Complex.re h
  simp at this
  have h1 : 0 ≤ (n : ℝ) * a.1 := by positivity
  linarith

/-- The entries of the arrays as complex numbers; entries which are not initialised do not occur. -/
def entry (r : Arr ℝ) (i : ℕ) : ℂ := toC ((r i).getD (0, 0))

/-- The first loop fills the entries below `n` with the continued fraction. -/
theorem cfLoop_ok {xh yh : ℝ} (hx : 0 < xh) : ∀ (n : ℕ) (r : Arr ℝ) (a : ℝ × ℝ), n < 33 → r n = some a → 0 ≤ a.1 →
    ∃ r', cfLoop xh yh n r = .ok r' ∧ (∀ i, n ≤ i → r' i = r i) ∧
      (∀ k, k ≤ n → ∃ v, r' k = some v ∧ 0 ≤ v.1) ∧
      ∀ k, k < n → cfU xh yh + (k + 1) * entry r' (k + 1) ≠ 0 ∧
        entry r' k = 1 / (2 * (cfU xh yh + (k + 1) * entry r' (k + 1)))
  | 0, r, a, _, h, ha => ⟨r, rfl, fun _ _ => rfl, fun k hk => by
      obtain rfl : k = 0 := by omega
      exact ⟨a, h, ha⟩, fun k hk => absurd hk (by omega)⟩
  | n + 1, r, a, hn, h, ha => by
    have hne := cfU_add_ne (yh := yh) hx (n + 1) ha
    obtain ⟨b, hb, hbC, hb1, -⟩ := cfStep_ok hne
    have hb0 : 0 ≤ b.1 := by
      rw [hb1]
      have := normSq_pos.mpr hne
      have : 0 ≤ ((n + 1 : ℕ) : ℝ) * a.1 := by positivity
      positivity
    obtain ⟨r', h1, h2, h3, h4⟩ := cfLoop_ok hx n (Function.update r n (some b)) b (by omega) (by simp) hb0
    refine ⟨r', ?_, fun i hi => ?_, fun k hk => ?_, fun k hk => ?_⟩
    · have e1 : rdR r ((n : Int) + 1) = .ok a := by
        simp only [rdR]
        rw [if_pos (by omega), show ((n : Int) + 1).toNat = n + 1 by omega, h]
      have e2 : wrR r (n : Int) b = .ok (Function.update r n (some b)) := by
        simp only [wrR]
        rw [if_pos (by omega), Int.toNat_natCast]
      rw [cfLoop, e1, Res.ok_bind, hb, Res.ok_bind, e2, Res.ok_bind, h1]
    · rw [h2 i (by omega), Function.update_of_ne (by omega)]
    · by_cases hk' : k ≤ n
      · exact h3 k hk'
      · obtain rfl : k = n + 1 := by omega
        exact ⟨a, by rw [h2 _ (by omega), Function.update_of_ne (by omega), h], ha⟩
    · by_cases hk' : k < n
      · exact h4 k hk'
      · obtain rfl : k = n := by omega
        have e1 : entry r' (k + 1) = toC a := by
          rw [entry, h2 _ (by omega), Function.update_of_ne (by omega), h]
          rfl
        have e2 : entry r' k = toC b := by
          rw [entry, h2 _ le_rfl]
          simp
        rw [e1, e2, hbC]
        push_cast at hne ⊢
        exact ⟨hne, rfl⟩

/-- The second loop sums the products of the entries. -/
theorem sumLoop_ok (h : ℝ) (r : Arr ℝ) : ∀ (n : ℕ) (xl sx sy : ℝ), n < 34 → (∀ k, k < n → ∃ v, r k = some v) →
    ∃ s, sumLoop h r n xl sx sy = .ok s ∧
      toC s = (∏ i ∈ Finset.range n, entry r i) * toC (sx, sy) +
        ∑ m ∈ Finset.range n, (xl * h ^ (n - 1 - m) : ℝ) * ∏ i ∈ Finset.range (m + 1), entry r i
  | 0, xl, sx, sy, _, _ => ⟨(sx, sy), rfl, by simp⟩
  | n + 1, xl, sx, sy, hn, hr => by
    obtain ⟨a, ha⟩ := hr n (by omega)
    obtain ⟨s, h1, h2⟩ := sumLoop_ok h r n (h * xl) (a.1 * (sx + xl) - a.2 * sy) (a.1 * sy + a.2 * (sx + xl))
      (by omega) (fun k hk => hr k (by omega))
    refine ⟨s, ?_, ?_⟩
    · have e1 : rdR r (n : Int) = .ok a := by
        simp only [rdR]
        rw [if_pos (by omega), Int.toNat_natCast, ha]
      rw [sumLoop, e1, Res.ok_bind, h1]
    · have e2 : entry r n = toC a := by rw [entry, ha]; rfl
      have e3 : toC (a.1 * (sx + xl) - a.2 * sy, a.1 * sy + a.2 * (sx + xl)) = toC a * (toC (sx, sy) + (xl : ℂ)) := by
        apply Complex.ext <;> simp [toC]
      rw [h2, e3, Finset.sum_range_succ, Finset.prod_range_succ, e2]
      have e4 : ∑ m ∈ Finset.range n, ((h * xl) * h ^ (n - 1 - m) : ℝ) * ∏ i ∈ Finset.range (m + 1), entry r i =
          ∑ m ∈ Finset.range n, ((xl * h ^ (n + 1 - 1 - m) : ℝ) : ℂ) * ∏ i ∈ Finset.range (m + 1), entry r i := by
        refine Finset.sum_congr rfl fun m hm => ?_
        have hm' := Finset.mem_range.mp hm
        rw [show n + 1 - 1 - m = (n - 1 - m) + 1 by omega, pow_succ]
        push_cast
        ring
      push_cast at e4 ⊢
      rw [e4]
      simp
      ring

/-! ### The limits of the loops -/

theorem xLim_eq : (xLim : ℝ) = 533 / 100 := by norm_num [xLim, dec]
theorem yLim_eq : (yLim : ℝ) = 429 / 100 := by norm_num [yLim, dec]
theorem aConst_eq : (aConst : ℝ) = 112837916709551 / 100000000000000 := by norm_num [aConst, dec]

/-- The number `q`. -/
noncomputable def nearQ (x y : ℝ) : ℝ := (1 - y / (429 / 100)) * Real.sqrt (1 - (x / (533 / 100)) * (x / (533 / 100)))

theorem nearQ_arg {x : ℝ} (hx : 0 ≤ x) (hx' : x < 533 / 100) : 0 < 1 - (x / (533 / 100)) * (x / (533 / 100)) := by
  have h1 : x / (533 / 100) < 1 := by rw [div_lt_one (by norm_num)]; exact hx'
  have h0 : 0 ≤ x / (533 / 100) := by positivity
  nlinarith

theorem nearQ_pos {x y : ℝ} (hx : 0 ≤ x) (hx' : x < 533 / 100) (hy' : y < 429 / 100) : 0 < nearQ x y := by
  have h1 := Real.sqrt_pos.mpr (nearQ_arg hx hx')
  have h2 : 0 < 1 - y / (429 / 100) := by rw [sub_pos, div_lt_one (by norm_num)]; exact hy'
  exact mul_pos h2 h1

theorem nearQ_le {x y : ℝ} (hx : 0 ≤ x) (hx' : x < 533 / 100) (hy : 0 ≤ y) (hy' : y < 429 / 100) : nearQ x y ≤ 1 := by
  have h1 : Real.sqrt (1 - (x / (533 / 100)) * (x / (533 / 100))) ≤ 1 := by
    rw [Real.sqrt_le_one]
    nlinarith [mul_self_nonneg (x / (533 / 100))]
  have h0 := Real.sqrt_nonneg (1 - (x / (533 / 100)) * (x / (533 / 100)))
  have h2 : 0 ≤ y / (429 / 100) := by positivity
  have h3 : 0 < 1 - y / (429 / 100) := by rw [sub_pos, div_lt_one (by norm_num)]; exact hy'
  unfold nearQ
  nlinarith

theorem trunc_eq {a : ℝ} (h : 0 ≤ a) : FieldOps.trunc a = (⌊a⌋₊ : Int) := by
  show (if 0 ≤ a then ⌊a⌋ else ⌈a⌉) = _
  rw [if_pos h, Int.natCast_floor_eq_floor h]

/-- The number of terms and where the continued fraction starts. -/
noncomputable def nearN (q : ℝ) : ℕ := 7 + ⌊23 * q⌋₊
noncomputable def nearNu (q : ℝ) : ℕ := 10 + ⌊21 * q⌋₊

theorem nearNu_le {q : ℝ} (h1 : q ≤ 1) : nearNu q ≤ 31 := by
  have : ⌊21 * q⌋₊ ≤ 21 := Nat.floor_le_of_le (by push_cast; linarith)
  unfold nearNu
  omega

theorem nearN_le {q : ℝ} (h0 : 0 ≤ q) (h1 : q ≤ 1) : nearN q ≤ nearNu q := by
  have h2 : (⌊23 * q⌋₊ : ℝ) ≤ 23 * q := Nat.floor_le (by linarith)
  have h3 : 21 * q < ⌊21 * q⌋₊ + 1 := Nat.lt_floor_add_one _
  have h4 : (⌊23 * q⌋₊ : ℝ) < ⌊21 * q⌋₊ + 3 := by linarith
  have h5 : ⌊23 * q⌋₊ < ⌊21 * q⌋₊ + 3 := by exact_mod_cast h4
  unfold nearN nearNu
  omega

/-- The first branch of `cerrf` is defined; its value is a truncated series of a truncated continued
fraction. -/
theorem cerrfNear_ok {x y : ℝ} (hx : 0 ≤ x) (hx' : x < 533 / 100) (hy : 0 ≤ y) (hy' : y < 429 / 100) :
    ∃ (s : ℝ × ℝ) (r : ℕ → ℂ), cerrfNear x y = .ok (aConst * s.1, aConst * s.2) ∧
      toC s = ∑ m ∈ Finset.range (nearN (nearQ x y)), ((16 / 5 * nearQ x y) ^ m : ℝ) * ∏ i ∈ Finset.range (m + 1), r i ∧
      r (nearNu (nearQ x y)) = 0 ∧ (∀ k, k ≤ nearNu (nearQ x y) → 0 ≤ (r k).re) ∧
      ∀ k, k < nearNu (nearQ x y) → cfU (y + 8 / 5 * nearQ x y) x + (k + 1) * r (k + 1) ≠ 0 ∧
        r k = 1 / (2 * (cfU (y + 8 / 5 * nearQ x y) x + (k + 1) * r (k + 1))) := by
  have hq := nearQ_pos hx hx' hy'
  have hq1 := nearQ_le hx hx' hy hy'
  set q := nearQ x y with hqd
  have hnu := nearNu_le hq1
  have hN := nearN_le hq.le hq1
  have hxh : 0 < y + 8 / 5 * q := by positivity
  set r0 : Arr ℝ := Function.update (fun _ => none) (nearNu q) (some (0, 0)) with hr0
  obtain ⟨r, h1, h2, h3, h4⟩ := cfLoop_ok (yh := x) hxh (nearNu q) r0 (0, 0) (by omega) (by simp [hr0]) le_rfl
  have hh : 1 / (dec 32 1 * q) = 5 / (16 * q) := by
    norm_num [dec]
    field_simp
  obtain ⟨s, h5, h6⟩ := sumLoop_ok (5 / (16 * q)) r (nearN q) ((5 / (16 * q)) ^ (1 - (nearN q : ℤ))) 0 0 (by omega)
    (fun k hk => by obtain ⟨v, hv, -⟩ := h3 k (by omega); exact ⟨v, hv⟩)
  refine ⟨s, entry r, ?_, ?_, ?_, ?_, h4⟩
  · have e1 : csqrt (1 - (x / xLim) * (x / xLim)) =
        .ok (Real.sqrt (1 - (x / (533 / 100)) * (x / (533 / 100)))) := by
      rw [xLim_eq, csqrt_ok (nearQ_arg hx hx').le]
    have e2 : (1 - y / yLim) * Real.sqrt (1 - (x / (533 / 100)) * (x / (533 / 100))) = q := by
      rw [yLim_eq, hqd, nearQ]
    have e3 : cdiv 1 (dec 32 1 * q) = .ok (5 / (16 * q)) := by
      rw [cdiv_ok, hh]
      norm_num [dec]
      positivity
    have e4 : (7 : Int) + FieldOps.trunc (((23 : Nat) : ℝ) * q) = (nearN q : Int) := by
      rw [trunc_eq (by positivity)]
      simp [nearN]
    have e5 : (10 : Int) + FieldOps.trunc (((21 : Nat) : ℝ) * q) = (nearNu q : Int) := by
      rw [trunc_eq (by positivity)]
      simp [nearNu]
    have e6 : cdiv (dec 5 1) (5 / (16 * q)) = .ok (8 / 5 * q) := by
      rw [cdiv_ok (by positivity), dec_half]
      congr 1
      field_simp
      norm_num
    have e7 : wrR (fun _ => none) (nearNu q : Int) (0, 0) = .ok r0 := by
      simp only [wrR]
      rw [if_pos (by omega), Int.toNat_natCast]
    simp only [cerrfNear]
    rw [e1, Res.ok_bind, e2, e3, Res.ok_bind, e4, e5, e6, Res.ok_bind, e7, Res.ok_bind, Int.toNat_natCast, h1,
      Res.ok_bind, Int.toNat_natCast, powi_real, h5, Res.ok_bind, Res.pure_eq]
  · rw [h6]
    have e0 : toC (0, 0) = 0 := rfl
    rw [e0, mul_zero, zero_add]
    refine Finset.sum_congr rfl fun m hm => ?_
    have hm' := Finset.mem_range.mp hm
    congr 2
    have hz : (5 / (16 * q)) ≠ 0 := by positivity
    rw [← zpow_natCast, ← zpow_add₀ hz, show (1 - (nearN q : ℤ) + ((nearN q - 1 - m : ℕ) : ℤ)) = -(m : ℤ) by omega,
      zpow_neg, zpow_natCast, ← inv_pow]
    congr 1
    field_simp
  · rw [entry, h2 _ le_rfl]
    simp [hr0, toC]
    rfl
  · intro k hk
    obtain ⟨v, hv, hv0⟩ := h3 k hk
    rw [entry, hv]
    exact hv0

/-- The loop of the second branch above the real axis. -/
theorem farLoop_ok {xh yh : ℝ} (P : ℕ → ℝ × ℝ → Prop)
    (hP : ∀ n a, P (n + 1) a → cfU xh yh + ((n + 1 : ℕ) : ℂ) * toC a ≠ 0 ∧
      ∀ b, toC b = 1 / (2 * (cfU xh yh + ((n + 1 : ℕ) : ℂ) * toC a)) → P n b) :
    ∀ (n : ℕ) (a : ℝ × ℝ), P n a → ∃ (b : ℝ × ℝ) (r : ℕ → ℂ), farLoop xh yh n a = .ok b ∧ r 0 = toC b ∧ r n = toC a ∧
      (∀ k, k ≤ n → ∃ v, r k = toC v ∧ P k v) ∧
      ∀ k, k < n → cfU xh yh + (k + 1) * r (k + 1) ≠ 0 ∧ r k = 1 / (2 * (cfU xh yh + (k + 1) * r (k + 1)))
  | 0, a, h => ⟨a, fun _ => toC a, rfl, rfl, rfl, fun k hk => by
      obtain rfl : k = 0 := by omega
      exact ⟨a, rfl, h⟩, fun k hk => absurd hk (by omega)⟩
  | n + 1, a, h => by
    obtain ⟨hne, hnext⟩ := hP n a h
    obtain ⟨b, hb, hbC, -⟩ := cfStep_ok hne
    obtain ⟨c, r, h1, h2, h3, h4, h5⟩ := farLoop_ok P hP n b (hnext b hbC)
    refine ⟨c, Function.update r (n + 1) (toC a), ?_, ?_, by simp, fun k hk => ?_, fun k hk => ?_⟩
    · rw [farLoop, hb, Res.ok_bind, h1]
    · rw [Function.update_of_ne (by omega), h2]
    · by_cases hk' : k = n + 1
      · subst hk'
        exact ⟨a, by simp, h⟩
      · obtain ⟨v, hv, hp⟩ := h4 k (by omega)
        exact ⟨v, by rw [Function.update_of_ne hk', hv], hp⟩
    · by_cases hk' : k < n
      · rw [Function.update_of_ne (by omega), Function.update_of_ne (by omega)]
        exact h5 k hk'
      · obtain rfl : k = n := by omega
        rw [Function.update_self, Function.update_of_ne (by omega), h3, hbC]
        push_cast at hne ⊢
        exact ⟨hne, rfl⟩

/-! ### The error of the continued fraction -/

/-- The error of a continued fraction which is cut off at `N`. -/
theorem cut_error {u : ℂ} {r : ℕ → ℂ} {N : ℕ} (h0 : r N = 0)
    (hr : ∀ k, k < N → u + (k + 1) * r (k + 1) ≠ 0 ∧ r k = 1 / (2 * (u + (k + 1) * r (k + 1)))) :
    mom u 0 - r 0 = (∏ k ∈ Finset.range N, (-2 * (k + 1) * r k)) * mom u N := by
  have hr' : ∀ k, k < N → 2 * r k * (u + (k + 1) * r (k + 1)) = 1 := by
    intro k hk
    obtain ⟨h1, h2⟩ := hr k hk
    rw [h2]
    field_simp
  have key : ∀ j, j ≤ N → N = j + (N - j) →
      mom u (N - j) - r (N - j) * (if N - j = 0 then 1 else mom u (N - j - 1)) =
      (∏ k ∈ Finset.Ico (N - j) N, (-2 * (k + 1) * r k)) * mom u N := by
    intro j
    induction j with
    | zero => intro _ _; simp [h0]
    | succ j ih =>
      intro hj _
      have ih' := ih (by omega) (by omega)
      obtain ⟨n, hn⟩ : ∃ n, N - j = n + 1 := ⟨N - j - 1, by omega⟩
      have hn' : N - (j + 1) = n := by omega
      have hnN : n < N := by omega
      rw [hn] at ih'
      rw [hn', Finset.prod_eq_prod_Ico_succ_bot hnN, mul_assoc, ← ih']
      have h1 := hr' n hnN
      rw [if_neg (Nat.succ_ne_zero n), Nat.add_sub_cancel]
      by_cases hz : n = 0
      · subst hz
        have h2 := mom_one u
        simp only [if_true, Nat.cast_zero, zero_add, mul_one] at h1 ⊢
        linear_combination (-mom u 0) * h1 - r 0 * h2
      · obtain ⟨m, rfl⟩ := Nat.exists_eq_succ_of_ne_zero hz
        have h2 := mom_succ u m
        rw [if_neg hz, Nat.succ_sub_one]
        simp only [Nat.succ_eq_add_one] at h1 ⊢
        push_cast at h1 ⊢
        rw [show m + 1 + 1 = m + 2 from rfl] at h1 ⊢
        linear_combination (-mom u (m + 1)) * h1 - r (m + 1) * h2
  have := key N le_rfl (by omega)
  simpa using this

end Beam
end SixTrack
