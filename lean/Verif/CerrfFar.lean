import Verif.CerrfLoops
import Mathlib.Analysis.Real.Pi.Bounds

/-!
# The second branch of `cerrf`

It is defined, and close to the complex error function.
-/

namespace SixTrack
namespace Beam

open Complex

/-- The error of the cut continued fraction when the denominators are not small. -/
theorem cut_error_le {u : ℂ} {r : ℕ → ℂ} {N : ℕ} (t : ℕ → ℝ) (h0 : r N = 0)
    (hr : ∀ k, k < N → u + (k + 1) * r (k + 1) ≠ 0 ∧ r k = 1 / (2 * (u + (k + 1) * r (k + 1))))
    (ht : ∀ k, k < N → 0 < t k ∧ t k ≤ ‖u + (k + 1) * r (k + 1)‖) :
    ‖mom u 0 - r 0‖ ≤ (∏ k ∈ Finset.range N, (1 / t k)) * ‖ray 1 N u‖ := by
  have hf : ∏ k ∈ Finset.range N, ‖(-2 * (k + 1) * r k : ℂ)‖ ≤ N.factorial * ∏ k ∈ Finset.range N, (1 / t k) := by
    rw [← Finset.prod_range_add_one_eq_factorial, Nat.cast_prod, ← Finset.prod_mul_distrib]
    refine Finset.prod_le_prod (fun _ _ => norm_nonneg _) fun k hk => ?_
    have hk' := Finset.mem_range.mp hk
    obtain ⟨h1, h2⟩ := hr k hk'
    obtain ⟨h3, h4⟩ := ht k hk'
    have e : (-2 * (k + 1) * r k : ℂ) = -((k + 1 : ℕ) : ℂ) * (1 / (u + (k + 1) * r (k + 1))) := by
      rw [h2]
      push_cast
      field_simp
    rw [e, norm_mul, norm_neg, norm_natCast, norm_div, norm_one]
    refine mul_le_mul_of_nonneg_left ?_ (by positivity)
    exact one_div_le_one_div_of_le h3 h4
  rw [cut_error h0 hr, norm_mul, norm_prod, mom, norm_div, norm_natCast]
  have hN : (0 : ℝ) < N.factorial := by exact_mod_cast N.factorial_pos
  calc (∏ k ∈ Finset.range N, ‖(-2 * (k + 1) * r k : ℂ)‖) * (‖ray 1 N u‖ / N.factorial)
      ≤ (N.factorial * ∏ k ∈ Finset.range N, (1 / t k)) * (‖ray 1 N u‖ / N.factorial) :=
        mul_le_mul_of_nonneg_right hf (by positivity)
    _ = _ := by field_simp

/-- The continued fraction of a real number is real. -/
theorem cut_real {u : ℂ} (hu : u.im = 0) {r : ℕ → ℂ} {N : ℕ} (h0 : r N = 0)
    (hr : ∀ k, k < N → u + (k + 1) * r (k + 1) ≠ 0 ∧ r k = 1 / (2 * (u + (k + 1) * r (k + 1)))) :
    ∀ k, k ≤ N → (r k).im = 0 := by
  have key : ∀ j, j ≤ N → (r (N - j)).im = 0 := by
    intro j
    induction j with
    | zero => intro _; simp [h0]
    | succ j ih =>
      intro hj
      have ih' := ih (by omega)
      have e : N - j = N - (j + 1) + 1 := by omega
      rw [e] at ih'
      rw [(hr (N - (j + 1)) (by omega)).2, one_div, inv_im]
      simp [hu, ih']
  intro k hk
  have := key (N - k) (by omega)
  rwa [show N - (N - k) = k by omega] at this

/-! ### The constant -/

theorem two_div_sqrt_pi : aConst ≤ 2 / Real.sqrt Real.pi ∧ 2 / Real.sqrt Real.pi ≤ aConst + 1 / 10 ^ 14 := by
  have hq : 0 < Real.sqrt Real.pi := Real.sqrt_pos.mpr Real.pi_pos
  have h1 := Real.pi_gt_d20
  have h2 := Real.pi_lt_d20
  rw [aConst_eq]
  constructor
  · rw [le_div_iff₀ hq, ← Real.sqrt_sq (show (0:ℝ) ≤ 112837916709551 / 100000000000000 by norm_num),
      ← Real.sqrt_mul (by positivity), show (2 : ℝ) = Real.sqrt 4 by
        rw [show (4 : ℝ) = 2 ^ 2 by norm_num, Real.sqrt_sq (by norm_num)]]
    apply Real.sqrt_le_sqrt
    nlinarith
  · rw [div_le_iff₀ hq, ← Real.sqrt_sq (show (0:ℝ) ≤ 112837916709551 / 100000000000000 + 1 / 10 ^ 14 by norm_num),
      ← Real.sqrt_mul (by positivity), show (2 : ℝ) = Real.sqrt 4 by
        rw [show (4 : ℝ) = 2 ^ 2 by norm_num, Real.sqrt_sq (by norm_num)]]
    apply Real.sqrt_le_sqrt
    nlinarith

/-- From the error of the sum to the error of the result. -/
theorem scaled_error {w : ℂ → ℂ} (hw : IsFaddeeva w) {x y : ℝ} {s : ℂ} {e : ℝ} (h : ‖mom (cfU y x) 0 - s‖ ≤ e)
    (hs : ‖s‖ ≤ 1) : ‖((aConst : ℝ) : ℂ) * s - w ⟨x, y⟩‖ ≤ 113 / 100 * e + 1 / 10 ^ 14 := by
  obtain ⟨h1, h2⟩ := two_div_sqrt_pi
  have e0 : -I * (⟨x, y⟩ : ℂ) = cfU y x := by
    apply Complex.ext <;> simp
  rw [hw.mom, e0]
  have e1 : ((aConst : ℝ) : ℂ) * s - ((2 / Real.sqrt Real.pi : ℝ) : ℂ) * mom (cfU y x) 0 =
      -(((2 / Real.sqrt Real.pi : ℝ) : ℂ) * (mom (cfU y x) 0 - s)) - ((2 / Real.sqrt Real.pi - aConst : ℝ) : ℂ) * s := by
    push_cast; ring
  rw [e1]
  refine (norm_sub_le _ _).trans ?_
  have ha := aConst_eq
  have hp : 0 < 2 / Real.sqrt Real.pi := by rw [ha] at h1; linarith
  rw [norm_neg, norm_mul, norm_mul, norm_real, norm_real, Real.norm_eq_abs, Real.norm_eq_abs, abs_of_pos hp,
    abs_of_nonneg (by linarith)]
  refine add_le_add ?_ ?_
  · refine mul_le_mul ?_ h (norm_nonneg _) (by norm_num)
    rw [ha] at h2
    norm_num at h2 ⊢
    linarith
  · calc (2 / Real.sqrt Real.pi - aConst) * ‖s‖ ≤ (1 / 10 ^ 14) * 1 :=
        mul_le_mul (by linarith) hs (norm_nonneg _) (by norm_num)
      _ = _ := by ring

/-! ### Above the first branch -/

theorem norm_ge_re {u : ℂ} {r : ℂ} (k : ℕ) (hr : 0 ≤ r.re) : u.re ≤ ‖u + (k + 1) * r‖ := by
  have h1 := re_le_norm (u + (k + 1) * r)
  have e : ((k : ℂ) + 1) = (((k : ℝ) + 1 : ℝ) : ℂ) := by push_cast; ring
  rw [e, add_re, re_ofReal_mul] at h1
  rw [e]
  have : 0 ≤ ((k : ℝ) + 1) * r.re := by positivity
  linarith

theorem norm_step {u r0 r1 : ℂ} (k : ℕ) (h : r0 = 1 / (2 * (u + (k + 1) * r1))) (hT : 1 ≤ ‖u + (k + 1) * r1‖) :
    ‖r0‖ ≤ 1 := by
  rw [h, norm_div, norm_one, norm_mul, Complex.norm_ofNat, div_le_one (by linarith)]
  linarith

/-- The loop of the second branch, `y > 0`. -/
theorem far_up {x y : ℝ} (hy : 0 < y) : ∃ (b : ℝ × ℝ) (r : ℕ → ℂ), farLoop y x 9 (0, 0) = .ok b ∧ r 0 = toC b ∧ r 9 = 0 ∧
    (∀ k, k ≤ 9 → 0 ≤ (r k).re) ∧
    ∀ k, k < 9 → cfU y x + (k + 1) * r (k + 1) ≠ 0 ∧ r k = 1 / (2 * (cfU y x + (k + 1) * r (k + 1))) := by
  obtain ⟨b, r, h1, h2, h3, h4, h5⟩ := farLoop_ok (xh := y) (yh := x) (fun _ a => 0 ≤ a.1) (fun n a ha => by
    have hne := cfU_add_ne (yh := x) hy (n + 1) ha
    refine ⟨hne, fun b hb => ?_⟩
    have := congrArg Complex.re hb
    rw [toC_re, one_div, inv_re] at this
    rw [this]
    refine div_nonneg ?_ (normSq_nonneg _)
    have h0 : 0 ≤ ((n + 1 : ℕ) : ℝ) * a.1 := by positivity
    have e : (2 * (cfU y x + ((n + 1 : ℕ) : ℂ) * toC a)).re = 2 * (y + ((n + 1 : ℕ) : ℝ) * a.1) := by
      rw [← ofReal_natCast, show (2 : ℂ) = ((2 : ℝ) : ℂ) by norm_num, re_ofReal_mul, add_re, re_ofReal_mul]
      rfl
    rw [e]
    positivity) 9 (0, 0) le_rfl
  refine ⟨b, r, h1, h2, by rw [h3]; rfl, fun k hk => ?_, h5⟩
  obtain ⟨v, hv, hv0⟩ := h4 k hk
  rw [hv]
  exact hv0

theorem far_up_error {x y : ℝ} (hy : 429 / 100 ≤ y) {r : ℕ → ℂ} (h0 : r 9 = 0) (hre : ∀ k, k ≤ 9 → 0 ≤ (r k).re)
    (hr : ∀ k, k < 9 → cfU y x + (k + 1) * r (k + 1) ≠ 0 ∧ r k = 1 / (2 * (cfU y x + (k + 1) * r (k + 1)))) :
    ‖mom (cfU y x) 0 - r 0‖ ≤ 6 / 10 ^ 10 ∧ ‖r 0‖ ≤ 1 := by
  have hT : ∀ k, k < 9 → 429 / 100 ≤ ‖cfU y x + (k + 1) * r (k + 1)‖ := fun k hk =>
    hy.trans (norm_ge_re (u := cfU y x) k (hre (k + 1) (by omega)))
  constructor
  · refine (cut_error_le (fun _ => 429 / 100) h0 hr fun k hk => ⟨by norm_num, hT k hk⟩).trans ?_
    have hn := norm_ray_le (c := 1) (by simp) (by simp) 9 (u := cfU y x) (by simp; linarith)
    have hp : (2 * (429 / 100) : ℝ) ^ 10 ≤ (2 * (cfU y x * 1).re) ^ (9 + 1) := by
      simp only [mul_one, cfU_re]
      gcongr
    have h1 : ‖ray 1 9 (cfU y x)‖ ≤ (Nat.factorial 9 : ℝ) / (2 * (429 / 100)) ^ 10 :=
      hn.trans (div_le_div_of_nonneg_left (by positivity) (by norm_num) hp)
    rw [Finset.prod_const, Finset.card_range]
    refine (mul_le_mul_of_nonneg_left h1 (by positivity)).trans ?_
    norm_num [Nat.factorial]
  · exact norm_step 0 (hr 0 (by norm_num)).2 (le_trans (by norm_num) (hT 0 (by norm_num)))

/-! ### To the right of the first branch -/

/-- Lower bounds of the denominators. -/
noncomputable def farT : ℕ → ℝ
  | 9 => 533 / 100 | 8 => 457 / 100 | 7 => 456 / 100 | 6 => 467 / 100 | 5 => 479 / 100
  | 4 => 491 / 100 | 3 => 502 / 100 | 2 => 513 / 100 | 1 => 523 / 100 | _ => 0

/-- The loop of the second branch, `x` large. -/
theorem far_right {x y : ℝ} (hx : 533 / 100 ≤ x) :
    ∃ (b : ℝ × ℝ) (r : ℕ → ℂ), farLoop y x 9 (0, 0) = .ok b ∧ r 0 = toC b ∧ r 9 = 0 ∧
    (∀ k, k < 9 → farT (k + 1) ≤ ‖cfU y x + (k + 1) * r (k + 1)‖) ∧
    ∀ k, k < 9 → cfU y x + (k + 1) * r (k + 1) ≠ 0 ∧ r k = 1 / (2 * (cfU y x + (k + 1) * r (k + 1))) := by
  have him : ∀ (n : ℕ) (a : ℝ × ℝ), (cfU y x + (n : ℂ) * toC a).im = -(x - n * a.2) := by
    intro n a
    rw [← ofReal_natCast, add_im, im_ofReal_mul]
    simp
    ring
  have hTpos : ∀ n, n < 9 → 0 < farT (n + 1) := by
    intro n hn
    interval_cases n <;> norm_num [farT]
  have hTle : ∀ n, n < 9 → farT n + n / (2 * farT (n + 1)) ≤ 533 / 100 := by
    intro n hn
    interval_cases n <;> norm_num [farT]
  obtain ⟨b, r, h1, h2, h3, h4, h5⟩ := farLoop_ok (xh := y) (yh := x)
    (fun n a => n ≤ 9 ∧ farT n ≤ x - n * a.2) (fun n a ha => by
    obtain ⟨hn, ha⟩ := ha
    have hp := hTpos n (by omega)
    have hne : cfU y x + ((n + 1 : ℕ) : ℂ) * toC a ≠ 0 := by
      intro h
      have := congrArg Complex.im h
      rw [him, zero_im] at this
      linarith
    refine ⟨hne, fun b hb => ⟨by omega, ?_⟩⟩
    have hi := congrArg Complex.im hb
    have hi1 := him (n + 1) a
    set T := cfU y x + ((n + 1 : ℕ) : ℂ) * toC a with hT
    have hsq : T.im * T.im ≤ normSq T := by
      rw [normSq_apply]
      nlinarith [mul_self_nonneg T.re]
    set t := x - ((n + 1 : ℕ) : ℝ) * a.2 with ht
    have hb2 : b.2 = t / (2 * normSq T) := by
      have h0 := normSq_pos.mpr hne
      rw [toC_im, one_div, inv_im, map_mul] at hi
      rw [hi]
      have : (2 * T).im = 2 * T.im := by simp
      rw [this, hi1]
      simp [normSq_apply]
      field_simp
    have htp : 0 < t := by linarith
    have hb3 : b.2 ≤ 1 / (2 * farT (n + 1)) := by
      rw [hi1] at hsq
      rw [hb2, div_le_div_iff₀ (by have := normSq_pos.mpr hne; linarith) (by linarith)]
      nlinarith
    have h6 := hTle n (by omega)
    have h7 : (n : ℝ) * b.2 ≤ n * (1 / (2 * farT (n + 1))) := mul_le_mul_of_nonneg_left hb3 (by positivity)
    rw [mul_one_div] at h7
    linarith) 9 (0, 0) ⟨le_rfl, by simpa [farT] using hx⟩
  refine ⟨b, r, h1, h2, by rw [h3]; rfl, fun k hk => ?_, h5⟩
  obtain ⟨v, hv, -, hv0⟩ := h4 (k + 1) (by omega)
  have h6 := abs_im_le_norm (cfU y x + ((k + 1 : ℕ) : ℂ) * toC v)
  rw [him, abs_neg] at h6
  rw [hv]
  push_cast at h6 hv0
  exact hv0.trans ((le_abs_self _).trans h6)

/-- A direction close to 45 degrees. -/
noncomputable def dir : ℂ := ⟨21 / 29, 20 / 29⟩

theorem dir_sq : 0 < (dir ^ 2).re := by
  rw [sq, mul_re]
  norm_num [dir]

theorem dir_norm : ‖dir‖ = 1 := by
  rw [norm_def, normSq_apply, Real.sqrt_eq_one]
  norm_num [dir]

theorem far_right_error {x y : ℝ} (hx : 533 / 100 ≤ x) (hy : 0 ≤ y) {r : ℕ → ℂ} (h0 : r 9 = 0)
    (hT : ∀ k, k < 9 → farT (k + 1) ≤ ‖cfU y x + (k + 1) * r (k + 1)‖)
    (hr : ∀ k, k < 9 → cfU y x + (k + 1) * r (k + 1) ≠ 0 ∧ r k = 1 / (2 * (cfU y x + (k + 1) * r (k + 1)))) :
    ‖mom (cfU y x) 0 - r 0‖ ≤ 6 / 10 ^ 10 ∧ ‖r 0‖ ≤ 1 := by
  constructor
  · refine (cut_error_le (fun k => farT (k + 1)) h0 hr fun k hk => ⟨?_, hT k hk⟩).trans ?_
    · interval_cases k <;> norm_num [farT]
    · have hre : (cfU y x * dir).re = (21 * y + 20 * x) / 29 := by
        rw [mul_re]
        simp [dir]
        ring
      have hn := norm_ray_le dir_sq dir_norm 9 (u := cfU y x) (by rw [hre]; linarith)
      rw [ray_eq dir_sq (by norm_num [dir])] at hn
      have hp : (2 * (20 * (533 / 100) / 29) : ℝ) ^ 10 ≤ (2 * (cfU y x * dir).re) ^ (9 + 1) := by
        rw [hre]
        gcongr
        linarith
      have h1 : ‖ray 1 9 (cfU y x)‖ ≤ (Nat.factorial 9 : ℝ) / (2 * (20 * (533 / 100) / 29)) ^ 10 :=
        hn.trans (div_le_div_of_nonneg_left (by positivity) (by norm_num) hp)
      refine (mul_le_mul_of_nonneg_left h1 (Finset.prod_nonneg fun k hk => ?_)).trans ?_
      · have hk' := Finset.mem_range.mp hk
        interval_cases k <;> norm_num [farT]
      · norm_num [Nat.factorial, Finset.prod_range_succ, farT]
  · exact norm_step 0 (hr 0 (by norm_num)).2 (le_trans (by norm_num [farT]) (hT 0 (by norm_num)))

/-- The second branch. -/
theorem cerrfFar_ok {x y : ℝ} (hy : 0 ≤ y) (h : ¬(y < 429 / 100 ∧ x < 533 / 100)) :
    ∃ (b : ℝ × ℝ) (r : ℕ → ℂ), cerrfFar x y = .ok (aConst * b.1, aConst * b.2) ∧ r 0 = toC b ∧ r 9 = 0 ∧
      (∀ k, k < 9 → cfU y x + (k + 1) * r (k + 1) ≠ 0 ∧ r k = 1 / (2 * (cfU y x + (k + 1) * r (k + 1)))) ∧
      ‖mom (cfU y x) 0 - toC b‖ ≤ 6 / 10 ^ 10 ∧ ‖toC b‖ ≤ 1 := by
  by_cases hy' : 429 / 100 ≤ y
  · obtain ⟨b, r, h1, h2, h3, h4, h5⟩ := far_up (x := x) (show 0 < y by linarith)
    refine ⟨b, r, ?_, h2, h3, h5, ?_⟩
    · rw [cerrfFar, h1, Res.ok_bind, Res.pure_eq]
    · rw [← h2]
      exact far_up_error hy' h3 h4 h5
  · have hx' : 533 / 100 ≤ x := by
      by_contra hc
      exact h ⟨lt_of_not_ge hy', lt_of_not_ge hc⟩
    obtain ⟨b, r, h1, h2, h3, h4, h5⟩ := far_right (y := y) hx'
    refine ⟨b, r, ?_, h2, h3, h5, ?_⟩
    · rw [cerrfFar, h1, Res.ok_bind, Res.pure_eq]
    · rw [← h2]
      exact far_right_error hx' hy h3 h4 h5

end Beam
end SixTrack
