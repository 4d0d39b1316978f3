import Verif.CerrfFar
import Verif.CerrfNear
import Verif.Props.GaussField

/-!
# Property C59: the complex error function `cerrf`

`w` is the exact complex error function.  Numbers are exact real numbers.
-/

namespace SixTrack
open Beam Complex Elem

theorem Beam.IsFaddeeva.re_real {w : ℂ → ℂ} (hw : IsFaddeeva w) (x : ℝ) : (w ⟨x, 0⟩).re = Real.exp (-x ^ 2) := by
  have e : (⟨x, 0⟩ : ℂ) = (x : ℂ) := rfl
  have h1 := hw.neg x
  have h2 := hw.conj x
  rw [conj_ofReal, h1] at h2
  have h3 := congrArg Complex.re h2
  have h4 : (Complex.exp (-(x : ℂ) ^ 2)).re = Real.exp (-x ^ 2) := by
    rw [show (-(x : ℂ) ^ 2) = ((-x ^ 2 : ℝ) : ℂ) by push_cast; ring, exp_ofReal_re]
  rw [conj_re, sub_re, show (2 : ℂ) = ((2 : ℝ) : ℂ) by norm_num, re_ofReal_mul, h4] at h3
  rw [e]
  linarith

/-- What is known of the first quadrant. -/
theorem cerrfQuad_ok {x y : ℝ} (hx : 0 ≤ x) (hy : 0 ≤ y) : ∃ v : ℝ × ℝ, cerrfQuad x y = .ok v ∧
    (x = 0 → v.2 = 0) ∧ (y = 0 → v.1 = Real.exp (-x ^ 2)) ∧
    ∀ w, IsFaddeeva w → 533 / 100 ≤ x ∨ 429 / 100 ≤ y → ‖toC v - w ⟨x, y⟩‖ ≤ 1 / 10 ^ 9 := by
  have hexp : Real.exp (-x * x) = Real.exp (-x ^ 2) := by congr 1; ring
  by_cases h : y < 429 / 100 ∧ x < 533 / 100
  · obtain ⟨s, r, h1, h2, h3, -, h5⟩ := cerrfNear_ok hx h.2 hy h.1
    refine ⟨(if y = 0 then Real.exp (-x * x) else aConst * s.1, aConst * s.2), ?_, fun h0 => ?_, fun h0 => ?_,
      fun w _ hf => ?_⟩
    · rw [cerrfQuad, if_pos (by rw [yLim_eq, xLim_eq]; exact h), h1, Res.ok_bind]
      rfl
    · subst h0
      have hr := cut_real (u := cfU (y + 8 / 5 * nearQ 0 y) 0) (by simp) h3 h5
      have hs : (toC s).im = 0 := by
        have hN := nearN_le (nearQ_pos le_rfl h.2 h.1).le (nearQ_le le_rfl h.2 hy h.1)
        rw [h2, im_sum]
        refine Finset.sum_eq_zero fun m hm => ?_
        have hm' := Finset.mem_range.mp hm
        rw [im_ofReal_mul]
        have : ∀ n, n ≤ m + 1 → (∏ i ∈ Finset.range n, r i).im = 0 := by
          intro n
          induction n with
          | zero => simp
          | succ n ih =>
            intro hn
            rw [Finset.prod_range_succ, mul_im, ih (by omega), hr n (by omega)]
            simp
        rw [this _ le_rfl, mul_zero]
      rw [toC_im] at hs
      simp [hs]
    · simp only [h0, if_true]
      exact hexp
    · rcases hf with hf | hf
      · exact absurd h.2 (not_lt.mpr hf)
      · exact absurd h.1 (not_lt.mpr hf)
  · obtain ⟨b, r, h1, h2, h3, h4, h5, h6⟩ := cerrfFar_ok hy h
    refine ⟨(if y = 0 then Real.exp (-x * x) else aConst * b.1, aConst * b.2), ?_, fun h0 => ?_, fun h0 => ?_,
      fun w hw hf => ?_⟩
    · rw [cerrfQuad, if_neg (by rw [yLim_eq, xLim_eq]; exact h), h1, Res.ok_bind]
      rfl
    · subst h0
      have := cut_real (u := cfU y 0) (by simp) h3 h4 0 (by norm_num)
      rw [h2, toC_im] at this
      simp [this]
    · simp only [h0, if_true]
      exact hexp
    · have he := scaled_error hw h5 h6
      have hle : (113 / 100 * (6 / 10 ^ 10) + 1 / 10 ^ 14 : ℝ) ≤ 1 / 10 ^ 9 := by norm_num
      have e0 : ((aConst : ℝ) : ℂ) * toC b = toC (aConst * b.1, aConst * b.2) := by
        apply Complex.ext
        · rw [re_ofReal_mul]; rfl
        · rw [im_ofReal_mul]; rfl
      rw [e0] at he
      refine le_trans ?_ (he.trans hle)
      by_cases h0 : y = 0
      · subst h0
        rw [if_pos rfl, hexp]
        have hre : (w ⟨x, 0⟩).re = Real.exp (-x ^ 2) := by
          have := hw.re_real x
          exact this
        rw [norm_def, norm_def]
        apply Real.sqrt_le_sqrt
        rw [normSq_apply, normSq_apply]
        simp only [sub_re, sub_im, toC_re, toC_im, hre]
        nlinarith [mul_self_nonneg (aConst * b.1 - Real.exp (-x ^ 2))]
      · rw [if_neg h0]

/-- The error in the first quadrant. -/
theorem cerrfQuad_error {w : ℂ → ℂ} (hw : IsFaddeeva w) {x y : ℝ} (hx : 0 ≤ x) (hy : 0 ≤ y) {v : ℝ × ℝ}
    (hv : cerrfQuad x y = .ok v) : ‖toC v - w ⟨x, y⟩‖ ≤ 1 / 10 ^ 8 := by
  by_cases h : y < 429 / 100 ∧ x < 533 / 100
  · obtain ⟨s, r, h1, h2, h3, -, h5⟩ := cerrfNear_ok hx h.2 hy h.1
    have hn := near_error hx h.2 hy h.1 h3 h5
    rw [← h2] at hn
    have hv' : v = (if y = 0 then Real.exp (-x * x) else aConst * s.1, aConst * s.2) := by
      rw [cerrfQuad, if_pos (by rw [yLim_eq, xLim_eq]; exact h), h1, Res.ok_bind] at hv
      exact (Res.ok.inj hv).symm
    have hm : ‖mom (cfU y x) 0‖ ≤ 9 / 10 := by
      have e0 : -I * (⟨x, y⟩ : ℂ) = cfU y x := by
        apply Complex.ext <;> simp
      have h6 := hw.norm_le (z := ⟨x, y⟩) hy
      obtain ⟨h7, -⟩ := two_div_sqrt_pi
      rw [hw.mom, e0, norm_mul, norm_real, Real.norm_eq_abs, abs_of_pos (by positivity)] at h6
      have h8 := norm_nonneg (mom (cfU y x) 0)
      by_contra hc
      push Not at hc
      rw [aConst_eq] at h7
      nlinarith
    have hs : ‖toC s‖ ≤ 1 := by
      have h6 : toC s = mom (cfU y x) 0 - (mom (cfU y x) 0 - toC s) := by ring
      rw [h6]
      refine (norm_sub_le _ _).trans ((add_le_add hm hn).trans ?_)
      norm_num
    have he := scaled_error hw hn hs
    have hle : (113 / 100 * (85 / 10 ^ 10) + 1 / 10 ^ 14 : ℝ) ≤ 1 / 10 ^ 8 := by norm_num
    have e0 : ((aConst : ℝ) : ℂ) * toC s = toC (aConst * s.1, aConst * s.2) := by
      apply Complex.ext
      · rw [re_ofReal_mul]; rfl
      · rw [im_ofReal_mul]; rfl
    rw [e0] at he
    refine le_trans ?_ (he.trans hle)
    rw [hv']
    by_cases h0 : y = 0
    · subst h0
      have hre := hw.re_real x
      rw [if_pos rfl, norm_def, norm_def]
      apply Real.sqrt_le_sqrt
      rw [normSq_apply, normSq_apply]
      simp only [sub_re, sub_im, toC_re, toC_im, hre]
      rw [show -x * x = -x ^ 2 by ring]
      nlinarith [mul_self_nonneg (aConst * s.1 - Real.exp (-x ^ 2))]
    · rw [if_neg h0]
  · obtain ⟨v', h1, -, -, h2⟩ := cerrfQuad_ok hx hy
    rw [hv] at h1
    rw [Res.ok.inj h1]
    refine (h2 w hw ?_).trans (by norm_num)
    by_contra hc
    push Not at hc
    exact h ⟨hc.2, hc.1⟩

/-- `cerrf` from its value in the first quadrant. -/
theorem cerrf_eq (x y : ℝ) {v : ℝ × ℝ} (h : cerrfQuad |x| |y| = .ok v) :
    cerrf x y = .ok (if y < 0 then
        (2 * Real.exp (y ^ 2 - x ^ 2) * Real.cos (2 * |x| * |y|) - v.1,
          if 0 < x then 2 * Real.exp (y ^ 2 - x ^ 2) * Real.sin (2 * |x| * |y|) + v.2
          else -(2 * Real.exp (y ^ 2 - x ^ 2) * Real.sin (2 * |x| * |y|)) - v.2)
      else (v.1, if x < 0 then -v.2 else v.2)) := by
  have he : Real.exp (|y| * |y| - |x| * |x|) = Real.exp (y ^ 2 - x ^ 2) := by
    rw [abs_mul_abs_self, abs_mul_abs_self, sq, sq]
  have hc : ∀ t : ℝ, RealOps.cos t = Real.cos t := fun _ => rfl
  have hs : ∀ t : ℝ, RealOps.sin t = Real.sin t := fun _ => rfl
  have hx : ∀ t : ℝ, Beam.exp t = Real.exp t := fun _ => rfl
  simp only [cerrf, fabs_eq]
  rw [h, Res.ok_bind]
  split_ifs <;> simp only [Res.pure_eq, hc, hs, hx, he, Nat.cast_ofNat, Res.ok.injEq, Prod.mk.injEq, true_and] <;> ring

/-- `cerrf` never reads or writes outside of its arrays, never reads an entry which has not been set, and never
divides by zero. -/
theorem C59_defined (x y : ℝ) : ∃ v, cerrf x y = .ok v := by
  obtain ⟨v, h, -⟩ := cerrfQuad_ok (abs_nonneg x) (abs_nonneg y)
  exact ⟨_, cerrf_eq x y h⟩

/-- `w(-conj z) = conj w(z)`. -/
theorem C59_mirror {x y : ℝ} {v : ℝ × ℝ} (hv : cerrf x y = .ok v) : cerrf (-x) y = .ok (v.1, -v.2) := by
  obtain ⟨q, h, h0, -⟩ := cerrfQuad_ok (abs_nonneg x) (abs_nonneg y)
  have h' : cerrfQuad |-x| |y| = .ok q := by rw [abs_neg]; exact h
  rw [cerrf_eq x y h] at hv
  rw [cerrf_eq (-x) y h', ← Res.ok.inj hv, neg_sq, abs_neg]
  congr 1
  rcases lt_trichotomy x 0 with hx | hx | hx
  · have h1 : ¬ 0 < x := not_lt.mpr hx.le
    have h2 : 0 < -x := by linarith
    have h3 : ¬ -x < 0 := by linarith
    split_ifs <;> simp <;> ring
  · subst hx
    have := h0 (by simp)
    split_ifs <;> simp [this]
  · have h1 : ¬ x < 0 := not_lt.mpr hx.le
    have h2 : ¬ 0 < -x := by linarith
    have h3 : -x < 0 := by linarith
    split_ifs <;> simp <;> ring

example : ∃ v : ℝ × ℝ, cerrf 1 2 = .ok v ∧ cerrf (-1) 2 = .ok (v.1, -v.2) := by
  obtain ⟨v, h⟩ := C59_defined 1 2
  exact ⟨v, h, C59_mirror h⟩

/-- `w(-z) = 2 exp(-z²) - w(z)`. -/
theorem C59_reflected {x y : ℝ} {v : ℝ × ℝ} (hv : cerrf x y = .ok v) :
    ∃ v' : ℝ × ℝ, cerrf (-x) (-y) = .ok v' ∧ toC v' = 2 * Complex.exp (-(⟨x, y⟩ : ℂ) ^ 2) - toC v := by
  obtain ⟨q, h, h0, h1, -⟩ := cerrfQuad_ok (abs_nonneg x) (abs_nonneg y)
  have h' : cerrfQuad |-x| |-y| = .ok q := by rw [abs_neg, abs_neg]; exact h
  rw [cerrf_eq x y h] at hv
  refine ⟨_, cerrf_eq (-x) (-y) h', ?_⟩
  rw [← Res.ok.inj hv, neg_sq, neg_sq, abs_neg, abs_neg]
  have hz : -(⟨x, y⟩ : ℂ) ^ 2 = ⟨y ^ 2 - x ^ 2, -(2 * x * y)⟩ := by
    rw [sq]
    apply Complex.ext <;> simp <;> ring
  have hE : 2 * Complex.exp (-(⟨x, y⟩ : ℂ) ^ 2) =
      ⟨2 * Real.exp (y ^ 2 - x ^ 2) * Real.cos (2 * x * y), -(2 * Real.exp (y ^ 2 - x ^ 2) * Real.sin (2 * x * y))⟩ := by
    rw [hz]
    apply Complex.ext
    · rw [show (2 : ℂ) = ((2 : ℝ) : ℂ) by norm_num, re_ofReal_mul, exp_re, Real.cos_neg]
      ring
    · rw [show (2 : ℂ) = ((2 : ℝ) : ℂ) by norm_num, im_ofReal_mul, exp_im, Real.sin_neg]
      ring
  rw [hE]
  have hcos : Real.cos (2 * |x| * |y|) = Real.cos (2 * x * y) := by
    rw [mul_assoc, ← abs_mul, mul_assoc, ← Real.cos_abs (2 * (x * y)), abs_mul 2, abs_two]
  rcases lt_trichotomy y 0 with hy | hy | hy
  · have n1 : ¬ -y < 0 := by linarith
    rw [if_neg n1, if_pos hy, hcos]
    rcases lt_trichotomy x 0 with hx | hx | hx
    · have n2 : ¬ -x < 0 := by linarith
      have n3 : ¬ 0 < x := by linarith
      rw [if_neg n2, if_neg n3, abs_of_neg hx, abs_of_neg hy, show 2 * -x * -y = 2 * x * y by ring]
      apply Complex.ext <;> simp [toC]
    · subst hx
      have := h0 (by simp)
      apply Complex.ext <;> simp [toC, this]
    · have n2 : -x < 0 := by linarith
      rw [if_pos n2, if_pos hx, abs_of_pos hx, abs_of_neg hy, show 2 * x * -y = -(2 * x * y) by ring, Real.sin_neg]
      apply Complex.ext <;> simp [toC]
  · subst hy
    have e1 := h1 (by simp)
    rw [sq_abs] at e1
    rcases lt_trichotomy x 0 with hx | hx | hx
    · have n2 : ¬ -x < 0 := by linarith
      apply Complex.ext <;> simp [toC, n2, hx, e1]
      ring
    · subst hx
      have := h0 (by simp)
      apply Complex.ext <;> simp [toC, this, e1]
      norm_num
    · have n3 : ¬ x < 0 := by linarith
      apply Complex.ext <;> simp [toC, hx, n3, e1]
      ring
  · have n1 : -y < 0 := by linarith
    have n4 : ¬ y < 0 := by linarith
    rw [if_pos n1, if_neg n4, hcos]
    rcases lt_trichotomy x 0 with hx | hx | hx
    · have n2 : 0 < -x := by linarith
      rw [if_pos n2, if_pos hx, abs_of_neg hx, abs_of_pos hy, show 2 * -x * y = -(2 * x * y) by ring, Real.sin_neg]
      apply Complex.ext <;> simp [toC]
    · subst hx
      have := h0 (by simp)
      apply Complex.ext <;> simp [toC, this]
    · have n2 : ¬ 0 < -x := by linarith
      have n3 : ¬ x < 0 := by linarith
      rw [if_neg n2, if_neg n3, abs_of_pos hx, abs_of_pos hy]
      apply Complex.ext <;> simp [toC]

example : ∃ v v' : ℝ × ℝ, cerrf 1 2 = .ok v ∧ cerrf (-1) (-2) = .ok v' ∧
    toC v' = 2 * Complex.exp (-(⟨1, 2⟩ : ℂ) ^ 2) - toC v := by
  obtain ⟨v, h⟩ := C59_defined 1 2
  obtain ⟨v', h1, h2⟩ := C59_reflected h
  exact ⟨v, v', h, h1, h2⟩

/-- On the real axis the real part is `exp(-x²)`. -/
theorem C59_real_axis {x : ℝ} {v : ℝ × ℝ} (hv : cerrf x 0 = .ok v) : v.1 = Real.exp (-x ^ 2) := by
  obtain ⟨q, h, -, h1, -⟩ := cerrfQuad_ok (abs_nonneg x) (abs_nonneg 0)
  rw [cerrf_eq x 0 h] at hv
  rw [← Res.ok.inj hv]
  have := h1 (by simp)
  rw [sq_abs] at this
  simp [this]

example : ∃ v : ℝ × ℝ, cerrf 3 0 = .ok v ∧ v.1 = Real.exp (-9) := by
  obtain ⟨v, h⟩ := C59_defined 3 0
  exact ⟨v, h, by rw [C59_real_axis h]; norm_num⟩

/-- On the imaginary axis the imaginary part is zero. -/
theorem C59_imaginary_axis {y : ℝ} {v : ℝ × ℝ} (hv : cerrf 0 y = .ok v) : v.2 = 0 := by
  obtain ⟨q, h, h0, -⟩ := cerrfQuad_ok (abs_nonneg 0) (abs_nonneg y)
  rw [cerrf_eq 0 y h] at hv
  rw [← Res.ok.inj hv]
  have := h0 (by simp)
  split_ifs <;> simp [this]

example : ∃ v : ℝ × ℝ, cerrf 0 (-7) = .ok v ∧ v.2 = 0 := by
  obtain ⟨v, h⟩ := C59_defined 0 (-7)
  exact ⟨v, h, C59_imaginary_axis h⟩

/-- An error bound in the first quadrant holds everywhere. -/
theorem cerrf_error {w : ℂ → ℂ} (hw : IsFaddeeva w) {x y e : ℝ}
    (h : ∀ q, cerrfQuad |x| |y| = .ok q → ‖toC q - w ⟨|x|, |y|⟩‖ ≤ e) :
    ∃ v, cerrf x y = .ok v ∧ ‖toC v - w ⟨x, y⟩‖ ≤ e := by
  obtain ⟨q, hq, -⟩ := cerrfQuad_ok (abs_nonneg x) (abs_nonneg y)
  have h0 := h q hq
  have s1 : cerrf |x| |y| = .ok q := by
    have := cerrf_eq |x| |y| (v := q) (by rw [abs_abs, abs_abs]; exact hq)
    rwa [if_neg (not_lt.mpr (abs_nonneg y)), if_neg (not_lt.mpr (abs_nonneg x))] at this
  have s2 : ∀ x', |x'| = |x| → ∃ v, cerrf x' |y| = .ok v ∧ ‖toC v - w ⟨x', |y|⟩‖ ≤ e := by
    intro x' hx'
    rcases abs_choice x' with hc | hc
    · rw [← hc, hx']
      exact ⟨q, s1, h0⟩
    · have hc' : x' = -|x| := by rw [← hx', hc, neg_neg]
      refine ⟨_, by rw [hc']; exact C59_mirror s1, ?_⟩
      have e1 : (⟨x', |y|⟩ : ℂ) = -(starRingEnd ℂ) ⟨|x|, |y|⟩ := by
        rw [hc']
        apply Complex.ext <;> simp
      have e2 : toC (q.1, -q.2) = (starRingEnd ℂ) (toC q) := by
        apply Complex.ext <;> simp
      rw [e1, hw.conj, e2, ← map_sub, norm_conj]
      exact h0
  rcases abs_choice y with hc | hc
  · rw [hc] at s2
    exact s2 x rfl
  · obtain ⟨v, hv, he⟩ := s2 (-x) (abs_neg x)
    rw [hc] at hv he
    obtain ⟨v', hv', e'⟩ := C59_reflected hv
    rw [neg_neg, neg_neg] at hv'
    refine ⟨v', hv', ?_⟩
    have e1 : (⟨x, y⟩ : ℂ) = -⟨-x, -y⟩ := by
      apply Complex.ext <;> simp
    rw [e', e1, hw.neg]
    rw [show ∀ a b c : ℂ, a - b - (a - c) = -(b - c) by intros; ring, norm_neg]
    exact he

/-- The error is at most `10⁻⁸` everywhere. -/
theorem C59_accuracy {w : ℂ → ℂ} (hw : IsFaddeeva w) (x y : ℝ) :
    ∃ v, cerrf x y = .ok v ∧ ‖toC v - w ⟨x, y⟩‖ ≤ 1e-8 :=
  cerrf_error hw fun _ hq => (cerrfQuad_error hw (abs_nonneg x) (abs_nonneg y) hq).trans (by norm_num)

example : ∃ w, IsFaddeeva w ∧ ∃ v, cerrf (1 / 3) (-2) = .ok v ∧ ‖toC v - w ⟨1 / 3, -2⟩‖ ≤ 1e-8 := by
  obtain ⟨w, hw⟩ := exists_faddeeva
  exact ⟨w, hw, C59_accuracy hw _ _⟩

/-- Outside of the rectangle `|x| < 5.33`, `|y| < 4.29` the error is at most `10⁻⁹`. -/
theorem C59_outside {w : ℂ → ℂ} (hw : IsFaddeeva w) {x y : ℝ} (h : 5.33 ≤ |x| ∨ 4.29 ≤ |y|) :
    ∃ v, cerrf x y = .ok v ∧ ‖toC v - w ⟨x, y⟩‖ ≤ 1e-9 := by
  refine cerrf_error hw fun q hq => ?_
  obtain ⟨q', h1, -, -, h2⟩ := cerrfQuad_ok (abs_nonneg x) (abs_nonneg y)
  rw [hq] at h1
  have h1' := Res.ok.inj h1
  rw [h1']
  refine (h2 w hw ?_).trans (by norm_num)
  norm_num at h ⊢
  exact h

example : ∃ w, IsFaddeeva w ∧ ∃ v, cerrf (-6) 1 = .ok v ∧ ‖toC v - w ⟨-6, 1⟩‖ ≤ 1e-9 := by
  obtain ⟨w, hw⟩ := exists_faddeeva
  exact ⟨w, hw, C59_outside hw (Or.inl (by norm_num))⟩

theorem cerrf_approximates {w : ℂ → ℂ} (hw : IsFaddeeva w) : Approximates w 1e-8 cerrf := by
  intro u v _ _
  obtain ⟨p, h1, h2⟩ := C59_accuracy hw u v
  exact ⟨p, h1, (abs_re_le_norm (toC p - w ⟨u, v⟩)).trans h2, (abs_im_le_norm (toC p - w ⟨u, v⟩)).trans h2⟩

/-- The field which the code gives with `cerrf` differs from the field of the Gaussian beam, which solves Maxwell's
equations by C58, by at most `10⁻⁸` of its scale. -/
theorem C59_field {w : ℂ → ℂ} (hw : IsFaddeeva w) {minDiff sx sy : ℝ} (hx : 0 < sx) (hy : 0 < sy) (hne : sx ≠ sy)
    (hd : minDiff ≤ |sx - sy|) (x y : ℝ) :
    ∃ E E' : ℝ × ℝ, gaussE (wRes w) minDiff sx sy x y = .ok E ∧ gaussE cerrf minDiff sx sy x y = .ok E' ∧
      |E'.1 - E.1| ≤ 1e-8 / (8.854187817620e-12 * Real.sqrt (2 * Real.pi * |sx ^ 2 - sy ^ 2|)) ∧
      |E'.2 - E.2| ≤ 1e-8 / (8.854187817620e-12 * Real.sqrt (2 * Real.pi * |sx ^ 2 - sy ^ 2|)) :=
  C58_error hw (cerrf_approximates hw) hx hy hne hd x y

example : ∃ w, IsFaddeeva w ∧ ∃ E E' : ℝ × ℝ, gaussE (wRes w) 1e-10 2 1 (1 / 2) 3 = .ok E ∧
    gaussE cerrf 1e-10 2 1 (1 / 2) 3 = .ok E' := by
  obtain ⟨w, hw⟩ := exists_faddeeva
  obtain ⟨E, E', h1, h2, -⟩ := C59_field hw (minDiff := 1e-10) (sx := 2) (sy := 1) (by norm_num) (by norm_num) (by norm_num)
    (by norm_num) (1 / 2) 3
  exact ⟨w, hw, E, E', h1, h2⟩

end SixTrack
