import Verif.CerrfLoops
import Mathlib.Analysis.Calculus.MeanValue
import Mathlib.Analysis.Calculus.Deriv.MeanValue
import Mathlib.Analysis.SpecialFunctions.ExpDeriv

/-!
# The error of the continued fraction in the first branch of `cerrf`
-/

namespace SixTrack
namespace Beam

open Complex Set

/-- The recursion of the errors of the products. -/
structure ErrSeq (U : ℂ) (ν : ℕ) (e : ℕ → ℂ) : Prop where
  one : e 1 = -U * e 0
  succ : ∀ k, k + 2 ≤ ν → (k + 2) * e (k + 2) = e k / 2 - U * e (k + 1)

/-- The errors of the products of the cut continued fraction. -/
theorem errSeq_cut {U : ℂ} {r : ℕ → ℂ} {ν : ℕ} (hν : 1 ≤ ν)
    (hr : ∀ k, k < ν → U + (k + 1) * r (k + 1) ≠ 0 ∧ r k = 1 / (2 * (U + (k + 1) * r (k + 1)))) :
    ErrSeq U ν fun k => mom U k - ∏ i ∈ Finset.range (k + 1), r i := by
  have hr' : ∀ k, k < ν → 2 * r k * (U + (k + 1) * r (k + 1)) = 1 := by
    intro k hk
    obtain ⟨h1, h2⟩ := hr k hk
    rw [h2]
    field_simp
  constructor
  · have h1 := mom_one U
    have h2 := hr' 0 (by omega)
    simp only [Finset.prod_range_succ, Finset.prod_range_zero, one_mul, Nat.cast_zero, zero_add] at h2 ⊢
    linear_combination (-1 / 2) * h2 - (1 / 2) * h1
  · intro k hk
    have h1 := mom_succ U k
    have h2 := hr' (k + 1) (by omega)
    push_cast at h2
    simp only [Finset.prod_range_succ _ (k + 1), Finset.prod_range_succ _ (k + 2)]
    rw [show k + 1 + 1 = k + 2 from rfl] at h2
    linear_combination (-1 / 2) * h1 - (1 / 2) * (∏ i ∈ Finset.range (k + 1), r i) * h2

/-! ### The sum -/

theorem hasDerivAt_errSum {U : ℂ} {ν : ℕ} {e : ℕ → ℂ} (he : ErrSeq U ν e) : ∀ (n : ℕ), n + 1 ≤ ν → ∀ σ : ℝ,
    HasDerivAt (fun σ : ℝ => ∑ m ∈ Finset.range (n + 1), (σ : ℂ) ^ m * e m)
      ((σ / 2 - U) * (∑ m ∈ Finset.range (n + 1), (σ : ℂ) ^ m * e m) -
        ((n + 1) * (σ : ℂ) ^ n * e (n + 1) + (σ : ℂ) ^ (n + 1) * e n / 2)) σ := by
  intro n
  induction n with
  | zero =>
    intro _ σ
    have h := he.one
    simp only [zero_add, Finset.range_one, Finset.sum_singleton, pow_zero, one_mul, pow_one, Nat.cast_zero]
    refine (hasDerivAt_const σ (e 0)).congr_deriv ?_
    rw [h]
    ring
  | succ n ih =>
    intro hn σ
    have h1 : HasDerivAt (fun t : ℝ => (t : ℂ)) 1 σ := by simpa using (hasDerivAt_id σ).ofReal_comp
    have h2 := (ih (by omega) σ).add ((h1.pow (n + 1)).mul_const (e (n + 1)))
    have h3 := he.succ n (by omega)
    refine (h2.congr_of_eventuallyEq (Filter.Eventually.of_forall fun s => ?_)).congr_deriv ?_
    · rw [Finset.sum_range_succ _ (n + 1)]
      rfl
    · rw [Finset.sum_range_succ _ (n + 1)]
      push_cast
      linear_combination (σ : ℂ) ^ (n + 1) * h3

theorem errSum_le {U : ℂ} {ν : ℕ} {e : ℕ → ℂ} (he : ErrSeq U ν e) {n : ℕ} (hn : n + 1 ≤ ν) {s : ℝ} (hs : 0 ≤ s)
    (hsU : s ≤ 2 * U.re) :
    ‖∑ m ∈ Finset.range (n + 1), (s : ℂ) ^ m * e m‖ ≤
      ‖e 0‖ + (s ^ (n + 1) * ‖e (n + 1)‖ + s ^ (n + 2) * ‖e n‖ / (2 * (n + 2))) := by
  set F : ℝ → ℂ := fun σ => ∑ m ∈ Finset.range (n + 1), (σ : ℂ) ^ m * e m with hF
  set g : ℝ → ℂ := fun σ => Complex.exp (U * σ - σ ^ 2 / 4) with hg
  have hg' : ∀ σ : ℝ, HasDerivAt g ((U - σ / 2) * g σ) σ := by
    intro σ
    have h1 : HasDerivAt (fun t : ℝ => (t : ℂ)) 1 σ := by simpa using (hasDerivAt_id σ).ofReal_comp
    refine (((h1.const_mul U).sub ((h1.pow 2).div_const 4)).cexp).congr_deriv ?_
    simp only [hg, Pi.sub_apply, Pi.pow_apply, Nat.cast_ofNat]
    ring
  have hng : ∀ σ : ℝ, ‖g σ‖ = Real.exp (U.re * σ - σ ^ 2 / 4) := by
    intro σ
    simp only [hg]
    rw [norm_exp]
    congr 1
    have : U * σ - (σ : ℂ) ^ 2 / 4 = σ * U - ((σ ^ 2 / 4 : ℝ) : ℂ) := by push_cast; ring
    rw [this, sub_re, re_ofReal_mul, ofReal_re]
    ring
  set K := Real.exp (U.re * s - s ^ 2 / 4) with hK
  have hK0 : 0 < K := Real.exp_pos _
  have hK1 : 1 ≤ K := by
    rw [hK]
    apply Real.one_le_exp
    nlinarith
  have hle : ∀ σ, σ ∈ Ico 0 s → ‖g σ‖ ≤ K := by
    intro σ hσ
    rw [hng, hK]
    apply Real.exp_le_exp.mpr
    nlinarith [mul_nonneg (show 0 ≤ s - σ by linarith [hσ.2]) (show 0 ≤ U.re - (s + σ) / 4 by linarith [hσ.2])]
  have hH : ∀ σ : ℝ, HasDerivAt (fun σ => F σ * g σ)
      (-((n + 1) * (σ : ℂ) ^ n * e (n + 1) + (σ : ℂ) ^ (n + 1) * e n / 2) * g σ) σ := fun σ =>
    ((hasDerivAt_errSum he n hn σ).mul (hg' σ)).congr_deriv (by ring)
  set B : ℝ → ℝ := fun σ => ‖e 0‖ + K * (σ ^ (n + 1) * ‖e (n + 1)‖ + σ ^ (n + 2) * ‖e n‖ / (2 * (n + 2))) with hB
  have hB' : ∀ σ, HasDerivAt B (K * ((n + 1) * σ ^ n * ‖e (n + 1)‖ + σ ^ (n + 1) * ‖e n‖ / 2)) σ := by
    intro σ
    have h1 := ((hasDerivAt_pow (n + 1) σ).mul_const ‖e (n + 1)‖)
    have h2 := ((hasDerivAt_pow (n + 2) σ).mul_const ‖e n‖).div_const (2 * ((n : ℝ) + 2))
    refine (((h1.add h2).const_mul K).const_add ‖e 0‖).congr_deriv ?_
    push_cast
    have : (n : ℝ) + 2 ≠ 0 := by positivity
    field_simp
  have h := image_norm_le_of_norm_deriv_right_le_deriv_boundary (f := fun σ => F σ * g σ) (a := 0) (b := s)
    (f' := fun σ => -((n + 1) * (σ : ℂ) ^ n * e (n + 1) + (σ : ℂ) ^ (n + 1) * e n / 2) * g σ)
    (fun σ _ => (hH σ).continuousAt.continuousWithinAt) (fun σ _ => (hH σ).hasDerivWithinAt) (B := B) ?_ hB'
    (fun σ hσ => ?_) (right_mem_Icc.mpr hs)
  · have e1 : ‖F s * g s‖ = ‖F s‖ * K := by rw [norm_mul, hng]
    rw [e1] at h
    simp only [hB] at h
    set R := s ^ (n + 1) * ‖e (n + 1)‖ + s ^ (n + 2) * ‖e n‖ / (2 * (n + 2))
    have h2 : ‖F s‖ * K ≤ (‖e 0‖ + R) * K := by nlinarith [norm_nonneg (e 0)]
    exact le_of_mul_le_mul_right h2 hK0
  · have e0 : F 0 = e 0 := by
      simp only [hF]
      rw [Finset.sum_range_succ']
      simp
    have e1 : g 0 = 1 := by simp [hg]
    simp only [e0, e1, hB, mul_one]
    simp
  · have hσ0 : 0 ≤ σ := hσ.1
    rw [norm_mul, norm_neg, mul_comm]
    refine mul_le_mul (hle σ hσ) ((norm_add_le _ _).trans ?_) (norm_nonneg _) hK0.le
    have e1 : ‖((n : ℂ) + 1) * (σ : ℂ) ^ n * e (n + 1)‖ = (n + 1) * σ ^ n * ‖e (n + 1)‖ := by
      rw [norm_mul, norm_mul, norm_pow, norm_real, Real.norm_eq_abs, abs_of_nonneg hσ0]
      congr 2
      rw [show (n : ℂ) + 1 = ((n + 1 : ℕ) : ℂ) by push_cast; ring, Complex.norm_natCast]
      push_cast; ring
    have e2 : ‖(σ : ℂ) ^ (n + 1) * e n / 2‖ = σ ^ (n + 1) * ‖e n‖ / 2 := by
      rw [norm_div, norm_mul, norm_pow, norm_real, Real.norm_eq_abs, abs_of_nonneg hσ0, Complex.norm_ofNat]
    rw [e1, e2]

/-! ### The ratio of the errors -/

theorem err_re {U : ℂ} (hU : 0 < U.re) {ν : ℕ} {e : ℕ → ℂ} (he : ErrSeq U ν e) : ∀ k, k + 1 ≤ ν →
    U.re * normSq (e k) ≤ (k + 1) * (-(e (k + 1) * (starRingEnd ℂ) (e k))).re := by
  intro k
  induction k with
  | zero =>
    intro _
    rw [he.one]
    have : -(-U * e 0 * (starRingEnd ℂ) (e 0)) = U * (normSq (e 0) : ℂ) := by
      rw [← mul_conj]; ring
    simp only [zero_add, Nat.cast_zero, one_mul]
    rw [this, mul_comm U, re_ofReal_mul, mul_comm]
  | succ k ih =>
    intro hk
    have h1 := ih (by omega)
    have h2 := he.succ k (by omega)
    have h3 : ((k + 2 : ℝ) : ℂ) * (-(e (k + 2) * (starRingEnd ℂ) (e (k + 1)))) =
        (normSq (e (k + 1)) : ℂ) * U + ((1 / 2 : ℝ) : ℂ) * (-(e k * (starRingEnd ℂ) (e (k + 1)))) := by
      rw [← mul_conj]
      push_cast
      linear_combination (-(starRingEnd ℂ) (e (k + 1))) * h2
    have h4 := congrArg Complex.re h3
    rw [re_ofReal_mul, add_re, re_ofReal_mul, re_ofReal_mul] at h4
    have h5 : (-(e k * (starRingEnd ℂ) (e (k + 1)))).re = (-(e (k + 1) * (starRingEnd ℂ) (e k))).re := by
      simp [mul_re]
      ring
    have h6 : 0 ≤ (-(e (k + 1) * (starRingEnd ℂ) (e k))).re := by
      have : 0 ≤ U.re * normSq (e k) := mul_nonneg hU.le (normSq_nonneg _)
      have h7 : (0 : ℝ) < k + 1 := by positivity
      by_contra hc
      push Not at hc
      nlinarith
    push_cast
    rw [show (k : ℝ) + 1 + 1 = k + 2 by ring, show k + 1 + 1 = k + 2 from rfl, h4, h5]
    nlinarith

theorem err_ratio {U : ℂ} (hU : 0 < U.re) {ν : ℕ} {e : ℕ → ℂ} (he : ErrSeq U ν e) {k : ℕ} (hk : k + 1 ≤ ν) :
    U.re * ‖e k‖ ≤ (k + 1) * ‖e (k + 1)‖ := by
  have h1 := err_re hU he k hk
  have h2 := re_le_norm (-(e (k + 1) * (starRingEnd ℂ) (e k)))
  rw [norm_neg, norm_mul, norm_conj] at h2
  rw [normSq_eq_norm_sq] at h1
  have h3 : U.re * ‖e k‖ ^ 2 ≤ (k + 1) * (‖e (k + 1)‖ * ‖e k‖) :=
    h1.trans (mul_le_mul_of_nonneg_left h2 (by positivity))
  rcases (norm_nonneg (e k)).eq_or_lt with h0 | h0
  · rw [← h0, mul_zero]
    positivity
  · have h4 : U.re * ‖e k‖ * ‖e k‖ ≤ (k + 1) * ‖e (k + 1)‖ * ‖e k‖ := by nlinarith
    exact le_of_mul_le_mul_right h4 h0

theorem err_down {U : ℂ} (hU : 0 < U.re) {ν : ℕ} {e : ℕ → ℂ} (he : ErrSeq U ν e) : ∀ j, j ≤ ν →
    ((ν - j).factorial : ℝ) * U.re ^ j * ‖e (ν - j)‖ ≤ ν.factorial * ‖e ν‖ := by
  intro j
  induction j with
  | zero => intro _; simp
  | succ j ih =>
    intro hj
    have h1 := ih (by omega)
    obtain ⟨k, hk⟩ : ∃ k, ν - j = k + 1 := ⟨ν - j - 1, by omega⟩
    have hk' : ν - (j + 1) = k := by omega
    rw [hk'] at *
    rw [hk] at h1
    refine le_trans ?_ h1
    have h2 := err_ratio hU he (k := k) (by omega)
    rw [Nat.factorial_succ, pow_succ]
    push_cast
    have h3 : 0 ≤ (k.factorial : ℝ) * U.re ^ j := by positivity
    nlinarith [mul_le_mul_of_nonneg_left h2 h3]

/-! ### The polynomials -/

/-- The polynomials with `p' = n p`. -/
noncomputable def hp : ℕ → ℂ → ℂ
  | 0, _ => 1
  | 1, U => U
  | n + 2, U => U * hp (n + 1) U + (n + 1) / 2 * hp n U

theorem err_poly {U : ℂ} {ν : ℕ} {e : ℕ → ℂ} (he : ErrSeq U ν e) : ∀ k, k + 1 ≤ ν →
    (-1) ^ k * (k.factorial : ℂ) * e k = e 0 * hp k U ∧
    (-1) ^ (k + 1) * ((k + 1).factorial : ℂ) * e (k + 1) = e 0 * hp (k + 1) U := by
  intro k
  induction k with
  | zero =>
    intro _
    simp [hp, he.one]
    ring
  | succ k ih =>
    intro hk
    obtain ⟨h1, h2⟩ := ih (by omega)
    refine ⟨h2, ?_⟩
    have h3 := he.succ k (by omega)
    rw [show k + 1 + 1 = k + 2 from rfl, hp, mul_add, mul_left_comm, ← h2, mul_left_comm (e 0), ← h1]
    rw [Nat.factorial_succ (k + 1), Nat.factorial_succ k]
    push_cast
    rw [pow_succ (-1 : ℂ) (k + 1), pow_succ (-1 : ℂ) k]
    linear_combination ((-1) ^ k * ((k : ℂ) + 1) * (k.factorial : ℂ)) * h3

theorem err_zero {U : ℂ} {ν : ℕ} {e : ℕ → ℂ} (he : ErrSeq U ν e) (hν : 1 ≤ ν) :
    ‖e 0‖ * ‖hp ν U‖ = ν.factorial * ‖e ν‖ := by
  obtain ⟨k, rfl⟩ := Nat.exists_eq_add_of_le' hν
  have := (err_poly he k le_rfl).2
  rw [← norm_mul, ← this, norm_mul, norm_mul, norm_pow, norm_neg, norm_one, one_pow, one_mul, Complex.norm_natCast]

theorem hasDerivAt_hp (U : ℂ) : ∀ n, HasDerivAt (hp n) (n * hp (n - 1) U) U ∧
    HasDerivAt (hp (n + 1)) ((n + 1) * hp n U) U := by
  intro n
  induction n with
  | zero =>
    have e0 : hp 0 = fun _ => 1 := funext fun _ => rfl
    have e1 : hp (0 + 1) = id := funext fun _ => rfl
    rw [e0, e1]
    exact ⟨(hasDerivAt_const U (1 : ℂ)).congr_deriv (by simp), (hasDerivAt_id U).congr_deriv (by simp)⟩
  | succ n ih =>
    obtain ⟨h1, h2⟩ := ih
    refine ⟨by simpa using h2, ?_⟩
    have h3 := ((hasDerivAt_id U).mul h2).add (h1.const_mul (((n : ℂ) + 1) / 2))
    refine h3.congr_deriv ?_
    push_cast
    simp only [id]
    rcases n with _ | n
    · simp [hp]
      ring
    · simp only [Nat.add_sub_cancel]
      push_cast
      rw [hp]
      ring

/-- The quotient of two polynomials has a positive real part. -/
theorem hp_re {U : ℂ} (hU : 0 ≤ U.re) : ∀ n, U.re * normSq (hp n U) ≤ (hp (n + 1) U * (starRingEnd ℂ) (hp n U)).re := by
  intro n
  induction n with
  | zero => simp [hp]
  | succ n ih =>
    have h3 : hp (n + 2) U * (starRingEnd ℂ) (hp (n + 1) U) = (normSq (hp (n + 1) U) : ℂ) * U +
        (((n + 1) / 2 : ℝ) : ℂ) * (hp n U * (starRingEnd ℂ) (hp (n + 1) U)) := by
      rw [← mul_conj, hp]
      push_cast
      ring
    have h4 := congrArg Complex.re h3
    rw [add_re, re_ofReal_mul, re_ofReal_mul] at h4
    have h5 : (hp n U * (starRingEnd ℂ) (hp (n + 1) U)).re = (hp (n + 1) U * (starRingEnd ℂ) (hp n U)).re := by
      simp [mul_re]
      ring
    rw [show n + 1 + 1 = n + 2 from rfl, h4, h5]
    have h6 : 0 ≤ U.re * normSq (hp n U) := mul_nonneg hU (normSq_nonneg _)
    have h7 : (0 : ℝ) ≤ (n + 1) / 2 := by positivity
    nlinarith [mul_nonneg h7 (h6.trans ih)]

theorem hp_im {U : ℂ} (hU : 0 < U.re) (n : ℕ) :
    |(hp (n + 1) U * (starRingEnd ℂ) (hp n U)).im| ≤ normSq (hp (n + 1) U) / (2 * U.re) := by
  have h1 := hp_re hU.le n
  set A := hp (n + 1) U * (starRingEnd ℂ) (hp n U) with hA
  have h2 : normSq A = normSq (hp (n + 1) U) * normSq (hp n U) := by rw [hA, map_mul, normSq_conj]
  rw [normSq_apply] at h2
  have h3 := normSq_nonneg (hp (n + 1) U)
  set M := normSq (hp (n + 1) U)
  set m := normSq (hp n U)
  have h4 : 0 ≤ m := normSq_nonneg _
  rw [le_div_iff₀ (by positivity)]
  have h5 : (A.im * (2 * U.re)) ^ 2 ≤ M ^ 2 := by
    have h6 : A.im * A.im * U.re ≤ M * A.re - U.re * (A.re * A.re) := by nlinarith [mul_le_mul_of_nonneg_left h1 h3]
    nlinarith [mul_le_mul_of_nonneg_left h6 hU.le, sq_nonneg (2 * U.re * A.re - M)]
  have h7 := abs_le_of_sq_le_sq h5 h3
  rw [← abs_of_pos (show 0 < 2 * U.re by positivity), ← abs_mul]
  exact h7

theorem hp_ne {U : ℂ} (hU : 0 < U.re) : ∀ n, hp n U ≠ 0 := by
  intro n
  induction n with
  | zero => simp [hp]
  | succ n ih =>
    intro h
    have h1 := hp_re hU.le n
    rw [h, zero_mul, zero_re] at h1
    have := mul_pos hU (normSq_pos.mpr ih)
    linarith

theorem hasDerivAt_hpSq (n : ℕ) (a v : ℂ) (t : ℝ) :
    HasDerivAt (fun t : ℝ => normSq (hp (n + 1) (a + t * v)))
      (2 * (n + 1) * (v * (hp n (a + t * v) * (starRingEnd ℂ) (hp (n + 1) (a + t * v)))).re) t := by
  have h1 : HasDerivAt (fun t : ℝ => (t : ℂ)) 1 t := by simpa using (hasDerivAt_id t).ofReal_comp
  have h2 : HasDerivAt (fun t : ℝ => a + t * v) v t := by simpa using (h1.mul_const v).const_add a
  have h3 : HasDerivAt (fun t : ℝ => hp (n + 1) (a + t * v)) ((n + 1) * hp n (a + t * v) * v) t :=
    (hasDerivAt_hp (a + t * v) n).2.comp t h2
  have h4 := reCLM.hasFDerivAt.comp_hasDerivAt t h3
  have h5 := imCLM.hasFDerivAt.comp_hasDerivAt t h3
  have h6 := (h4.mul h4).add (h5.mul h5)
  refine (h6.congr_of_eventuallyEq (Filter.Eventually.of_forall fun s => ?_)).congr_deriv ?_
  · simp [normSq_apply]
  · simp [mul_re, mul_im]
    ring

/-- To the right the polynomials grow. -/
theorem hp_mono (n : ℕ) {a b x : ℝ} (ha : 0 ≤ a) (hab : a ≤ b) :
    normSq (hp n ⟨a, x⟩) ≤ normSq (hp n ⟨b, x⟩) := by
  rcases n with _ | n
  · simp [hp]
  have e : ∀ t : ℝ, (⟨0, x⟩ : ℂ) + t * 1 = ⟨t, x⟩ := by
    intro t; apply Complex.ext <;> simp
  have h : MonotoneOn (fun t : ℝ => normSq (hp (n + 1) ((⟨0, x⟩ : ℂ) + t * 1))) (Ici 0) := by
    refine monotoneOn_of_deriv_nonneg (convex_Ici 0)
      (fun t _ => (hasDerivAt_hpSq n _ _ t).continuousAt.continuousWithinAt)
      (fun t _ => (hasDerivAt_hpSq n _ _ t).differentiableAt.differentiableWithinAt) ?_
    intro t ht
    rw [interior_Ici] at ht
    rw [(hasDerivAt_hpSq n _ _ t).deriv, e, one_mul]
    have h1 := hp_re (U := ⟨t, x⟩) ht.le n
    have h2 : (hp n ⟨t, x⟩ * (starRingEnd ℂ) (hp (n + 1) ⟨t, x⟩)).re =
        (hp (n + 1) ⟨t, x⟩ * (starRingEnd ℂ) (hp n ⟨t, x⟩)).re := by
      simp [mul_re]; ring
    rw [h2]
    have : 0 ≤ t * normSq (hp n ⟨t, x⟩) := mul_nonneg ht.le (normSq_nonneg _)
    have h3 := this.trans h1
    positivity
  simpa only [e] using h ha (ha.trans hab) hab

/-- To the side they fall at a bounded rate. -/
theorem hp_side (n : ℕ) {a x x0 : ℝ} (ha : 0 < a) :
    normSq (hp n ⟨a, -x0⟩) * Real.exp (-(n * |x - x0| / a)) ≤ normSq (hp n ⟨a, -x⟩) := by
  rcases n with _ | n
  · simp [hp]
  set g : ℝ → ℝ := fun t => normSq (hp (n + 1) ((⟨a, 0⟩ : ℂ) + t * (-I))) with hg
  have e : ∀ t : ℝ, (⟨a, 0⟩ : ℂ) + t * (-I) = ⟨a, -t⟩ := by
    intro t; apply Complex.ext <;> simp
  have eg : ∀ t, g t = normSq (hp (n + 1) ⟨a, -t⟩) := fun t => by simp only [hg, e]
  have hd : ∀ t, ∃ d, HasDerivAt g d t ∧ |d| ≤ (n + 1) / a * g t := by
    intro t
    refine ⟨_, hasDerivAt_hpSq n ⟨a, 0⟩ (-I) t, ?_⟩
    rw [eg, e]
    have h1 := hp_im (U := ⟨a, -t⟩) ha n
    have h2 : (-I * (hp n ⟨a, -t⟩ * (starRingEnd ℂ) (hp (n + 1) ⟨a, -t⟩))).re =
        -(hp (n + 1) ⟨a, -t⟩ * (starRingEnd ℂ) (hp n ⟨a, -t⟩)).im := by
      simp [mul_re, mul_im]; ring
    rw [h2, abs_mul, abs_neg, abs_of_nonneg (show (0 : ℝ) ≤ 2 * (n + 1) by positivity)]
    refine (mul_le_mul_of_nonneg_left h1 (by positivity)).trans (le_of_eq ?_)
    simp only
    field_simp
  set c : ℝ := (n + 1) / a with hc
  have hexp : ∀ k t : ℝ, HasDerivAt (fun t => Real.exp (k * t)) (Real.exp (k * t) * k) t := fun k t => by
    simpa using ((hasDerivAt_id t).const_mul k).exp
  have hup : Monotone fun t => g t * Real.exp (c * t) := by
    refine monotone_of_deriv_nonneg (fun t => ?_) fun t => ?_
    · obtain ⟨d, h1, _⟩ := hd t
      exact (h1.mul (hexp c t)).differentiableAt
    · obtain ⟨d, h1, h2⟩ := hd t
      have h0 : deriv (fun t => g t * Real.exp (c * t)) t = _ := (h1.mul (hexp c t)).deriv
      rw [h0]
      have h3 := (abs_le.mp h2).1
      have h4 := Real.exp_pos (c * t)
      nlinarith
  have hdn : Antitone fun t => g t * Real.exp (-c * t) := by
    refine antitone_of_deriv_nonpos (fun t => ?_) fun t => ?_
    · obtain ⟨d, h1, _⟩ := hd t
      exact (h1.mul (hexp (-c) t)).differentiableAt
    · obtain ⟨d, h1, h2⟩ := hd t
      have h0 : deriv (fun t => g t * Real.exp (-c * t)) t = _ := (h1.mul (hexp (-c) t)).deriv
      rw [h0]
      have h3 := (abs_le.mp h2).2
      have h4 := Real.exp_pos (-c * t)
      nlinarith
  rw [← eg, ← eg]
  have hcn : ((n + 1 : ℕ) : ℝ) * |x - x0| / a = c * |x - x0| := by rw [hc]; push_cast; ring
  rw [hcn]
  rcases le_total x0 x with h | h
  · have h1 : g x0 * Real.exp (c * x0) ≤ g x * Real.exp (c * x) := hup h
    rw [abs_of_nonneg (by linarith)]
    have h2 := mul_le_mul_of_nonneg_right h1 (Real.exp_pos (-(c * x))).le
    rw [mul_assoc, mul_assoc, ← Real.exp_add, ← Real.exp_add] at h2
    rw [show c * x + -(c * x) = 0 by ring, Real.exp_zero, mul_one] at h2
    rwa [show -(c * (x - x0)) = c * x0 + -(c * x) by ring]
  · have h1 : g x0 * Real.exp (-c * x0) ≤ g x * Real.exp (-c * x) := hdn h
    rw [abs_of_nonpos (by linarith)]
    have h2 := mul_le_mul_of_nonneg_right h1 (Real.exp_pos (c * x)).le
    rw [mul_assoc, mul_assoc, ← Real.exp_add, ← Real.exp_add] at h2
    rw [show -c * x + c * x = 0 by ring, Real.exp_zero, mul_one] at h2
    rwa [show -(c * -(x - x0)) = -c * x0 + c * x by ring]

/-- Far to the side they are large. -/
theorem hp_far {U : ℂ} {τ : ℕ → ℝ} {x : ℝ} (hx : x ≤ -U.im) {N : ℕ} (hτ : ∀ n, n ≤ N → 0 < τ n) (h0 : τ 0 ≤ x)
    (hs : ∀ n, n < N → τ (n + 1) ≤ x - (n + 1) / (2 * τ n)) : ∀ n, n ≤ N →
    τ n * normSq (hp n U) ≤ -(hp (n + 1) U * (starRingEnd ℂ) (hp n U)).im ∧ τ n * ‖hp n U‖ ≤ ‖hp (n + 1) U‖ := by
  have key : ∀ n, n ≤ N → τ n * normSq (hp n U) ≤ -(hp (n + 1) U * (starRingEnd ℂ) (hp n U)).im →
      τ n * ‖hp n U‖ ≤ ‖hp (n + 1) U‖ := by
    intro n hn h1
    have h2 := (neg_le_abs _).trans (abs_im_le_norm (hp (n + 1) U * (starRingEnd ℂ) (hp n U)))
    rw [norm_mul, norm_conj] at h2
    rw [normSq_eq_norm_sq] at h1
    rcases (norm_nonneg (hp n U)).eq_or_lt with h3 | h3
    · rw [← h3, mul_zero]; positivity
    · have h4 : τ n * ‖hp n U‖ * ‖hp n U‖ ≤ ‖hp (n + 1) U‖ * ‖hp n U‖ := by nlinarith
      exact le_of_mul_le_mul_right h4 h3
  intro n
  induction n with
  | zero =>
    intro hn
    have h1 : τ 0 * normSq (hp 0 U) ≤ -(hp (0 + 1) U * (starRingEnd ℂ) (hp 0 U)).im := by
      simp [hp]
      linarith
    exact ⟨h1, key 0 hn h1⟩
  | succ n ih =>
    intro hn
    obtain ⟨h1, h2⟩ := ih (by omega)
    have hp0 := hτ n (by omega)
    have h3 : τ (n + 1) * normSq (hp (n + 1) U) ≤ -(hp (n + 1 + 1) U * (starRingEnd ℂ) (hp (n + 1) U)).im := by
      have h4 : hp (n + 2) U * (starRingEnd ℂ) (hp (n + 1) U) = (normSq (hp (n + 1) U) : ℂ) * U +
          (((n + 1) / 2 : ℝ) : ℂ) * (hp n U * (starRingEnd ℂ) (hp (n + 1) U)) := by
        rw [← mul_conj, hp]
        push_cast
        ring
      have h5 := congrArg Complex.im h4
      rw [add_im, im_ofReal_mul, im_ofReal_mul] at h5
      have h6 : (hp n U * (starRingEnd ℂ) (hp (n + 1) U)).im ≤ normSq (hp (n + 1) U) / τ n := by
        refine (le_abs_self _).trans ((abs_im_le_norm _).trans ?_)
        rw [norm_mul, norm_conj, normSq_eq_norm_sq, le_div_iff₀ hp0]
        nlinarith [norm_nonneg (hp (n + 1) U)]
      rw [show n + 1 + 1 = n + 2 from rfl, h5]
      have h7 := hs n (by omega)
      have h8 := normSq_nonneg (hp (n + 1) U)
      have h9 : (((n : ℝ) + 1) / 2) * (hp n U * (starRingEnd ℂ) (hp (n + 1) U)).im ≤
          ((n + 1) / (2 * τ n)) * normSq (hp (n + 1) U) := by
        refine (mul_le_mul_of_nonneg_left h6 (by positivity)).trans (le_of_eq ?_)
        field_simp
      nlinarith [mul_le_mul_of_nonneg_right h7 h8, mul_le_mul_of_nonneg_right hx h8]
    exact ⟨h3, key (n + 1) hn h3⟩

end Beam
end SixTrack
