import Verif.SigmaMatrix

/-!
# Property C57: principal axes of the strong beam at the collision point

The transverse matrix of the beam size at distance `S` has the entries `sA`, `sC`, `sB`, second-order
polynomials in `S`.  `BeamBeam6D_propagate_Sigma_matrix` gives its principal values, the rotation to
the principal axes, and the derivatives of all of them by `S`.
-/

namespace SixTrack
open Beam Elem Filter Topology

/-- There are principal values and axes at all points near `S`, depending differentiably on the point
at `S`, such that `o` has their values and derivatives at `S`. -/
def Follows (d : Sigmas ℝ) (S : ℝ) (o : Shape ℝ) : Prop :=
  ∃ s1 s3 c s : ℝ → ℝ, (∀ᶠ t in 𝓝 S, Principal d t (s1 t) (s3 t) (c t) (s t)) ∧
    s1 S = o.s11 ∧ s3 S = o.s33 ∧ c S = o.cosT ∧ s S = o.sinT ∧
    HasDerivAt s1 o.dS11 S ∧ HasDerivAt s3 o.dS33 S ∧ HasDerivAt c o.dCos S ∧ HasDerivAt s o.dSin S

/-- The matrix of the beam size at `S` is the second-order polynomial given by the transport of the
four-dimensional matrix through a drift space of length `S`. -/
example (d : Sigmas ℝ) (S : ℝ) :
    sA d S = d.s11 + 2 * S * d.s12 + S ^ 2 * d.s22 ∧ sC d S = d.s13 + S * d.s14 + S * d.s23 + S ^ 2 * d.s24 ∧
      sB d S = d.s33 + 2 * S * d.s34 + S ^ 2 * d.s44 := by
  refine ⟨?_, ?_, ?_⟩ <;> simp only [sA, sB, sC] <;> ring

theorem principal_of_axes {d : Sigmas ℝ} {t σ : ℝ} (hσ : σ ^ 2 = 1) {R C ε : ℝ} (hT : 0 < R ^ 2 + 4 * C ^ 2)
    (hk : -1 < kOf σ R C) (hR : sA d t - sB d t = ε * R) (hC : sC d t = ε * C) :
    Principal d t ((sA d t + sB d t + ε * (σ * Real.sqrt (R ^ 2 + 4 * C ^ 2))) / 2)
      ((sA d t + sB d t - ε * (σ * Real.sqrt (R ^ 2 + 4 * C ^ 2))) / 2) (cosOf σ R C) (sinOf σ R C) := by
  obtain ⟨g1, g2, g3, -⟩ := axes_alg hσ hT hk
  have hr : 0 < Real.sqrt (R ^ 2 + 4 * C ^ 2) := Real.sqrt_pos.mpr hT
  have hr2 : Real.sqrt (R ^ 2 + 4 * C ^ 2) ^ 2 = R ^ 2 + 4 * C ^ 2 := Real.sq_sqrt hT.le
  have e2 : (cosOf σ R C ^ 2 - sinOf σ R C ^ 2) * Real.sqrt (R ^ 2 + 4 * C ^ 2) = σ * R := by
    rw [g2]; unfold kOf; field_simp
  have e3 : (cosOf σ R C * sinOf σ R C) * Real.sqrt (R ^ 2 + 4 * C ^ 2) = σ * C := by
    rw [g3, div_mul_cancel₀ _ hr.ne']
  generalize Real.sqrt (R ^ 2 + 4 * C ^ 2) = r at *
  generalize cosOf σ R C = c at *
  generalize sinOf σ R C = s at *
  have hr0 := hr.ne'
  have main : R * (c ^ 2 - s ^ 2) + 4 * C * (c * s) = σ * r := by
    apply mul_right_cancel₀ hr0
    linear_combination R * e2 + 4 * C * e3 - σ * hr2
  refine ⟨g1, ?_, ?_, ?_⟩
  · linear_combination (sA d t + sB d t) / 2 * g1 + ε / 2 * main + (c ^ 2 - s ^ 2) / 2 * hR + 2 * c * s * hC
  · linear_combination (sA d t + sB d t) / 2 * g1 - ε / 2 * main - (c ^ 2 - s ^ 2) / 2 * hR - 2 * c * s * hC
  · apply mul_right_cancel₀ hr0
    linear_combination -c * s * r * hR + (c ^ 2 - s ^ 2) * r * hC - ε * R * e3 + ε * C * e2

/-- Different principal values: the axes and their derivatives are right, if the angle is zero or not
too small. -/
theorem C57_regular {d : Sigmas ℝ} {S thr : ℝ} (h0 : 0 < thr) (h1 : thr ≤ 1 / 2) (hT : thr ≤ sT d S) :
    ∃ o, propagate d S thr = .ok o ∧ (thr ≤ |o.sinT| ∨ sC d S = 0 → Follows d S o) := by
  have hp := propagate_regular h0 h1 hT
  simp only at hp
  refine ⟨_, hp, fun hs => ?_⟩
  have hT0 : 0 < sT d S := lt_of_lt_of_le h0 hT
  have hσ : mysign (sA d S - sB d S) ^ 2 = 1 := mysign_sq _
  have hσp : 0 ≤ mysign (sA d S - sB d S) * (sA d S - sB d S) := by rw [mysign_mul]; exact abs_nonneg _
  have dR := (hasDerivAt_sA d S).sub (hasDerivAt_sB d S)
  have dW := (hasDerivAt_sA d S).add (hasDerivAt_sB d S)
  obtain ⟨hev, dc, ds1, ds2⟩ := axes (σ := mysign (sA d S - sB d S)) dR (hasDerivAt_sC d S) hσ hσp hT0
  simp only [Pi.sub_apply] at hev dc ds1 ds2
  simp only at hs
  generalize hσe : mysign (sA d S - sB d S) = σ at *
  have dT : HasDerivAt (fun t => (sA d t - sB d t) ^ 2 + 4 * sC d t ^ 2)
      (2 * (sA d S - sB d S) * (dA d S - dB d S) + 8 * sC d S * dC d S) S := by
    have := (dR.pow 2).add (((hasDerivAt_sC d S).pow 2).const_mul 4)
    refine this.congr_deriv ?_
    simp only [Nat.cast_ofNat, Pi.sub_apply]; ring
  have dr := dT.sqrt hT0.ne'
  refine ⟨fun t => (sA d t + sB d t + 1 * (σ * Real.sqrt ((sA d t - sB d t) ^ 2 + 4 * sC d t ^ 2))) / 2,
    fun t => (sA d t + sB d t - 1 * (σ * Real.sqrt ((sA d t - sB d t) ^ 2 + 4 * sC d t ^ 2))) / 2,
    fun t => cosOf σ (sA d t - sB d t) (sC d t), fun t => sinOf σ (sA d t - sB d t) (sC d t), ?_, ?_, ?_, rfl, rfl,
    ?_, ?_, dc, ?_⟩
  · refine hev.mono fun t ht => ?_
    exact principal_of_axes hσ ht.1 ht.2 (by ring) (by ring)
  · simp only [one_mul]; rfl
  · simp only [one_mul]; rfl
  · have := ((dW.add ((dr.const_mul σ).const_mul 1)).div_const 2)
    refine this.congr_deriv ?_
    change _ = (dA d S + dB d S + σ * _ / (2 * Real.sqrt ((sA d S - sB d S) ^ 2 + 4 * sC d S ^ 2))) / 2
    ring
  · have := ((dW.sub ((dr.const_mul σ).const_mul 1)).div_const 2)
    refine this.congr_deriv ?_
    change _ = (dA d S + dB d S - σ * _ / (2 * Real.sqrt ((sA d S - sB d S) ^ 2 + 4 * sC d S ^ 2))) / 2
    ring
  · by_cases hC : sC d S = 0
    · have hs0 : sinOf σ (sA d S - sB d S) (sC d S) = 0 := by
        unfold sinOf; rw [hC]; simp
      rw [hs0, abs_zero, if_pos h0]
      exact ds2 hC
    · have hlt : thr ≤ |sinOf σ (sA d S - sB d S) (sC d S)| := by
        rcases hs with h | h
        · exact h
        · exact absurd h hC
      rw [if_neg (not_lt.mpr hlt)]
      refine ds1 ?_
      intro h
      rw [h, abs_zero] at hlt
      linarith

/-- Equal principal values which separate at first order. -/
theorem C57_singular {d : Sigmas ℝ} {S thr : ℝ} (h0 : 0 < thr) (h1 : thr ≤ 1 / 2) (hT : sT d S = 0)
    (hr : thr ≤ Real.sqrt (cA d S ^ 2 + dC d S ^ 2) ^ 3) :
    ∃ o, propagate d S thr = .ok o ∧ (thr < |o.sinT| ∨ dC d S = 0 → Follows d S o) := by
  have hp := propagate_singular h0 h1 (by rw [hT]; exact h0) hr
  simp only at hp
  refine ⟨_, hp, fun hs => ?_⟩
  have hR0 : sA d S - sB d S = 0 := by
    unfold sT at hT; nlinarith [sq_nonneg (sA d S - sB d S), sq_nonneg (sC d S)]
  have hC0 : sC d S = 0 := by
    unfold sT at hT; nlinarith [sq_nonneg (sA d S - sB d S), sq_nonneg (sC d S)]
  have hrt : 0 < Real.sqrt (cA d S ^ 2 + dC d S ^ 2) := by
    by_contra h
    have : Real.sqrt (cA d S ^ 2 + dC d S ^ 2) = 0 := le_antisymm (not_lt.mp h) (Real.sqrt_nonneg _)
    rw [this] at hr
    norm_num at hr
    linarith
  have hσ : mysign (cA d S) ^ 2 = 1 := mysign_sq _
  have hσp : 0 ≤ mysign (cA d S) * (2 * cA d S) := by
    rw [show mysign (cA d S) * (2 * cA d S) = 2 * |cA d S| by rw [← mysign_mul]; ring]; positivity
  have h4 := four_mul_sq (cA d S) (dC d S)
  have hT' : 0 < (2 * cA d S) ^ 2 + 4 * dC d S ^ 2 := by
    have := Real.sqrt_pos.mp hrt
    linarith
  have dε : HasDerivAt (fun t : ℝ => t - S) 1 S := (hasDerivAt_id S).sub_const S
  have dR : HasDerivAt (fun t => 2 * cA d S + cB d * (t - S)) (cB d) S := by
    have := (dε.const_mul (cB d)).const_add (2 * cA d S)
    simpa using this
  have dCC : HasDerivAt (fun t => dC d S + d.s24 * (t - S)) d.s24 S := by
    have := (dε.const_mul d.s24).const_add (dC d S)
    simpa using this
  obtain ⟨hev, dc, ds1, ds2⟩ := axes (σ := mysign (cA d S)) dR dCC hσ
    (by simpa using hσp) (by simpa using hT')
  simp only [sub_self, mul_zero, add_zero] at dc ds1 ds2
  simp only at hs
  have eR : ∀ t, sA d t - sB d t = (t - S) * (2 * cA d S + cB d * (t - S)) := by
    intro t
    simp only [sA, sB, cA, dA, dB, cB] at hR0 ⊢
    linear_combination hR0
  have eC : ∀ t, sC d t = (t - S) * (dC d S + d.s24 * (t - S)) := by
    intro t
    simp only [sC, dC] at hC0 ⊢
    linear_combination hC0
  have dW := (hasDerivAt_sA d S).add (hasDerivAt_sB d S)
  have dTT : HasDerivAt (fun t => (2 * cA d S + cB d * (t - S)) ^ 2 + 4 * (dC d S + d.s24 * (t - S)) ^ 2) _ S :=
    (dR.pow 2).add ((dCC.pow 2).const_mul 4)
  have dr := dTT.sqrt (by simpa using hT'.ne')
  have dp := dε.mul (dr.const_mul (mysign (cA d S)))
  refine ⟨fun t => (sA d t + sB d t + (t - S) * (mysign (cA d S) * Real.sqrt ((2 * cA d S + cB d * (t - S)) ^ 2 + 4 * (dC d S + d.s24 * (t - S)) ^ 2))) / 2,
    fun t => (sA d t + sB d t - (t - S) * (mysign (cA d S) * Real.sqrt ((2 * cA d S + cB d * (t - S)) ^ 2 + 4 * (dC d S + d.s24 * (t - S)) ^ 2))) / 2,
    fun t => cosOf (mysign (cA d S)) (2 * cA d S + cB d * (t - S)) (dC d S + d.s24 * (t - S)),
    fun t => sinOf (mysign (cA d S)) (2 * cA d S + cB d * (t - S)) (dC d S + d.s24 * (t - S)), ?_, ?_, ?_, ?_, ?_,
    ?_, ?_, dc, ?_⟩
  · refine hev.mono fun t ht => ?_
    exact principal_of_axes hσ ht.1 ht.2 (eR t) (eC t)
  · simp
  · simp
  · simp
  · simp
  · refine ((dW.add dp).div_const 2).congr_deriv ?_
    simp only [sub_self, mul_zero, add_zero, zero_mul, one_mul, h4]
    ring
  · refine ((dW.sub dp).div_const 2).congr_deriv ?_
    simp only [sub_self, mul_zero, add_zero, zero_mul, one_mul, h4]
    ring
  · by_cases hC : dC d S = 0
    · have hs0 : sinOf (mysign (cA d S)) (2 * cA d S) (dC d S) = 0 := by
        unfold sinOf; rw [hC]; simp
      rw [hs0, abs_zero, if_neg (not_lt.mpr h0.le)]
      exact ds2 hC
    · have hlt : thr < |sinOf (mysign (cA d S)) (2 * cA d S) (dC d S)| := by
        rcases hs with h | h
        · exact h
        · exact absurd h hC
      rw [if_pos hlt]
      refine ds1 ?_
      intro h
      rw [h, abs_zero] at hlt
      linarith

/-- Equal principal values which separate at second order, or not at all. -/
theorem C57_degenerate {d : Sigmas ℝ} {S thr : ℝ} (h0 : 0 < thr) (hT : sT d S = 0)
    (ha : cA d S = 0) (hc : dC d S = 0) :
    ∃ o, propagate d S thr = .ok o ∧ (thr < |d.s24| ∨ d.s24 = 0 → Follows d S o) := by
  have hp := propagate_degenerate h0 (by rw [hT]; exact h0)
    (show Real.sqrt (cA d S ^ 2 + dC d S ^ 2) ^ 3 < thr by rw [ha, hc]; simpa using h0)
  simp only at hp
  refine ⟨_, hp, fun hs => ?_⟩
  have hR0 : sA d S - sB d S = 0 := by
    unfold sT at hT; nlinarith [sq_nonneg (sA d S - sB d S), sq_nonneg (sC d S)]
  have hC0 : sC d S = 0 := by
    unfold sT at hT; nlinarith [sq_nonneg (sA d S - sB d S), sq_nonneg (sC d S)]
  have eR : ∀ t, sA d t - sB d t = (t - S) ^ 2 * cB d := by
    intro t
    simp only [sA, sB, cA, dA, dB, cB] at hR0 ha ⊢
    linear_combination hR0 + 2 * (t - S) * ha
  have eC : ∀ t, sC d t = (t - S) ^ 2 * d.s24 := by
    intro t
    simp only [sC, dC] at hC0 hc ⊢
    linear_combination hC0 + (t - S) * hc
  have dW := (hasDerivAt_sA d S).add (hasDerivAt_sB d S)
  have dε : HasDerivAt (fun t : ℝ => (t - S) ^ 2) 0 S := by
    refine (((hasDerivAt_id S).sub_const S).pow 2).congr_deriv ?_
    simp
  rcases hs with hs | hs
  · simp only [if_pos hs]
    have he0 : d.s24 ≠ 0 := by
      intro h; rw [h, abs_zero] at hs; linarith
    have hT' : 0 < cB d ^ 2 + 4 * d.s24 ^ 2 := by positivity
    have hσ : mysign (cB d) ^ 2 = 1 := mysign_sq _
    have hk0 : 0 ≤ kOf (mysign (cB d)) (cB d) d.s24 := by
      unfold kOf; rw [mysign_mul]; positivity
    have dp := dε.mul_const (mysign (cB d) * Real.sqrt (cB d ^ 2 + 4 * d.s24 ^ 2))
    refine ⟨fun t => (sA d t + sB d t + (t - S) ^ 2 * (mysign (cB d) * Real.sqrt (cB d ^ 2 + 4 * d.s24 ^ 2))) / 2,
      fun t => (sA d t + sB d t - (t - S) ^ 2 * (mysign (cB d) * Real.sqrt (cB d ^ 2 + 4 * d.s24 ^ 2))) / 2,
      fun _ => _, fun _ => _, ?_, ?_, ?_, rfl, rfl, ?_, ?_, hasDerivAt_const _ _, hasDerivAt_const _ _⟩
    · exact Eventually.of_forall fun t => principal_of_axes hσ hT' (by linarith) (eR t) (eC t)
    · simp
    · simp
    · exact ((dW.add dp).div_const 2).congr_deriv (by ring)
    · exact ((dW.sub dp).div_const 2).congr_deriv (by ring)
  · simp only [hs, abs_zero, if_neg (not_lt.mpr h0.le)]
    refine ⟨sA d, sB d, fun _ => 1, fun _ => 0, ?_, ?_, ?_, rfl, rfl, ?_, ?_, hasDerivAt_const _ _, hasDerivAt_const _ _⟩
    · refine Eventually.of_forall fun t => ⟨by ring, by ring, by ring, ?_⟩
      rw [eC t, hs]; ring
    · linarith
    · linarith
    · refine (hasDerivAt_sA d S).congr_deriv ?_
      simp only [cA] at ha; linarith
    · refine (hasDerivAt_sB d S).congr_deriv ?_
      simp only [cA] at ha; linarith

/-- With a positive threshold of at most one half, nothing is divided by zero and no square root of a
negative number is taken. -/
theorem C57_defined (d : Sigmas ℝ) (S : ℝ) {thr : ℝ} (h0 : 0 < thr) (h1 : thr ≤ 1 / 2) :
    ∃ o, propagate d S thr = .ok o := by
  by_cases hT : sT d S < thr
  · by_cases hr : Real.sqrt (cA d S ^ 2 + dC d S ^ 2) ^ 3 < thr
    · exact ⟨_, propagate_degenerate h0 hT hr⟩
    · exact ⟨_, propagate_singular h0 h1 hT (not_lt.mp hr)⟩
  · exact ⟨_, propagate_regular h0 h1 (not_lt.mp hT)⟩

/-- The rotation is one, in every case. -/
theorem C57_rotation {d : Sigmas ℝ} {S thr : ℝ} (h0 : 0 < thr) (h1 : thr ≤ 1 / 2) {o : Shape ℝ}
    (h : propagate d S thr = .ok o) : o.cosT ^ 2 + o.sinT ^ 2 = 1 ∧ 1 / 2 ≤ o.cosT ^ 2 ∧ 0 < o.cosT := by
  have key : ∀ {σ R C : ℝ}, σ = mysign R → 0 < R ^ 2 + 4 * C ^ 2 →
      cosOf σ R C ^ 2 + sinOf σ R C ^ 2 = 1 ∧ 1 / 2 ≤ cosOf σ R C ^ 2 ∧ 0 < cosOf σ R C := by
    intro σ R C hσ hT
    have hk0 : 0 ≤ kOf σ R C := by
      unfold kOf; rw [hσ, mysign_mul]; positivity
    obtain ⟨g1, g2, -, g4⟩ := axes_alg (σ := σ) (by rw [hσ]; exact mysign_sq R) hT (by linarith)
    exact ⟨g1, by linarith, g4⟩
  by_cases hT : sT d S < thr
  · by_cases hr : Real.sqrt (cA d S ^ 2 + dC d S ^ 2) ^ 3 < thr
    · rw [propagate_degenerate h0 hT hr, Res.ok_inj] at h
      subst h
      by_cases he : thr < |d.s24|
      · simp only [if_pos he]
        have he0 : d.s24 ≠ 0 := by
          intro h; rw [h, abs_zero] at he; linarith
        exact key rfl (by positivity)
      · simp only [if_neg he]; norm_num
    · rw [propagate_singular h0 h1 hT (not_lt.mp hr), Res.ok_inj] at h
      subst h
      have hrt : 0 < cA d S ^ 2 + dC d S ^ 2 := by
        by_contra hn
        have : Real.sqrt (cA d S ^ 2 + dC d S ^ 2) = 0 := Real.sqrt_eq_zero_of_nonpos (not_lt.mp hn)
        rw [this] at hr
        norm_num at hr
        linarith
      exact key (mysign_two _).symm (by linarith)
  · rw [propagate_regular h0 h1 (not_lt.mp hT), Res.ok_inj] at h
    subst h
    exact key rfl (lt_of_lt_of_le h0 (not_lt.mp hT))

/-- The principal values are those of the matrix, up to half the root of the threshold where they
almost agree. -/
theorem C57_values {d : Sigmas ℝ} {S thr : ℝ} (h0 : 0 < thr) (h1 : thr ≤ 1 / 2) {o : Shape ℝ}
    (h : propagate d S thr = .ok o) {s1 s3 c s : ℝ} (hP : Principal d S s1 s3 c s) :
    (thr ≤ sT d S → ({o.s11, o.s33} : Set ℝ) = {s1, s3}) ∧
    (sT d S < thr → |o.s11 - s1| < Real.sqrt thr / 2 ∧ |o.s33 - s3| < Real.sqrt thr / 2) := by
  obtain ⟨q1, q2, q3, q4⟩ := hP
  have hsum : s1 + s3 = sA d S + sB d S := by
    linear_combination -q2 - q3 + (sA d S + sB d S) * q1
  have hdiff : (s1 - s3) ^ 2 = sT d S := by
    unfold sT
    have e : s1 - s3 = (sA d S - sB d S) * (c ^ 2 - s ^ 2) + 4 * sC d S * (c * s) := by
      linear_combination -q2 + q3
    rw [e]
    have hc2 : (c ^ 2 - s ^ 2) ^ 2 + 4 * (c * s) ^ 2 = 1 := by
      have : (c ^ 2 - s ^ 2) ^ 2 + 4 * (c * s) ^ 2 = (c ^ 2 + s ^ 2) ^ 2 := by ring
      rw [this, q1, one_pow]
    linear_combination ((sA d S - sB d S) ^ 2 + 4 * sC d S ^ 2) * hc2 -
      4 * ((sB d S - sA d S) * (c * s) + sC d S * (c ^ 2 - s ^ 2)) * q4
  have habs : |s1 - s3| = Real.sqrt (sT d S) := by rw [← hdiff, Real.sqrt_sq_eq_abs]
  refine ⟨fun hT => ?_, fun hT => ?_⟩
  · rw [propagate_regular h0 h1 hT, Res.ok_inj] at h
    subst h
    simp only
    have hs2 := mysign_sq (sA d S - sB d S)
    generalize mysign (sA d S - sB d S) = σ at hs2
    rw [← habs]
    have hp : σ = 1 ∨ σ = -1 := sq_eq_sq_iff_eq_or_eq_neg.mp (hs2.trans (one_pow 2).symm)
    have hq : |s1 - s3| = s1 - s3 ∨ |s1 - s3| = -(s1 - s3) := abs_choice _
    rcases hp with rfl | rfl <;> rcases hq with hq | hq <;> rw [hq]
    · congr 1 <;> [skip; congr 1] <;> linarith
    · rw [Set.pair_comm]; congr 1 <;> [skip; congr 1] <;> linarith
    · rw [Set.pair_comm]; congr 1 <;> [skip; congr 1] <;> linarith
    · congr 1 <;> [skip; congr 1] <;> linarith
  · have hw : o.s11 = (sA d S + sB d S) / 2 ∧ o.s33 = (sA d S + sB d S) / 2 := by
      by_cases hr : Real.sqrt (cA d S ^ 2 + dC d S ^ 2) ^ 3 < thr
      · rw [propagate_degenerate h0 hT hr, Res.ok_inj] at h
        subst h; exact ⟨rfl, rfl⟩
      · rw [propagate_singular h0 h1 hT (not_lt.mp hr), Res.ok_inj] at h
        subst h; exact ⟨rfl, rfl⟩
    have hlt : |s1 - s3| < Real.sqrt thr := by
      rw [habs]; exact Real.sqrt_lt_sqrt (by rw [← hdiff]; positivity) hT
    have e1 : o.s11 - s1 = -((s1 - s3) / 2) := by rw [hw.1]; linarith
    have e2 : o.s33 - s3 = (s1 - s3) / 2 := by rw [hw.2]; linarith
    rw [e1, e2, abs_neg, abs_div, abs_two]
    constructor <;> linarith

/-- If the matrix of the beam size at `S` is positive semidefinite, so are the principal values: the
beam sizes `sqrt(Sig_11_hat)` and `sqrt(Sig_33_hat)` are defined. -/
theorem C57_sizes {d : Sigmas ℝ} {S thr : ℝ} (h0 : 0 < thr) (h1 : thr ≤ 1 / 2) {o : Shape ℝ}
    (h : propagate d S thr = .ok o) (hA : 0 ≤ sA d S) (hB : 0 ≤ sB d S) (hC : sC d S ^ 2 ≤ sA d S * sB d S) :
    0 ≤ o.s11 ∧ 0 ≤ o.s33 := by
  by_cases hT : sT d S < thr
  · have hw : o.s11 = (sA d S + sB d S) / 2 ∧ o.s33 = (sA d S + sB d S) / 2 := by
      by_cases hr : Real.sqrt (cA d S ^ 2 + dC d S ^ 2) ^ 3 < thr
      · rw [propagate_degenerate h0 hT hr, Res.ok_inj] at h
        subst h; exact ⟨rfl, rfl⟩
      · rw [propagate_singular h0 h1 hT (not_lt.mp hr), Res.ok_inj] at h
        subst h; exact ⟨rfl, rfl⟩
    rw [hw.1, hw.2]
    constructor <;> linarith
  · rw [propagate_regular h0 h1 (not_lt.mp hT), Res.ok_inj] at h
    subst h
    have hle : Real.sqrt (sT d S) ≤ sA d S + sB d S := by
      apply Real.sqrt_le_iff.mpr
      refine ⟨by linarith, ?_⟩
      unfold sT
      nlinarith
    have hs2 := mysign_sq (sA d S - sB d S)
    generalize mysign (sA d S - sB d S) = σ at hs2
    have := Real.sqrt_nonneg (sT d S)
    rcases sq_eq_sq_iff_eq_or_eq_neg.mp (hs2.trans (one_pow 2).symm) with rfl | rfl
    · constructor <;> simp only <;> linarith
    · constructor <;> simp only <;> linarith

/-- A tilted beam with correlations. -/
private noncomputable def dEx : Sigmas ℝ := ⟨5, 1, 2, 1, 3, 1, 1, 2, 1, 3⟩

/-- A beam which is round at `S = 0` only. -/
private noncomputable def dRound : Sigmas ℝ := ⟨5, 3, 0, 2, 3, 2, 1, 5, 0, 3⟩

/-- A beam which is round at `S = 0` to first order. -/
private noncomputable def dFlat : Sigmas ℝ := ⟨5, 1, 0, 2, 5, -2, 2, 5, 1, 2⟩

example : sA dEx 0 = 5 ∧ sC dEx 0 = 2 ∧ sB dEx 0 = 2 ∧ 1 / 10 ≤ sT dEx 0 ∧ 0 ≤ sA dEx 0 ∧
    sC dEx 0 ^ 2 ≤ sA dEx 0 * sB dEx 0 := by
  norm_num [dEx, sA, sB, sC, sT]

example : ∃ o, propagate dEx 0 (1 / 10) = .ok o ∧ Follows dEx 0 o := by
  have hT : sT dEx 0 = 25 := by norm_num [dEx, sA, sB, sC, sT]
  obtain ⟨o, h1, h2⟩ := C57_regular (d := dEx) (S := 0) (thr := 1 / 10) (by norm_num) (by norm_num)
    (by rw [hT]; norm_num)
  refine ⟨o, h1, h2 (Or.inl ?_)⟩
  rw [propagate_regular (by norm_num) (by norm_num) (by rw [hT]; norm_num), Res.ok_inj] at h1
  subst h1
  simp only
  have hk : kOf (mysign (sA dEx 0 - sB dEx 0)) (sA dEx 0 - sB dEx 0) (sC dEx 0) = 3 / 5 := by
    unfold kOf
    rw [mysign_mul, show (sA dEx 0 - sB dEx 0) ^ 2 + 4 * sC dEx 0 ^ 2 = 5 ^ 2 by
      norm_num [dEx, sA, sB, sC], Real.sqrt_sq (by norm_num), show sA dEx 0 - sB dEx 0 = 3 by
      norm_num [dEx, sA, sB]]
    norm_num
  obtain ⟨g1, g2, -⟩ := axes_alg (σ := mysign (sA dEx 0 - sB dEx 0)) (R := sA dEx 0 - sB dEx 0)
    (C := sC dEx 0) (mysign_sq _) (show 0 < sT dEx 0 by rw [hT]; norm_num) (by rw [hk]; norm_num)
  rw [hk] at g2
  apply (pow_le_pow_iff_left₀ (by norm_num) (abs_nonneg _) (two_ne_zero)).mp
  rw [sq_abs]
  linarith

example : sT dRound 0 = 0 ∧ 1 / 10 ≤ Real.sqrt (cA dRound 0 ^ 2 + dC dRound 0 ^ 2) ^ 3 := by
  refine ⟨by norm_num [dRound, sA, sB, sC, sT], ?_⟩
  rw [show cA dRound 0 ^ 2 + dC dRound 0 ^ 2 = 5 ^ 2 by norm_num [dRound, cA, dA, dB, dC],
    Real.sqrt_sq (by norm_num)]
  norm_num

example : sT dFlat 0 = 0 ∧ cA dFlat 0 = 0 ∧ dC dFlat 0 = 0 ∧ 1 / 10 < |dFlat.s24| := by
  norm_num [dFlat, sA, sB, sC, sT, cA, dA, dB, dC]

/-- With the threshold zero, a beam without coupling divides by the sine, which is zero. -/
theorem C57_no_threshold_violated : ∃ (d : Sigmas ℝ) (S : ℝ), sT d S = 9 ∧ propagate d S 0 = .ub := by
  refine ⟨⟨4, 0, 0, 0, 0, 0, 0, 1, 0, 0⟩, 0, by norm_num [sA, sB, sC, sT], ?_⟩
  have q : Real.sqrt 9 = 3 := by
    rw [show (9 : ℝ) = 3 ^ 2 by norm_num]; exact Real.sqrt_sq (by norm_num)
  have q9 : csqrt (9 : ℝ) = .ok 3 := by rw [csqrt_ok (by norm_num), q]
  unfold propagate
  norm_num [q9, cdiv, csqrt_ok, half_eq, mysign, fabs]

/-- With a threshold above the sine of 45 degrees, a beam with equal diagonal entries divides by their
difference, which is zero. -/
theorem C57_large_threshold_violated : ∃ (d : Sigmas ℝ) (S : ℝ), sT d S = 4 ∧ propagate d S 1 = .ub := by
  refine ⟨⟨4, 0, 1, 0, 0, 0, 0, 4, 0, 0⟩, 0, by norm_num [sA, sB, sC, sT], ?_⟩
  have q : Real.sqrt 4 = 2 := by
    rw [show (4 : ℝ) = 2 ^ 2 by norm_num]; exact Real.sqrt_sq (by norm_num)
  have q4 : csqrt (4 : ℝ) = .ok 2 := by rw [csqrt_ok (by norm_num), q]
  have h2 : csqrt ((1 : ℝ) / 2) = .ok (Real.sqrt (1 / 2)) := csqrt_ok (by norm_num)
  have hp : 0 < Real.sqrt (1 / 2) := Real.sqrt_pos.mpr (by norm_num)
  have hl : |Real.sqrt (1 / 2)| < 1 := by
    rw [abs_of_pos hp]
    exact (Real.sqrt_lt_sqrt (by norm_num) (by norm_num : (1 / 2 : ℝ) < 1)).trans_eq Real.sqrt_one
  have ec : (4 : ℝ) * Real.sqrt (1 / 2) ≠ 0 := by positivity
  unfold propagate
  simp only [Nat.cast_ofNat, mul_zero, add_zero, zero_add, sub_self, mul_one, if_neg (show ¬ (4 : ℝ) < 1 by norm_num),
    q4, Res.ok_bind, half_eq, cdiv_ok (two_ne_zero (α := ℝ)), zero_div, sub_zero, h2, mysign_zero, one_mul, fabs_eq,
    cdiv_ok ec, cdiv_zero, Res.ub_bind]
  norm_num at hl
  norm_num [cdiv, mysign]
  intro h
  exact absurd h (not_le.mpr hl)

/-- Below the threshold, the derivative of the sine is that of a vanishing angle. -/
theorem C57_small_angle_violated : ∃ (d : Sigmas ℝ) (S thr : ℝ) (o : Shape ℝ), 0 < thr ∧ thr ≤ 1 / 2 ∧
    thr ≤ sT d S ∧ propagate d S thr = .ok o ∧ o.sinT ≠ 0 ∧ ¬ Follows d S o := by
  have hT : sT ⟨5, 0, 2, 1, 0, 0, 0, 2, 0, 0⟩ 0 = 25 := by norm_num [sA, sB, sC, sT]
  have hp := propagate_regular (d := ⟨5, 0, 2, 1, 0, 0, 0, 2, 0, 0⟩) (S := 0) (thr := 1 / 2) (by norm_num) (by norm_num)
    (by rw [hT]; norm_num)
  simp only at hp
  refine ⟨⟨5, 0, 2, 1, 0, 0, 0, 2, 0, 0⟩, 0, 1 / 2, _, by norm_num, by norm_num, by rw [hT]; norm_num, hp, ?_⟩
  have eA : sA ⟨5, 0, 2, 1, 0, 0, 0, 2, 0, 0⟩ 0 = 5 := by norm_num [sA]
  have eB : sB ⟨5, 0, 2, 1, 0, 0, 0, 2, 0, 0⟩ 0 = 2 := by norm_num [sB]
  have eC : sC ⟨5, 0, 2, 1, 0, 0, 0, 2, 0, 0⟩ 0 = 2 := by norm_num [sC]
  have eD : dC ⟨5, 0, 2, 1, 0, 0, 0, 2, 0, 0⟩ 0 = 1 := by norm_num [dC]
  rw [eA, eB, eC]
  have hR : (5 : ℝ) - 2 = 3 := by norm_num
  rw [hR]
  have hσ : mysign (3 : ℝ) = 1 := by norm_num [mysign]
  rw [hσ]
  have hr : Real.sqrt ((3 : ℝ) ^ 2 + 4 * 2 ^ 2) = 5 := by
    rw [show (3 : ℝ) ^ 2 + 4 * 2 ^ 2 = 5 ^ 2 by norm_num]; exact Real.sqrt_sq (by norm_num)
  have hk : kOf 1 3 2 = 3 / 5 := by
    unfold kOf; rw [hr]; norm_num
  obtain ⟨g1, g2, g3, g4⟩ := axes_alg (σ := 1) (R := 3) (C := 2) (by norm_num) (by norm_num) (by rw [hk]; norm_num)
  rw [hk] at g2
  rw [hr] at g3
  have hs2 : sinOf 1 3 2 ^ 2 = 1 / 5 := by linarith
  have hlt : |sinOf 1 3 2| < 1 / 2 := by
    apply lt_of_pow_lt_pow_left₀ 2 (by norm_num)
    rw [sq_abs, hs2]; norm_num
  rw [if_pos hlt]
  constructor
  · simp only
    intro h
    rw [h] at hs2
    norm_num at hs2
  · rintro ⟨s1, s3, c, s, hev, -, -, hc, hs, -, -, hdc, hds⟩
    simp only at hc hs hds
    rw [eD] at hds
    generalize hD : (cosOf 1 3 2) = C0 at *
    generalize hE : (sinOf 1 3 2) = S0 at *
    generalize dK _ _ _ _ _ / (4 * C0) = c' at hdc
    have hA := hasDerivAt_sA ⟨5, 0, 2, 1, 0, 0, 0, 2, 0, 0⟩ 0
    have hB := hasDerivAt_sB ⟨5, 0, 2, 1, 0, 0, 0, 2, 0, 0⟩ 0
    have hC := hasDerivAt_sC ⟨5, 0, 2, 1, 0, 0, 0, 2, 0, 0⟩ 0
    have d1 := (hdc.pow 2).add (hds.pow 2)
    have d2 := (((hB.sub hA).mul (hdc.mul hds)).add (hC.mul ((hdc.pow 2).sub (hds.pow 2))))
    have u1 := d1.unique ((hasDerivAt_const (0 : ℝ) (1 : ℝ)).congr_of_eventuallyEq (hev.mono fun t h => h.1))
    have u2 := d2.unique ((hasDerivAt_const (0 : ℝ) (0 : ℝ)).congr_of_eventuallyEq (hev.mono fun t h => h.2.2.2))
    simp only [Pi.sub_apply, Pi.mul_apply, Pi.pow_apply, hc, hs, eA, eB, eC, eD, dA, dB, Nat.cast_ofNat] at u1 u2
    norm_num at u1 u2
    clear hev d1 d2 hA hB hC hp hdc hds
    have hX : C0 * c' = -S0 / 3 := by linear_combination u1 / 2
    have hc2 : C0 ^ 2 = 4 / 5 := by linarith
    have : C0 = 25 / 9 := by
      linear_combination 5 / 3 * C0 * u2 + 5 * S0 * hX - 20 / 3 * C0 * hX - 5 / 3 * hs2 + 40 / 9 * g3 +
        5 / 3 * hc2 - 5 / 3 * C0 * g2
    rw [this] at hc2
    norm_num at hc2

end SixTrack
