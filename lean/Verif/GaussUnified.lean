import Verif.GaussGrad

/-!
# The field of an elliptic beam for both orders of the sizes

The arguments are the coordinates `x`, `y` and the squares `P`, `Q` of the horizontal and vertical size.
-/

namespace SixTrack
namespace Beam

open Complex Elem

noncomputable def exG (w : ℂ → ℂ) (x y P Q : ℝ) : ℝ := if Q < P then eA w x y P Q else eB w y x Q P
noncomputable def eyG (w : ℂ → ℂ) (x y P Q : ℝ) : ℝ := if Q < P then eB w x y P Q else eA w y x Q P
noncomputable def gxG (w : ℂ → ℂ) (x y P Q : ℝ) : ℝ := if Q < P then gA w x y P Q else gB w y x Q P
noncomputable def gyG (w : ℂ → ℂ) (x y P Q : ℝ) : ℝ := if Q < P then gB w x y P Q else gA w y x Q P
noncomputable def mXY (w : ℂ → ℂ) (x y P Q : ℝ) : ℝ := if Q < P then j12 w x y P Q else j12 w y x Q P
noncomputable def mXP (w : ℂ → ℂ) (x y P Q : ℝ) : ℝ := if Q < P then j13 w x y P Q else j24 w y x Q P
noncomputable def mXQ (w : ℂ → ℂ) (x y P Q : ℝ) : ℝ := if Q < P then j14 w x y P Q else j23 w y x Q P
noncomputable def mYP (w : ℂ → ℂ) (x y P Q : ℝ) : ℝ := if Q < P then j23 w x y P Q else j14 w y x Q P
noncomputable def mYQ (w : ℂ → ℂ) (x y P Q : ℝ) : ℝ := if Q < P then j24 w x y P Q else j13 w y x Q P
noncomputable def mPP (w : ℂ → ℂ) (x y P Q : ℝ) : ℝ := if Q < P then j33 w x y P Q else j44 w y x Q P
noncomputable def mPQ (w : ℂ → ℂ) (x y P Q : ℝ) : ℝ := if Q < P then j34 w x y P Q else j34 w y x Q P
noncomputable def mQQ (w : ℂ → ℂ) (x y P Q : ℝ) : ℝ := if Q < P then j44 w x y P Q else j33 w y x Q P

/-- The coefficients and the divergence. -/
theorem gA_add_gB (w : ℂ → ℂ) (a b : ℝ) {A B : ℝ} (hB : 0 < B) (hAB : B < A) :
    2 * gA w a b A B + 2 * gB w a b A B = xExp a b A B / (2 * Real.pi * Real.sqrt A * Real.sqrt B) / eps0 := by
  have hA : 0 < A := by linarith
  have hs : 0 < sOf A B := Real.sqrt_pos.mpr (by linarith)
  have h2 := sOf_sq hAB
  have hsA : 0 < Real.sqrt A := Real.sqrt_pos.mpr hA
  have hsB : 0 < Real.sqrt B := Real.sqrt_pos.mpr hB
  have eA' : A = Real.sqrt A ^ 2 := (Real.sq_sqrt hA.le).symm
  have eB' : B = Real.sqrt B ^ 2 := (Real.sq_sqrt hB.le).symm
  have he := eps0_pos
  have hp := Real.pi_pos
  have hd : Real.sqrt A ^ 2 - Real.sqrt B ^ 2 ≠ 0 := by rw [← eA', ← eB']; linarith
  unfold gA gB pEps
  rw [h2]
  unfold kRatio
  generalize xExp a b A B = X
  rw [show 2 * (A - B) = 2 * (Real.sqrt A ^ 2 - Real.sqrt B ^ 2) by rw [← eA', ← eB']]
  field_simp
  ring

theorem gaussG_eq {w : ℂ → ℂ} (hw : IsFaddeeva w) {minDiff sx sy : ℝ} (hx : 0 < sx) (hy : 0 < sy) (hne : sx ≠ sy)
    (hd : minDiff ≤ |sx - sy|) (x y : ℝ) :
    gaussG (wRes w) minDiff sx sy x y =
      .ok ⟨exG w x y (sx ^ 2) (sy ^ 2), eyG w x y (sx ^ 2) (sy ^ 2), gxG w x y (sx ^ 2) (sy ^ 2),
        gyG w x y (sx ^ 2) (sy ^ 2)⟩ := by
  have he := eps0_pos
  have hp := Real.pi_pos
  have n1 : (2 : ℝ) * (sx * sx - sy * sy) ≠ 0 := by
    have : sx * sx - sy * sy = (sx - sy) * (sx + sy) := by ring
    rw [this]
    have := sub_ne_zero.mpr hne
    have : sx + sy ≠ 0 := by positivity
    positivity
  have n2 : (2 : ℝ) * Real.pi * eps0 ≠ 0 := by positivity
  have n3 : (2 : ℝ) * (sx * sx) ≠ 0 := by positivity
  have n4 : (2 : ℝ) * (sy * sy) ≠ 0 := by positivity
  have ex : FieldOps.exp (-x * x / (2 * (sx * sx)) - y * y / (2 * (sy * sy))) = xExp x y (sx ^ 2) (sy ^ 2) := by
    rw [exp_real, xExp]
    congr 1
    ring
  have ex2 : xExp y x (sy ^ 2) (sx ^ 2) = xExp x y (sx ^ 2) (sy ^ 2) := by
    rw [xExp, xExp]
    congr 1
    ring
  unfold gaussG
  rw [if_neg (by rw [fabs_eq]; exact not_lt.mpr hd)]
  rcases lt_or_gt_of_ne hne with h | h
  · have hAB : sx ^ 2 < sy ^ 2 := pow_lt_pow_left₀ h hx.le two_ne_zero
    have hk := kRatio_of_sq hx hy
    have h2 := sOf_sq hAB
    simp only [fieldEllip_y hw hx h, Res.ok_bind, Nat.cast_ofNat, cdiv_ok n1, pi_real, cdiv_ok n2, cdiv_ok n3, cdiv_ok n4,
      cdiv_ok hx.ne', cdiv_ok hy.ne', ex, Res.pure_eq, Res.ok_inj, exG, eyG, gxG, gyG, if_neg (not_lt.mpr hAB.le), eA, eB,
      gA, gB, hk, h2, ex2, pEps, Field4.mk.injEq, true_and]
    have n5 : 2 * (sy ^ 2 - sx ^ 2) ≠ 0 := by linarith
    have e5 : 2 * (sx * sx - sy * sy) = -(2 * (sy ^ 2 - sx ^ 2)) := by ring
    rw [e5]
    generalize 2 * (sy ^ 2 - sx ^ 2) = D at *
    constructor <;> field_simp <;> ring
  · have hAB : sy ^ 2 < sx ^ 2 := pow_lt_pow_left₀ h hy.le two_ne_zero
    have hk := kRatio_of_sq hy hx
    have h2 := sOf_sq hAB
    simp only [fieldEllip_x hw hy h, Res.ok_bind, Nat.cast_ofNat, cdiv_ok n1, pi_real, cdiv_ok n2, cdiv_ok n3, cdiv_ok n4,
      cdiv_ok hx.ne', cdiv_ok hy.ne', ex, Res.pure_eq, Res.ok_inj, exG, eyG, gxG, gyG, if_pos hAB, eA, eB,
      gA, gB, hk, h2, pEps, Field4.mk.injEq, true_and]
    have n5 : 2 * (sx ^ 2 - sy ^ 2) ≠ 0 := by linarith
    have e5 : 2 * (sx * sx - sy * sy) = 2 * (sx ^ 2 - sy ^ 2) := by ring
    rw [e5]
    generalize 2 * (sx ^ 2 - sy ^ 2) = D at *
    constructor <;> field_simp

theorem gaussE_eq {w : ℂ → ℂ} (hw : IsFaddeeva w) {minDiff sx sy : ℝ} (hx : 0 < sx) (hy : 0 < sy) (hne : sx ≠ sy)
    (hd : minDiff ≤ |sx - sy|) (x y : ℝ) :
    gaussE (wRes w) minDiff sx sy x y = .ok (exG w x y (sx ^ 2) (sy ^ 2), eyG w x y (sx ^ 2) (sy ^ 2)) := by
  unfold gaussE
  rw [if_neg (by rw [fabs_eq]; exact not_lt.mpr hd)]
  rcases lt_or_gt_of_ne hne with h | h
  · have hAB : sx ^ 2 < sy ^ 2 := pow_lt_pow_left₀ h hx.le two_ne_zero
    simp only [fieldEllip_y hw hx h, exG, eyG, if_neg (not_lt.mpr hAB.le), eA, eB]
  · have hAB : sy ^ 2 < sx ^ 2 := pow_lt_pow_left₀ h hy.le two_ne_zero
    simp only [fieldEllip_x hw hy h, exG, eyG, if_pos hAB, eA, eB]

section
variable {w : ℂ → ℂ} (hw : IsFaddeeva w) {x y P Q : ℝ → ℝ} {x' y' P' Q' t : ℝ}
  (hx : HasDerivAt x x' t) (hy : HasDerivAt y y' t)
  (hP : HasDerivAt P P' t) (hQ : HasDerivAt Q Q' t) (hP0 : 0 < P t) (hQ0 : 0 < Q t) (hne : P t ≠ Q t)
include hw hx hy hP hQ hP0 hQ0 hne

/-- The derivatives along any curve. -/
theorem hasDerivAt_gauss :
    HasDerivAt (fun t => exG w (x t) (y t) (P t) (Q t)) (2 * gxG w (x t) (y t) (P t) (Q t) * x' +
      mXY w (x t) (y t) (P t) (Q t) * y' + mXP w (x t) (y t) (P t) (Q t) * P' + mXQ w (x t) (y t) (P t) (Q t) * Q') t ∧
    HasDerivAt (fun t => eyG w (x t) (y t) (P t) (Q t)) (mXY w (x t) (y t) (P t) (Q t) * x' +
      2 * gyG w (x t) (y t) (P t) (Q t) * y' + mYP w (x t) (y t) (P t) (Q t) * P' +
      mYQ w (x t) (y t) (P t) (Q t) * Q') t ∧
    HasDerivAt (fun t => gxG w (x t) (y t) (P t) (Q t)) (mXP w (x t) (y t) (P t) (Q t) * x' +
      mYP w (x t) (y t) (P t) (Q t) * y' + mPP w (x t) (y t) (P t) (Q t) * P' + mPQ w (x t) (y t) (P t) (Q t) * Q') t ∧
    HasDerivAt (fun t => gyG w (x t) (y t) (P t) (Q t)) (mXQ w (x t) (y t) (P t) (Q t) * x' +
      mYQ w (x t) (y t) (P t) (Q t) * y' + mPQ w (x t) (y t) (P t) (Q t) * P' +
      mQQ w (x t) (y t) (P t) (Q t) * Q') t := by
  rcases lt_or_gt_of_ne hne with h | h
  · have hev : ∀ᶠ s in nhds t, P s < Q s :=
      (hP.continuousAt.prodMk hQ.continuousAt).eventually (isOpen_lt continuous_fst continuous_snd |>.mem_nhds h)
    have c : ∀ (f g : ℝ → ℝ → ℝ → ℝ → ℝ), (fun t => if Q t < P t then f (x t) (y t) (P t) (Q t) else
        g (y t) (x t) (Q t) (P t)) =ᶠ[nhds t] (fun t => g (y t) (x t) (Q t) (P t)) := by
      intro f g
      filter_upwards [hev] with s hs
      rw [if_neg (not_lt.mpr hs.le)]
    have hn : ¬ Q t < P t := not_lt.mpr h.le
    unfold exG eyG gxG gyG mXY mXP mXQ mYP mYQ mPP mPQ mQQ
    simp only [if_neg hn]
    refine ⟨?_, ?_, ?_, ?_⟩
    · refine ((hasDerivAt_eB hw hy hx hQ hP hP0 h).congr_deriv ?_).congr_of_eventuallyEq (c _ _)
      ring
    · refine ((hasDerivAt_eA hw hy hx hQ hP hP0 h).congr_deriv ?_).congr_of_eventuallyEq (c _ _)
      ring
    · refine ((hasDerivAt_gB hw hy hx hQ hP hP0 h).congr_deriv ?_).congr_of_eventuallyEq (c _ _)
      ring
    · refine ((hasDerivAt_gA hw hy hx hQ hP hP0 h).congr_deriv ?_).congr_of_eventuallyEq (c _ _)
      ring
  · have hev : ∀ᶠ s in nhds t, Q s < P s :=
      (hQ.continuousAt.prodMk hP.continuousAt).eventually (isOpen_lt continuous_fst continuous_snd |>.mem_nhds h)
    have c : ∀ (f g : ℝ → ℝ → ℝ → ℝ → ℝ), (fun t => if Q t < P t then f (x t) (y t) (P t) (Q t) else
        g (y t) (x t) (Q t) (P t)) =ᶠ[nhds t] (fun t => f (x t) (y t) (P t) (Q t)) := by
      intro f g
      filter_upwards [hev] with s hs
      rw [if_pos hs]
    have hn : Q t < P t := h
    unfold exG eyG gxG gyG mXY mXP mXQ mYP mYQ mPP mPQ mQQ
    simp only [if_pos hn]
    exact ⟨(hasDerivAt_eA hw hx hy hP hQ hQ0 h).congr_of_eventuallyEq (c _ _),
      (hasDerivAt_eB hw hx hy hP hQ hQ0 h).congr_of_eventuallyEq (c _ _),
      (hasDerivAt_gA hw hx hy hP hQ hQ0 h).congr_of_eventuallyEq (c _ _),
      (hasDerivAt_gB hw hx hy hP hQ hQ0 h).congr_of_eventuallyEq (c _ _)⟩

end

theorem gauss_div (w : ℂ → ℂ) (x y : ℝ) {P Q : ℝ} (hP : 0 < P) (hQ : 0 < Q) (hne : P ≠ Q) :
    2 * gxG w x y P Q + 2 * gyG w x y P Q = xExp x y P Q / (2 * Real.pi * Real.sqrt P * Real.sqrt Q) / eps0 := by
  rcases lt_or_gt_of_ne hne with h | h
  · unfold gxG gyG
    rw [if_neg (not_lt.mpr h.le), if_neg (not_lt.mpr h.le), add_comm, gA_add_gB w _ _ hP h]
    rw [show xExp y x Q P = xExp x y P Q by unfold xExp; congr 1; ring]
    ring
  · unfold gxG gyG
    rw [if_pos h, if_pos h, gA_add_gB w _ _ hQ h]

end Beam
end SixTrack
