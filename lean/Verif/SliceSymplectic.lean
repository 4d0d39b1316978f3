import Verif.SliceModel

/-!
# The kick of a slice is symplectic
-/

namespace SixTrack
namespace Beam

open Complex Elem
open scoped Topology

theorem continuousAt_hatOf {c s : ℝ → ℝ} {sl : Slice ℝ} {v : V}
    (hc : ContinuousAt c ((v.2.2.2.2.1 - sl.sigma) / 2)) (hs : ContinuousAt s ((v.2.2.2.2.1 - sl.sigma) / 2)) :
    ContinuousAt (hatOf c s sl) v := by
  have lin : ContinuousAt (fun v : V => (v.2.2.2.2.1 - sl.sigma) / 2) v := by fun_prop
  have kc : ContinuousAt (fun v : V => c ((v.2.2.2.2.1 - sl.sigma) / 2)) v := ContinuousAt.comp (x := v) hc lin
  have ks : ContinuousAt (fun v : V => s ((v.2.2.2.2.1 - sl.sigma) / 2)) v := ContinuousAt.comp (x := v) hs lin
  unfold hatOf
  simp only
  fun_prop

section
variable {w : ℝ → ℝ → Res (ℝ × ℝ)} {bb : BB6D ℝ} {q0 P0 : ℝ} {sl : Slice ℝ} {v : V}
  {c s p q c1 s1 p1 q1 : ℝ → ℝ} {e1 e2 g1 g2 : Fun4} {m11 m12 m13 m14 m22 m23 m24 m33 m34 m44 : ℝ}

/-- What is needed of the field near the point where it is evaluated. -/
def FieldNear (w : ℝ → ℝ → Res (ℝ × ℝ)) (minDiff : ℝ) (p q p1 q1 : ℝ → ℝ) (e1 e2 g1 g2 : Fun4) (z : ℝ × ℝ × ℝ) : Prop :=
  0 ≤ p z.2.2 ∧ 0 ≤ q z.2.2 ∧ ∃ f : Field4 ℝ,
    gaussG w minDiff (Real.sqrt (p z.2.2)) (Real.sqrt (q z.2.2)) z.1 z.2.1 = .ok f ∧
    f.ex = e1 z.1 z.2.1 (p z.2.2) (q z.2.2) ∧ f.ey = e2 z.1 z.2.1 (p z.2.2) (q z.2.2) ∧
    f.gx * p1 z.2.2 + f.gy * q1 z.2.2 =
      g1 z.1 z.2.1 (p z.2.2) (q z.2.2) * p1 z.2.2 + g2 z.1 z.2.1 (p z.2.2) (q z.2.2) * q1 z.2.2

theorem slice_near (hP : P0 * cLight ≠ 0)
    (hsh : ShapeAt bb.sigmas bb.threshold (hatOf c s sl v).2.2 c s p q c1 s1 p1 q1)
    (hf : ∀ᶠ z in 𝓝 (hatOf c s sl v), FieldNear w bb.minSigmaDiff p q p1 q1 e1 e2 g1 g2 z) :
    ∀ᶠ u in 𝓝 v, sliceKick w bb q0 P0 (starOf u) sl =
      .ok (starOf (sliceMap (sliceK bb q0 P0 sl) e1 e2 g1 g2 c s p q c1 s1 p1 q1 sl u)) := by
  have lin : ContinuousAt (fun v : V => (v.2.2.2.2.1 - sl.sigma) / 2) v := by fun_prop
  have ev : ∀ᶠ u in 𝓝 v, propagate bb.sigmas (hatOf c s sl u).2.2 bb.threshold = _ := lin.eventually hsh.ev
  have hh := continuousAt_hatOf (sl := sl) (v := v) hsh.hc.continuousAt hsh.hs.continuousAt
  filter_upwards [ev, hh.eventually hf] with u h1 h2
  obtain ⟨a1, a2, f, a3, a4, a5, a6⟩ := h2
  exact slice_eq hP h1 a1 a2 a3 a4 a5 a6

theorem slice_symplectic {k : ℝ}
    (hsh : ShapeAt bb.sigmas bb.threshold (hatOf c s sl v).2.2 c s p q c1 s1 p1 q1)
    {X Y P Q : ℝ} (hX : X = (hatOf c s sl v).1) (hY : Y = (hatOf c s sl v).2.1)
    (hPP : P = p (hatOf c s sl v).2.2) (hQQ : Q = q (hatOf c s sl v).2.2)
    (h1 : Row e1 X Y P Q m11 m12 m13 m14) (h2 : Row e2 X Y P Q m12 m22 m23 m24)
    (h3 : Row g1 X Y P Q m13 m23 m33 m34) (h4 : Row g2 X Y P Q m14 m24 m34 m44)
    (d1 : DifferentiableAt ℝ (fun z : R4 => e1 z.1 z.2.1 z.2.2.1 z.2.2.2) (X, Y, P, Q))
    (d2 : DifferentiableAt ℝ (fun z : R4 => e2 z.1 z.2.1 z.2.2.1 z.2.2.2) (X, Y, P, Q))
    (d3 : DifferentiableAt ℝ (fun z : R4 => g1 z.1 z.2.1 z.2.2.1 z.2.2.2) (X, Y, P, Q))
    (d4 : DifferentiableAt ℝ (fun z : R4 => g2 z.1 z.2.1 z.2.2.1 z.2.2.2) (X, Y, P, Q)) :
    SymplecticAt (sliceMap k e1 e2 g1 g2 c s p q c1 s1 p1 q1 sl) v := by
  have hu : qOf (slideMap 1 sl.sigma v) = (v.1 + v.2.1 * ((v.2.2.2.2.1 - sl.sigma) / 2),
      v.2.2.1 + v.2.2.2.1 * ((v.2.2.2.2.1 - sl.sigma) / 2), v.2.2.2.2.1) := by
    simp [qOf, slideMap]
  generalize hu' : ((v.1 + v.2.1 * ((v.2.2.2.2.1 - sl.sigma) / 2),
      v.2.2.1 + v.2.2.2.1 * ((v.2.2.2.2.1 - sl.sigma) / 2), v.2.2.2.2.1) : E3) = u at hu
  have eS : (hatOf c s sl v).2.2 = (u.2.2 - sl.sigma) / 2 := by rw [← hu']; rfl
  have eX : (hatOf c s sl v).1 = (u.1 - sl.x) * c ((u.2.2 - sl.sigma) / 2) + (u.2.1 - sl.y) * s ((u.2.2 - sl.sigma) / 2) := by
    rw [← hu']; rfl
  have eY : (hatOf c s sl v).2.1 = -(u.1 - sl.x) * s ((u.2.2 - sl.sigma) / 2) + (u.2.1 - sl.y) * c ((u.2.2 - sl.sigma) / 2) := by
    rw [← hu']; rfl
  rw [eS] at hsh hPP hQQ
  rw [eX] at hX
  rw [eY] at hY
  have hz : ((X, Y, P, Q) : R4) = ((u.1 - sl.x) * c ((u.2.2 - sl.sigma) / 2) + (u.2.1 - sl.y) * s ((u.2.2 - sl.sigma) / 2),
      -(u.1 - sl.x) * s ((u.2.2 - sl.sigma) / 2) + (u.2.1 - sl.y) * c ((u.2.2 - sl.sigma) / 2), p ((u.2.2 - sl.sigma) / 2),
      q ((u.2.2 - sl.sigma) / 2)) := by rw [hX, hY, hPP, hQQ]
  have hd := pullF_diff (k := k) hsh.hc.differentiableAt hsh.hs.differentiableAt hsh.hp.differentiableAt hsh.hq.differentiableAt
    hsh.dc hsh.ds hsh.dp hsh.dq hz d1 d2 d3 d4
  obtain ⟨L, hL, hsym⟩ := pullF_symm (k := k) hsh.hc hsh.hs hsh.hp hsh.hq hsh.dc.hasDerivAt hsh.ds.hasDerivAt hsh.dp.hasDerivAt
    hsh.dq.hasDerivAt hX hY hPP hQQ h1 h2 h3 h4 hd
  rw [← hu] at hL
  exact ((slideMap_symplectic 1 sl.sigma v).comp (kickMap_symplectic hL hsym)).comp (slideMap_symplectic (-1) sl.sigma _)
end

/-! ### Elliptic beams -/

section
variable {w : ℂ → ℂ} (hw : IsFaddeeva w) {bb : BB6D ℝ} {q0 P0 : ℝ} {sl : Slice ℝ} {v : V}
  {c s p q c1 s1 p1 q1 : ℝ → ℝ}
include hw

theorem field_near_gauss {minDiff : ℝ} {z : ℝ × ℝ × ℝ} (hp : ContinuousAt p z.2.2) (hq : ContinuousAt q z.2.2)
    (h1 : 0 < p z.2.2) (h2 : 0 < q z.2.2) (h0 : 0 ≤ minDiff) (hd : minDiff < |Real.sqrt (p z.2.2) - Real.sqrt (q z.2.2)|) :
    ∀ᶠ z in 𝓝 z, FieldNear (wRes w) minDiff p q p1 q1 (exG w) (eyG w) (gxG w) (gyG w) z := by
  have lin : ContinuousAt (fun z : ℝ × ℝ × ℝ => z.2.2) z := by fun_prop
  have kp : ContinuousAt (fun z : ℝ × ℝ × ℝ => p z.2.2) z := ContinuousAt.comp (x := z) hp lin
  have kq : ContinuousAt (fun z : ℝ × ℝ × ℝ => q z.2.2) z := ContinuousAt.comp (x := z) hq lin
  have kd : ContinuousAt (fun z : ℝ × ℝ × ℝ => |Real.sqrt (p z.2.2) - Real.sqrt (q z.2.2)|) z :=
    ((Real.continuous_sqrt.continuousAt.comp kp).sub (Real.continuous_sqrt.continuousAt.comp kq)).abs
  filter_upwards [kp.eventually (lt_mem_nhds h1), kq.eventually (lt_mem_nhds h2), kd.eventually (lt_mem_nhds hd)] with z a1 a2 a3
  have n1 := Real.sqrt_pos.mpr a1
  have n2 := Real.sqrt_pos.mpr a2
  have hne : Real.sqrt (p z.2.2) ≠ Real.sqrt (q z.2.2) := by
    intro h; rw [h, sub_self, abs_zero] at a3; linarith
  have := gaussG_eq hw n1 n2 hne a3.le z.1 z.2.1
  rw [Real.sq_sqrt a1.le, Real.sq_sqrt a2.le] at this
  exact ⟨a1.le, a2.le, _, this, rfl, rfl, rfl⟩

theorem slice_gauss (hP : P0 * cLight ≠ 0)
    (hsh : ShapeAt bb.sigmas bb.threshold (hatOf c s sl v).2.2 c s p q c1 s1 p1 q1)
    (h1 : 0 < p (hatOf c s sl v).2.2) (h2 : 0 < q (hatOf c s sl v).2.2) (h0 : 0 ≤ bb.minSigmaDiff)
    (hd : bb.minSigmaDiff < |Real.sqrt (p (hatOf c s sl v).2.2) - Real.sqrt (q (hatOf c s sl v).2.2)|) :
    ∃ G : V → V, (∀ᶠ u in 𝓝 v, sliceKick (wRes w) bb q0 P0 (starOf u) sl = .ok (starOf (G u))) ∧ SymplecticAt G v := by
  have hne : p (hatOf c s sl v).2.2 ≠ q (hatOf c s sl v).2.2 := by
    intro h; rw [h, sub_self, abs_zero] at hd; linarith
  obtain ⟨r1, r2, r3, r4⟩ := row_gauss hw (x := (hatOf c s sl v).1) (y := (hatOf c s sl v).2.1) h1 h2 hne
  obtain ⟨d1, d2, d3, d4⟩ := diff_gauss hw (z := ((hatOf c s sl v).1, (hatOf c s sl v).2.1, p (hatOf c s sl v).2.2,
    q (hatOf c s sl v).2.2)) h1 h2 hne
  exact ⟨_, slice_near hP hsh (field_near_gauss hw hsh.hp.continuousAt hsh.hq.continuousAt h1 h2 h0 hd),
    slice_symplectic hsh rfl rfl rfl rfl r1 r2 r3 r4 d1 d2 d3 d4⟩
end

/-! ### Round beams -/

/-- The field of a round beam as a function of the two squares of the size. -/
noncomputable def exR : Fun4 := fun x y p q => rX x y ((p + q) / 2)
noncomputable def eyR : Fun4 := fun x y p q => rY x y ((p + q) / 2)
noncomputable def gR : Fun4 := fun x y p q => rG x y ((p + q) / 2) / 2

theorem row_round {x y p q : ℝ} (hp : 0 < p + q) (hr : x ^ 2 + y ^ 2 ≠ 0) :
    let P := (p + q) / 2
    let a := -x / P * rG x y P / 2
    let b := -y / P * rG x y P / 2
    let e := ((x ^ 2 + y ^ 2) / (2 * P) - 1) / P * rG x y P / 4
    Row exR x y p q (rXX x y P) (rXY x y P) a a ∧ Row eyR x y p q (rXY x y P) (rYY x y P) b b ∧
    Row gR x y p q a b e e := by
  intro P a b e
  refine ⟨?_, ?_, ?_⟩ <;> intro cx cy cp cq x' y' p' q' hx hy hp' hq' dx dy dp dq <;> subst hx hy hp' hq'
  · refine (hasDerivAt_rX dx dy ((dp.add dq).div_const 2) (by simp only [Pi.add_apply]; linarith) hr).congr_deriv ?_
    simp only [Pi.add_apply, a, P]
    ring
  · refine (hasDerivAt_rY dx dy ((dp.add dq).div_const 2) (by simp only [Pi.add_apply]; linarith) hr).congr_deriv ?_
    simp only [Pi.add_apply, b, P]
    ring
  · refine ((hasDerivAt_rG dx dy ((dp.add dq).div_const 2) (by simp only [Pi.add_apply]; linarith)).div_const 2).congr_deriv ?_
    simp only [Pi.add_apply, a, b, e, P]
    ring

theorem diff_round {z : R4} (hp : 0 < z.2.2.1 + z.2.2.2) (hr : z.1 ^ 2 + z.2.1 ^ 2 ≠ 0) :
    DifferentiableAt ℝ (fun z : R4 => exR z.1 z.2.1 z.2.2.1 z.2.2.2) z ∧
    DifferentiableAt ℝ (fun z : R4 => eyR z.1 z.2.1 z.2.2.1 z.2.2.2) z ∧
    DifferentiableAt ℝ (fun z : R4 => gR z.1 z.2.1 z.2.2.1 z.2.2.2) z := by
  have he := eps0_pos
  have hpi := Real.pi_pos
  have n1 : 2 * ((z.2.2.1 + z.2.2.2) / 2) ≠ 0 := by linarith
  have n2 : 2 * Real.pi * eps0 * (z.1 ^ 2 + z.2.1 ^ 2) ≠ 0 := by positivity
  refine ⟨?_, ?_, ?_⟩
  · unfold exR rX rTemp
    fun_prop (disch := assumption)
  · unfold eyR rY rTemp
    fun_prop (disch := assumption)
  · unfold gR rG
    fun_prop (disch := assumption)

theorem slice_round {w : ℝ → ℝ → Res (ℝ × ℝ)} {bb : BB6D ℝ} {q0 P0 : ℝ} {sl : Slice ℝ} {v : V}
    {c s p c1 s1 p1 : ℝ → ℝ} (hP : P0 * cLight ≠ 0)
    (hsh : ShapeAt bb.sigmas bb.threshold (hatOf c s sl v).2.2 c s p p c1 s1 p1 p1)
    (h1 : 0 < p (hatOf c s sl v).2.2) (h0 : 0 < bb.minSigmaDiff)
    (hr : 1 / 10 ^ 20 < (hatOf c s sl v).1 ^ 2 + (hatOf c s sl v).2.1 ^ 2) :
    ∃ G : V → V, (∀ᶠ u in 𝓝 v, sliceKick w bb q0 P0 (starOf u) sl = .ok (starOf (G u))) ∧ SymplecticAt G v := by
  have hr0 : (hatOf c s sl v).1 ^ 2 + (hatOf c s sl v).2.1 ^ 2 ≠ 0 := (lt_trans (by norm_num) hr).ne'
  have hpp : 0 < p (hatOf c s sl v).2.2 + p (hatOf c s sl v).2.2 := by linarith
  obtain ⟨r1, r2, r3⟩ := row_round hpp hr0
  obtain ⟨d1, d2, d3⟩ := diff_round (z := ((hatOf c s sl v).1, (hatOf c s sl v).2.1, p (hatOf c s sl v).2.2,
    p (hatOf c s sl v).2.2)) hpp hr0
  refine ⟨_, slice_near hP hsh ?_, slice_symplectic hsh rfl rfl rfl rfl r1 r2 r3 r3 d1 d2 d3 d3⟩
  have lin : ContinuousAt (fun z : ℝ × ℝ × ℝ => z.2.2) (hatOf c s sl v) := by fun_prop
  have kp : ContinuousAt (fun z : ℝ × ℝ × ℝ => p z.2.2) (hatOf c s sl v) :=
    ContinuousAt.comp (x := hatOf c s sl v) hsh.hp.continuousAt lin
  have kr : ContinuousAt (fun z : ℝ × ℝ × ℝ => z.1 ^ 2 + z.2.1 ^ 2) (hatOf c s sl v) := by fun_prop
  filter_upwards [kp.eventually (lt_mem_nhds h1), kr.eventually (lt_mem_nhds hr)] with z a1 a2
  have n1 := Real.sqrt_pos.mpr a1
  refine ⟨a1.le, a1.le, _, gaussG_round (by linarith) (by rw [sub_self, abs_zero]; exact h0) a2.le, ?_, ?_, ?_⟩
  · simp only [exR, add_self_div_two, Real.sq_sqrt a1.le]
  · simp only [eyR, add_self_div_two, Real.sq_sqrt a1.le]
  · simp only [gR, add_self_div_two, Real.sq_sqrt a1.le]
    have h := round_div a1 (lt_trans (by norm_num) a2).ne' (x := z.1) (y := z.2.1)
    have e : Real.exp (-(z.1 ^ 2 + z.2.1 ^ 2) / (2 * p z.2.2)) / (2 * Real.pi * p z.2.2) / eps0 = 2 * rG z.1 z.2.1 (p z.2.2) := by
      have he := eps0_pos
      have hpi := Real.pi_pos
      unfold rG pEps
      field_simp
    rw [e] at h
    linear_combination p1 z.2.2 / 2 * h

end Beam
end SixTrack
