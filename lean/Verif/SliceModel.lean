import Verif.GaussDiff
import Verif.GaussRound
import Verif.SigmaMatrix
import Verif.BoostSymplectic

/-!
# The kick of a slice: the model as a change of variables, a kick and the way back
-/

namespace SixTrack
namespace Beam

open Complex Elem
open scoped Topology

/-- Near `S` the shape of the beam is given by differentiable functions, and the derivatives the code
computes are their derivatives. -/
structure ShapeAt (d : Sigmas ℝ) (thr S : ℝ) (c s p q c1 s1 p1 q1 : ℝ → ℝ) : Prop where
  ev : ∀ᶠ t in 𝓝 S, propagate d t thr = .ok ⟨p t, q t, c t, s t, p1 t, q1 t, c1 t, s1 t⟩
  hc : HasDerivAt c (c1 S) S
  hs : HasDerivAt s (s1 S) S
  hp : HasDerivAt p (p1 S) S
  hq : HasDerivAt q (q1 S) S
  dc : DifferentiableAt ℝ c1 S
  ds : DifferentiableAt ℝ s1 S
  dp : DifferentiableAt ℝ p1 S
  dq : DifferentiableAt ℝ q1 S

theorem mysign_eventually {R : ℝ → ℝ} {S : ℝ} (hR : ContinuousAt R S) (h0 : R S ≠ 0) :
    ∀ᶠ t in 𝓝 S, mysign (R t) = mysign (R S) ∧ 0 < mysign (R S) * R t := by
  rcases lt_or_gt_of_ne h0 with h | h
  · refine (hR.eventually (gt_mem_nhds h)).mono fun t ht => ?_
    have e : ∀ a : ℝ, a < 0 → mysign a = -1 := fun a ha => by
      unfold mysign; rw [if_neg (not_le.mpr ha), if_pos ha]; norm_num
    rw [e _ ht, e _ h]
    exact ⟨rfl, by linarith⟩
  · refine (hR.eventually (lt_mem_nhds h)).mono fun t ht => ?_
    have e : ∀ a : ℝ, 0 < a → mysign a = 1 := fun a ha => by
      unfold mysign; rw [if_pos ha.le, if_neg (not_lt.mpr ha.le)]; norm_num
    rw [e _ ht, e _ h]
    exact ⟨rfl, by linarith⟩

/-- The difference of the diagonal entries, and its derivative. -/
def sR (d : Sigmas ℝ) (S : ℝ) : ℝ := sA d S - sB d S
def dR (d : Sigmas ℝ) (S : ℝ) : ℝ := dA d S - dB d S

theorem hasDerivAt_sR (d : Sigmas ℝ) (S : ℝ) : HasDerivAt (sR d) (dR d S) S :=
  (hasDerivAt_sA d S).sub (hasDerivAt_sB d S)

/-- The functions of the regular branch, with a fixed sign. -/
noncomputable def pS (d : Sigmas ℝ) (σ S : ℝ) : ℝ := (sA d S + sB d S + σ * Real.sqrt (sT d S)) / 2
noncomputable def qS (d : Sigmas ℝ) (σ S : ℝ) : ℝ := (sA d S + sB d S - σ * Real.sqrt (sT d S)) / 2
noncomputable def dTS (d : Sigmas ℝ) (S : ℝ) : ℝ := 2 * sR d S * dR d S + 8 * sC d S * dC d S
noncomputable def pS1 (d : Sigmas ℝ) (σ S : ℝ) : ℝ := (dA d S + dB d S + σ * dTS d S / (2 * Real.sqrt (sT d S))) / 2
noncomputable def qS1 (d : Sigmas ℝ) (σ S : ℝ) : ℝ := (dA d S + dB d S - σ * dTS d S / (2 * Real.sqrt (sT d S))) / 2
noncomputable def cS (d : Sigmas ℝ) (σ S : ℝ) : ℝ := cosOf σ (sR d S) (sC d S)
noncomputable def sS (d : Sigmas ℝ) (σ S : ℝ) : ℝ := sinOf σ (sR d S) (sC d S)
noncomputable def kS1 (d : Sigmas ℝ) (σ S : ℝ) : ℝ := dK σ (sR d S) (sC d S) (dR d S) (dC d S)
noncomputable def cS1 (d : Sigmas ℝ) (σ S : ℝ) : ℝ := kS1 d σ S / (4 * cS d σ S)
noncomputable def sS1 (d : Sigmas ℝ) (σ S : ℝ) : ℝ := -kS1 d σ S / (4 * sS d σ S)

section
variable {d : Sigmas ℝ} {σ S thr : ℝ}

theorem sT_eq (d : Sigmas ℝ) (S : ℝ) : sT d S = sR d S ^ 2 + 4 * sC d S ^ 2 := rfl

theorem hasDerivAt_sT (d : Sigmas ℝ) (S : ℝ) : HasDerivAt (sT d) (dTS d S) S := by
  have := ((hasDerivAt_sR d S).pow 2).add (((hasDerivAt_sC d S).pow 2).const_mul 4)
  refine this.congr_deriv ?_
  simp only [dTS, Nat.cast_ofNat]
  ring

theorem hasDerivAt_pS (hT : sT d S ≠ 0) : HasDerivAt (pS d σ) (pS1 d σ S) S := by
  have := (((hasDerivAt_sA d S).add (hasDerivAt_sB d S)).add (((hasDerivAt_sT d S).sqrt hT).const_mul σ)).div_const 2
  refine this.congr_deriv ?_
  simp only [pS1, mul_div_assoc]

theorem hasDerivAt_qS (hT : sT d S ≠ 0) : HasDerivAt (qS d σ) (qS1 d σ S) S := by
  have := (((hasDerivAt_sA d S).add (hasDerivAt_sB d S)).sub (((hasDerivAt_sT d S).sqrt hT).const_mul σ)).div_const 2
  refine this.congr_deriv ?_
  simp only [qS1, mul_div_assoc]

theorem diff_lin (d : Sigmas ℝ) (S : ℝ) : DifferentiableAt ℝ (dA d) S ∧ DifferentiableAt ℝ (dB d) S ∧
    DifferentiableAt ℝ (dC d) S ∧ DifferentiableAt ℝ (dR d) S := by
  refine ⟨?_, ?_, ?_, ?_⟩
  · unfold dA; fun_prop
  · unfold dB; fun_prop
  · unfold dC; fun_prop
  · unfold dR dA dB; fun_prop

theorem diff_dTS (d : Sigmas ℝ) (S : ℝ) : DifferentiableAt ℝ (dTS d) S := by
  obtain ⟨h1, h2, h3, h4⟩ := diff_lin d S
  have k1 := (hasDerivAt_sR d S).differentiableAt
  have k2 := (hasDerivAt_sC d S).differentiableAt
  unfold dTS
  fun_prop

theorem diff_root (hT : 0 < sT d S) : DifferentiableAt ℝ (fun t => Real.sqrt (sT d t)) S ∧ Real.sqrt (sT d S) ≠ 0 :=
  ⟨((hasDerivAt_sT d S).sqrt hT.ne').differentiableAt, (Real.sqrt_pos.mpr hT).ne'⟩

theorem diff_pS1 (hT : 0 < sT d S) : DifferentiableAt ℝ (pS1 d σ) S := by
  obtain ⟨h1, h2, h3, h4⟩ := diff_lin d S
  obtain ⟨h5, h6⟩ := diff_root hT
  have h7 := diff_dTS d S
  have h8 : 2 * Real.sqrt (sT d S) ≠ 0 := by positivity
  unfold pS1
  fun_prop (disch := assumption)

theorem diff_qS1 (hT : 0 < sT d S) : DifferentiableAt ℝ (qS1 d σ) S := by
  obtain ⟨h1, h2, h3, h4⟩ := diff_lin d S
  obtain ⟨h5, h6⟩ := diff_root hT
  have h7 := diff_dTS d S
  have h8 : 2 * Real.sqrt (sT d S) ≠ 0 := by positivity
  unfold qS1
  fun_prop (disch := assumption)

theorem diff_kS1 (hT : 0 < sT d S) : DifferentiableAt ℝ (kS1 d σ) S := by
  obtain ⟨h1, h2, h3, h4⟩ := diff_lin d S
  obtain ⟨h5, h6⟩ := diff_root hT
  have k1 := (hasDerivAt_sR d S).differentiableAt
  have k2 := (hasDerivAt_sC d S).differentiableAt
  have h8 : 2 * Real.sqrt (sT d S) ^ 3 ≠ 0 := by positivity
  unfold kS1 dK
  simp only [← sT_eq]
  fun_prop (disch := assumption)

/-- The regular branch away from its borders. -/
theorem shape_regular (h0 : 0 < thr) (h1 : thr ≤ 1 / 2) (hT : thr < sT d S) (hR : sR d S ≠ 0)
    (hs : thr < |sS d (mysign (sR d S)) S|) :
    ShapeAt d thr S (cS d (mysign (sR d S))) (sS d (mysign (sR d S))) (pS d (mysign (sR d S)))
      (qS d (mysign (sR d S))) (cS1 d (mysign (sR d S))) (sS1 d (mysign (sR d S))) (pS1 d (mysign (sR d S)))
      (qS1 d (mysign (sR d S))) := by
  have hσ : mysign (sR d S) ^ 2 = 1 := mysign_sq _
  have hsg := mysign_eventually (hasDerivAt_sR d S).continuousAt hR
  have hpos := hsg.self_of_nhds.2
  generalize mysign (sR d S) = σ at *
  have hT0 : 0 < sT d S := h0.trans hT
  have hs0 : sS d σ S ≠ 0 := fun h => by rw [h, abs_zero] at hs; linarith
  obtain ⟨-, a1, a2, -⟩ := axes (hasDerivAt_sR d S) (hasDerivAt_sC d S) hσ hpos.le hT0
  have d1 : HasDerivAt (cS d σ) (cS1 d σ S) S := a1
  have d2 : HasDerivAt (sS d σ) (sS1 d σ S) S := a2 hs0
  have hk := diff_kS1 (σ := σ) hT0
  have hc0 : cS d σ S ≠ 0 := by
    have hr : 0 < Real.sqrt (sR d S ^ 2 + 4 * sC d S ^ 2) := Real.sqrt_pos.mpr hT0
    have hk0 : 0 ≤ kOf σ (sR d S) (sC d S) := div_nonneg hpos.le hr.le
    exact (Real.sqrt_pos.mpr (by linarith)).ne'
  refine ⟨?_, d1, d2, hasDerivAt_pS hT0.ne', hasDerivAt_qS hT0.ne', ?_, ?_, diff_pS1 hT0, diff_qS1 hT0⟩
  · have e1 : ∀ᶠ t in 𝓝 S, thr < sT d t := (hasDerivAt_sT d S).continuousAt.eventually (lt_mem_nhds hT)
    have e2 : ∀ᶠ t in 𝓝 S, thr < |sS d σ t| := d2.continuousAt.abs.eventually (lt_mem_nhds hs)
    filter_upwards [hsg, e1, e2] with t g1 g2 g3
    have := propagate_regular h0 h1 g2.le
    simp only [show sA d t - sB d t = sR d t from rfl, g1.1] at this
    rw [this, if_neg (show ¬|sinOf σ (sR d t) (sC d t)| < thr from not_lt.mpr g3.le)]
    rfl
  · have h4 : 4 * cS d σ S ≠ 0 := by positivity
    have := d1.differentiableAt
    unfold cS1
    fun_prop (disch := assumption)
  · have h4 : 4 * sS d σ S ≠ 0 := by positivity
    have := d2.differentiableAt
    unfold sS1
    fun_prop (disch := assumption)

/-- No correlation between the planes. -/
def Uncoupled (d : Sigmas ℝ) : Prop := d.s13 = 0 ∧ d.s14 = 0 ∧ d.s23 = 0 ∧ d.s24 = 0

theorem Uncoupled.sC (h : Uncoupled d) (t : ℝ) : sC d t = 0 ∧ dC d t = 0 := by
  obtain ⟨h1, h2, h3, h4⟩ := h
  unfold Beam.sC Beam.dC
  rw [h1, h2, h3, h4]
  constructor <;> ring

/-- Beams without correlation between the planes. -/
theorem shape_uncoupled (h0 : 0 < thr) (h1 : thr ≤ 1 / 2) (hT : thr < sT d S) (hu : Uncoupled d) :
    ShapeAt d thr S (fun _ => 1) (fun _ => 0) (sA d) (sB d) (fun _ => 0) (fun _ => 0) (dA d) (dB d) := by
  obtain ⟨k1, k2, k3, k4⟩ := diff_lin d S
  refine ⟨?_, hasDerivAt_const _ _, hasDerivAt_const _ _, hasDerivAt_sA d S, hasDerivAt_sB d S, by fun_prop, by fun_prop, k1, k2⟩
  have e1 : ∀ᶠ t in 𝓝 S, thr < sT d t := (hasDerivAt_sT d S).continuousAt.eventually (lt_mem_nhds hT)
  refine e1.mono fun t ht => ?_
  rw [propagate_regular h0 h1 ht.le]
  obtain ⟨c1, c2⟩ := hu.sC t
  have hR : sA d t - sB d t ≠ 0 := by
    intro h
    have : sT d t = 0 := by unfold sT; rw [h, c1]; ring
    linarith
  generalize hRR : sA d t - sB d t = R at *
  have hσ := mysign_sq R
  have hm := mysign_mul R
  generalize mysign R = σ at *
  have hσ0 : σ ≠ 0 := by rintro rfl; norm_num at hσ
  have ha : 0 < |R| := abs_pos.mpr hR
  have hr : Real.sqrt (R ^ 2 + 4 * 0 ^ 2) = |R| := by
    rw [show R ^ 2 + 4 * (0 : ℝ) ^ 2 = R ^ 2 by ring, Real.sqrt_sq_eq_abs]
  have hrt : Real.sqrt (sT d t) = |R| := by
    rw [sT, hRR, c1, hr]
  have ek : kOf σ R 0 = 1 := by
    rw [kOf, hr, hm, div_self ha.ne']
  have ec : cosOf σ R 0 = 1 := by rw [cosOf, ek]; norm_num
  have es : sinOf σ R 0 = 0 := by rw [sinOf]; simp
  have ed : dK σ R 0 (dA d t - dB d t) 0 = 0 := by
    rw [dK, hr, ← hm]
    field_simp
    linear_combination (2 * R * (dA d t - dB d t)) * hσ
  have er : σ * |R| = R := by rw [← hm]; linear_combination R * hσ
  have er2 : σ * (2 * R * (dA d t - dB d t) + 8 * 0 * 0) / (2 * |R|) = dA d t - dB d t := by
    rw [← hm]; field_simp; ring
  simp only [c1, c2, ec, es, ed, hrt, er, er2, abs_zero, h0, if_true, zero_div]
  rw [← hRR]
  congr 2 <;> ring

/-- Beams which are round at every distance. -/
def AlwaysRound (d : Sigmas ℝ) : Prop := Uncoupled d ∧ d.s11 = d.s33 ∧ d.s12 = d.s34 ∧ d.s22 = d.s44

theorem shape_round (h0 : 0 < thr) (hr : AlwaysRound d) :
    ShapeAt d thr S (fun _ => 1) (fun _ => 0) (sA d) (sA d) (fun _ => 0) (fun _ => 0) (dA d) (dA d) := by
  obtain ⟨hu, r1, r2, r3⟩ := hr
  obtain ⟨k1, k2, k3, k4⟩ := diff_lin d S
  refine ⟨?_, hasDerivAt_const _ _, hasDerivAt_const _ _, hasDerivAt_sA d S, hasDerivAt_sA d S, by fun_prop, by fun_prop, k1, k1⟩
  refine Filter.Eventually.of_forall fun t => ?_
  obtain ⟨c1, c2⟩ := hu.sC t
  have eA : sB d t = sA d t := by unfold sA sB; rw [r1, r2, r3]
  have eD : dB d t = dA d t := by unfold dA dB; rw [r2, r3]
  have eT : sT d t = 0 := by unfold sT; rw [eA, c1]; ring
  have ea : cA d t = 0 := by unfold cA; rw [eD]; ring
  rw [propagate_degenerate h0 (by rw [eT]; exact h0) (by rw [ea, c2]; norm_num; exact h0)]
  simp only [hu.2.2.2, abs_zero, not_lt.mpr h0.le, if_false, eA, eD]
  congr 2 <;> ring
end

/-! ### The slice -/

/-- The strength of a slice. -/
noncomputable def sliceK (bb : BB6D ℝ) (q0 P0 : ℝ) (sl : Slice ℝ) : ℝ := sl.nPart * bb.qPart * q0 / (P0 * cLight)

/-- The map of a slice. -/
noncomputable def sliceMap (k : ℝ) (e1 e2 g1 g2 : Fun4) (c s p q c1 s1 p1 q1 : ℝ → ℝ) (sl : Slice ℝ) (v : V) : V :=
  slideMap (-1) sl.sigma (kickMap (pullF k e1 e2 g1 g2 c s p q c1 s1 p1 q1 sl.x sl.y sl.sigma) (slideMap 1 sl.sigma v))

/-- Where the field is evaluated: the coordinates in the principal axes and the distance from the slice. -/
noncomputable def hatOf (c s : ℝ → ℝ) (sl : Slice ℝ) (v : V) : ℝ × ℝ × ℝ :=
  let S := (v.2.2.2.2.1 - sl.sigma) / 2
  let x := v.1 + v.2.1 * S - sl.x
  let y := v.2.2.1 + v.2.2.2.1 * S - sl.y
  (x * c S + y * s S, -x * s S + y * c S, S)

theorem slice_eq {w : ℝ → ℝ → Res (ℝ × ℝ)} {bb : BB6D ℝ} {q0 P0 : ℝ} {sl : Slice ℝ} {v : V} (hP : P0 * cLight ≠ 0)
    {c s p q c1 s1 p1 q1 : ℝ → ℝ} {e1 e2 g1 g2 : Fun4}
    (hsh : propagate bb.sigmas (hatOf c s sl v).2.2 bb.threshold =
      .ok ⟨p (hatOf c s sl v).2.2, q (hatOf c s sl v).2.2, c (hatOf c s sl v).2.2, s (hatOf c s sl v).2.2,
        p1 (hatOf c s sl v).2.2, q1 (hatOf c s sl v).2.2, c1 (hatOf c s sl v).2.2, s1 (hatOf c s sl v).2.2⟩)
    (hp : 0 ≤ p (hatOf c s sl v).2.2) (hq : 0 ≤ q (hatOf c s sl v).2.2) {f : Field4 ℝ}
    (hf : gaussG w bb.minSigmaDiff (Real.sqrt (p (hatOf c s sl v).2.2)) (Real.sqrt (q (hatOf c s sl v).2.2))
      (hatOf c s sl v).1 (hatOf c s sl v).2.1 = .ok f)
    (h1 : f.ex = e1 (hatOf c s sl v).1 (hatOf c s sl v).2.1 (p (hatOf c s sl v).2.2) (q (hatOf c s sl v).2.2))
    (h2 : f.ey = e2 (hatOf c s sl v).1 (hatOf c s sl v).2.1 (p (hatOf c s sl v).2.2) (q (hatOf c s sl v).2.2))
    (h3 : f.gx * p1 (hatOf c s sl v).2.2 + f.gy * q1 (hatOf c s sl v).2.2 =
      g1 (hatOf c s sl v).1 (hatOf c s sl v).2.1 (p (hatOf c s sl v).2.2) (q (hatOf c s sl v).2.2) * p1 (hatOf c s sl v).2.2 +
      g2 (hatOf c s sl v).1 (hatOf c s sl v).2.1 (p (hatOf c s sl v).2.2) (q (hatOf c s sl v).2.2) * q1 (hatOf c s sl v).2.2) :
    sliceKick w bb q0 P0 (starOf v) sl =
      .ok (starOf (sliceMap (sliceK bb q0 P0 sl) e1 e2 g1 g2 c s p q c1 s1 p1 q1 sl v)) := by
  unfold sliceKick
  simp only [cdiv_ok hP, Res.ok_bind, half_eq, show ((starOf v).sigma - sl.sigma) / 2 = (hatOf c s sl v).2.2 from rfl,
    hsh, csqrt_ok hp, csqrt_ok hq,
    show ((starOf v).x + (starOf v).px * (hatOf c s sl v).2.2 - sl.x) * c (hatOf c s sl v).2.2 +
      ((starOf v).y + (starOf v).py * (hatOf c s sl v).2.2 - sl.y) * s (hatOf c s sl v).2.2 = (hatOf c s sl v).1 from rfl,
    show -((starOf v).x + (starOf v).px * (hatOf c s sl v).2.2 - sl.x) * s (hatOf c s sl v).2.2 +
      ((starOf v).y + (starOf v).py * (hatOf c s sl v).2.2 - sl.y) * c (hatOf c s sl v).2.2 = (hatOf c s sl v).2.1 from rfl,
    hf, Res.pure_eq, Res.ok_inj]
  rw [show sl.nPart * bb.qPart * q0 / (P0 * cLight) = sliceK bb q0 P0 sl from rfl]
  have eX : (v.1 + 1 * v.2.1 * ((v.2.2.2.2.1 - sl.sigma) / 2) - sl.x) * c ((v.2.2.2.2.1 - sl.sigma) / 2) +
      (v.2.2.1 + 1 * v.2.2.2.1 * ((v.2.2.2.2.1 - sl.sigma) / 2) - sl.y) * s ((v.2.2.2.2.1 - sl.sigma) / 2) =
      (hatOf c s sl v).1 := by simp only [hatOf]; ring
  have eY : -(v.1 + 1 * v.2.1 * ((v.2.2.2.2.1 - sl.sigma) / 2) - sl.x) * s ((v.2.2.2.2.1 - sl.sigma) / 2) +
      (v.2.2.1 + 1 * v.2.2.2.1 * ((v.2.2.2.2.1 - sl.sigma) / 2) - sl.y) * c ((v.2.2.2.2.1 - sl.sigma) / 2) =
      (hatOf c s sl v).2.1 := by simp only [hatOf]; ring
  have eS : (v.2.2.2.2.1 - sl.sigma) / 2 = (hatOf c s sl v).2.2 := rfl
  simp only [sliceMap, slideMap, kickMap, pullF, starOf, qOf, eX, eY]
  simp only [eS, Beam.Star.mk.injEq]
  rw [h1, h2]
  generalize (hatOf c s sl v).2.2 = S at *
  generalize (hatOf c s sl v).1 = X at *
  generalize (hatOf c s sl v).2.1 = Y at *
  generalize sliceK bb q0 P0 sl = k
  refine ⟨?_, ?_, ?_, ?_, trivial, ?_⟩
  · ring
  · ring
  · ring
  · ring
  · linear_combination k / 2 * h3

end Beam
end SixTrack
