import Verif.SliceSymplectic
import Verif.KickMap
import Verif.QGaussReal
import Verif.Props.Elements

/-!
# The maps of the transverse field elements in closed form
-/

namespace SixTrack
namespace Beam

open Elem Filter Topology

/-- The field at the point is differentiable and has no curl. -/
def SmoothAt (E : ℝ → ℝ → ℝ × ℝ) (x y : ℝ) : Prop :=
  ∃ a b d : ℝ, ∃ L : ℝ × ℝ →L[ℝ] ℝ × ℝ, HasFDerivAt (fun z : ℝ × ℝ => E z.1 z.2) L (x, y) ∧
    ∀ z, L z = (a * z.1 + b * z.2, b * z.1 + d * z.2)

theorem smooth_of_rows {f g : Fun4} {x y p q m11 m12 m13 m14 m22 m23 m24 : ℝ}
    (r1 : Row f x y p q m11 m12 m13 m14) (r2 : Row g x y p q m12 m22 m23 m24)
    (d1 : DifferentiableAt ℝ (fun z : R4 => f z.1 z.2.1 z.2.2.1 z.2.2.2) (x, y, p, q))
    (d2 : DifferentiableAt ℝ (fun z : R4 => g z.1 z.2.1 z.2.2.1 z.2.2.2) (x, y, p, q)) :
    SmoothAt (fun x y => (f x y p q, g x y p q)) x y := by
  have hin : DifferentiableAt ℝ (fun z : ℝ × ℝ => ((z.1, z.2, p, q) : R4)) (x, y) := by fun_prop
  have e1 : DifferentiableAt ℝ (fun z : ℝ × ℝ => f z.1 z.2 p q) (x, y) :=
    DifferentiableAt.comp (g := fun z : R4 => f z.1 z.2.1 z.2.2.1 z.2.2.2) (x, y) d1 hin
  have e2 : DifferentiableAt ℝ (fun z : ℝ × ℝ => g z.1 z.2 p q) (x, y) :=
    DifferentiableAt.comp (g := fun z : R4 => g z.1 z.2.1 z.2.2.1 z.2.2.2) (x, y) d2 hin
  have ed := e1.prodMk e2
  refine ⟨m11, m12, m22, _, ed.hasFDerivAt, fun z => ?_⟩
  have hl : HasDerivAt (fun t : ℝ => (x, y) + t • z) z 0 := by
    have := ((hasDerivAt_id (0 : ℝ)).smul_const z).const_add (x, y)
    simpa using this
  have hline := ed.hasFDerivAt
  have h1 : HasFDerivAt (fun z : ℝ × ℝ => (f z.1 z.2 p q, g z.1 z.2 p q))
      (fderiv ℝ (fun z : ℝ × ℝ => (f z.1 z.2 p q, g z.1 z.2 p q)) (x, y)) ((x, y) + (0 : ℝ) • z) := by
    simpa using hline
  have h2 := h1.comp_hasDerivAt 0 hl
  have l : ∀ u v : ℝ, HasDerivAt (fun t : ℝ => u + t * v) v 0 := fun u v => by
    have := ((hasDerivAt_id (0 : ℝ)).mul_const v).const_add u
    simpa using this
  have c1 := r1 (fun t => x + t * z.1) (fun t => y + t * z.2) (fun _ => p) (fun _ => q) z.1 z.2 0 0
    (by simp) (by simp) rfl rfl (l _ _) (l _ _) (hasDerivAt_const _ _) (hasDerivAt_const _ _)
  have c2 := r2 (fun t => x + t * z.1) (fun t => y + t * z.2) (fun _ => p) (fun _ => q) z.1 z.2 0 0
    (by simp) (by simp) rfl rfl (l _ _) (l _ _) (hasDerivAt_const _ _) (hasDerivAt_const _ _)
  have h3 := c1.prodMk c2
  have h4 := h2.unique h3
  rw [h4]
  simp

/-- The field of an elliptic beam. -/
theorem smooth_elliptic {w : ℂ → ℂ} (hw : IsFaddeeva w) {minDiff sx sy : ℝ} (hx : 0 < sx) (hy : 0 < sy) (hne : sx ≠ sy)
    (hd : minDiff ≤ |sx - sy|) :
    ∃ E : ℝ → ℝ → ℝ × ℝ, (∀ x y, gaussE (wRes w) minDiff sx sy x y = .ok (E x y)) ∧ ∀ x y, SmoothAt E x y := by
  have hne2 : sx ^ 2 ≠ sy ^ 2 := fun h => hne ((sq_eq_sq₀ hx.le hy.le).mp h)
  refine ⟨fun x y => (exG w x y (sx ^ 2) (sy ^ 2), eyG w x y (sx ^ 2) (sy ^ 2)), gaussE_eq hw hx hy hne hd,
    fun x y => ?_⟩
  obtain ⟨r1, r2, _, _⟩ := row_gauss hw (x := x) (y := y) (show 0 < sx ^ 2 by positivity)
    (show 0 < sy ^ 2 by positivity) hne2
  obtain ⟨d1, d2, _, _⟩ := diff_gauss hw (z := (x, y, sx ^ 2, sy ^ 2)) (show 0 < sx ^ 2 by positivity)
    (show 0 < sy ^ 2 by positivity) hne2
  exact smooth_of_rows r1 r2 d1 d2

/-- The field of a round beam away from the axis. -/
theorem smooth_round {w : ℝ → ℝ → Res (ℝ × ℝ)} {minDiff sx sy : ℝ} (hs : 0 < sx + sy) (hd : |sx - sy| < minDiff) :
    ∃ E : ℝ → ℝ → ℝ × ℝ, ∀ x y, 1 / 10 ^ 20 < x ^ 2 + y ^ 2 →
      gaussE w minDiff sx sy x y = .ok (E x y) ∧ SmoothAt E x y := by
  set s := dec 5 1 * (sx + sy) with hsd
  have hs' : 0 < s := by rw [hsd]; norm_num [dec]; linarith
  refine ⟨fun x y => (exR x y (s ^ 2) (s ^ 2), eyR x y (s ^ 2) (s ^ 2)), fun x y hr => ⟨?_, ?_⟩⟩
  · unfold gaussE
    rw [if_pos (by rw [fabs_eq]; exact hd), ← hsd, fieldRound_eq hs' hr.le]
    simp only [exR, eyR]
    rw [show (s ^ 2 + s ^ 2) / 2 = s ^ 2 by ring]
  · have hp : 0 < s ^ 2 + s ^ 2 := by positivity
    have h0 : x ^ 2 + y ^ 2 ≠ 0 := (lt_trans (by norm_num) hr).ne'
    obtain ⟨r1, r2, _⟩ := row_round hp h0
    obtain ⟨d1, d2, _⟩ := diff_round (z := (x, y, s ^ 2, s ^ 2)) hp h0
    exact smooth_of_rows r1 r2 d1 d2

/-! ### The factors of the kicks -/

/-- The factor of the beam-beam kick for a particle of velocity `beta`. -/
noncomputable def kBB (bb : BB4D ℝ) (c : Coord ℝ) (beta : ℝ) : ℝ :=
  c.chi * bb.nPart * bb.qPart * c.q0 * (1 + beta * bb.betaS) / (c.p0c * (beta + bb.betaS))

theorem qElem_pos : (0 : ℝ) < qElem := by norm_num [qElem, dec]
theorem charge0_pos : (0 : ℝ) < charge0 := by norm_num [charge0, dec]

theorem beamBeam4D_eq {w : ℝ → ℝ → Res (ℝ × ℝ)} {bb : BB4D ℝ} {c : Coord ℝ} {E : ℝ × ℝ} (he : 0 < bb.enabled)
    (hr : c.rvv ≠ 0) (hp : c.p0c ≠ 0) (hb : c.beta0 / c.rvv + bb.betaS ≠ 0)
    (hE : gaussE w bb.minSigmaDiff bb.sigmaX bb.sigmaY (c.x - bb.deltaX) (c.y - bb.deltaY) = .ok E) :
    beamBeam4D w bb c = .ok { c with
      px := c.px + (kBB bb c (c.beta0 / c.rvv) * E.1 - bb.dpxSub)
      py := c.py + (kBB bb c (c.beta0 / c.rvv) * E.2 - bb.dpySub) } := by
  have hq := qElem_pos
  unfold beamBeam4D
  rw [if_pos he, cdiv_ok hr, Res.ok_bind]
  simp only
  rw [hE, Res.ok_bind, cdiv_ok (mul_ne_zero (mul_ne_zero hp hq.ne') hb), Res.ok_bind]
  have e : c.chi * bb.nPart * bb.qPart * (1 * c.q0 * qElem) * (1 + c.beta0 / c.rvv * bb.betaS) /
      (c.p0c * qElem * (c.beta0 / c.rvv + bb.betaS)) = kBB bb c (c.beta0 / c.rvv) := by
    unfold kBB
    generalize c.beta0 / c.rvv = b at *
    rw [div_eq_div_iff (mul_ne_zero (mul_ne_zero hp hq.ne') hb) (mul_ne_zero hp hb)]
    ring
  rw [e]; rfl

/-- The factor of the kicks of space charge for the velocity `beta` and the line density `d`. -/
noncomputable def kSC (n len : ℝ) (c : Coord ℝ) (beta gm d : ℝ) : ℝ :=
  c.chi * c.chargeRatio * len * n * charge0 * c.q0 ^ 2 * gm * d / (c.p0c * beta)

theorem scCoasting_eq {w : ℝ → ℝ → Res (ℝ × ℝ)} {sc : SCCoasting ℝ} {c : Coord ℝ} {E : ℝ × ℝ} (hr : c.rvv ≠ 0)
    (hp : c.p0c ≠ 0) (hb : c.beta0 ≠ 0) (hc : sc.circumference ≠ 0)
    (hE : gaussE w sc.minSigmaDiff sc.sigmaX sc.sigmaY (c.x - sc.xCo) (c.y - sc.yCo) = .ok E) :
    scCoasting w sc c = .ok { c with
      px := c.px + kSC sc.nPart sc.length c (c.beta0 * c.rvv) (1 - c.beta0 * c.beta0) (1 / sc.circumference) * E.1
      py := c.py + kSC sc.nPart sc.length c (c.beta0 * c.rvv) (1 - c.beta0 * c.beta0) (1 / sc.circumference) * E.2 } := by
  have hq := charge0_pos
  unfold scCoasting
  simp only
  rw [cdiv_ok (mul_ne_zero (mul_ne_zero (mul_ne_zero hc (mul_ne_zero hp hq.ne')) hb) hr), Res.ok_bind, hE, Res.ok_bind]
  have e : sc.nPart * sc.length * c.chi * c.chargeRatio * (charge0 * c.q0) * (charge0 * c.q0) * (1 - c.beta0 * c.beta0) /
      (sc.circumference * (c.p0c * charge0) * c.beta0 * c.rvv) =
      kSC sc.nPart sc.length c (c.beta0 * c.rvv) (1 - c.beta0 * c.beta0) (1 / sc.circumference) := by
    unfold kSC
    generalize 1 - c.beta0 * c.beta0 = g
    field_simp
  rw [e]; rfl

theorem scQGauss_eq {w : ℝ → ℝ → Res (ℝ × ℝ)} {sc : SCQGauss ℝ} {c : Coord ℝ} {E : ℝ × ℝ} {sb d : ℝ} (hr : c.rvv ≠ 0)
    (hp : c.p0c ≠ 0) (hb : c.beta0 ≠ 0) (hs : sqrtBetaOf sc.bunchlengthRms = .ok sb)
    (hd : qGauss (c.zeta / c.rvv) sc.qParam sb sc.cq = .ok d)
    (hE : gaussE w sc.minSigmaDiff sc.sigmaX sc.sigmaY (c.x - sc.xCo) (c.y - sc.yCo) = .ok E) :
    scQGauss w sc c = .ok { c with
      px := c.px + kSC sc.nPart sc.length c (c.beta0 * c.rvv) (1 - c.beta0 * (c.beta0 * c.rvv)) d * E.1
      py := c.py + kSC sc.nPart sc.length c (c.beta0 * c.rvv) (1 - c.beta0 * (c.beta0 * c.rvv)) d * E.2 } := by
  have hq := charge0_pos
  unfold scQGauss
  simp only
  rw [cdiv_ok hr, Res.ok_bind, hs, Res.ok_bind, hd, Res.ok_bind,
    cdiv_ok (mul_ne_zero (mul_ne_zero hp hq.ne') (mul_ne_zero hb hr)), Res.ok_bind, hE, Res.ok_bind]
  have e : c.chi * c.chargeRatio * sc.length * (charge0 * c.q0) * (charge0 * c.q0) * (1 - c.beta0 * (c.beta0 * c.rvv)) *
      sc.nPart * d / (c.p0c * charge0 * (c.beta0 * c.rvv)) =
      kSC sc.nPart sc.length c (c.beta0 * c.rvv) (1 - c.beta0 * (c.beta0 * c.rvv)) d := by
    unfold kSC
    generalize 1 - c.beta0 * (c.beta0 * c.rvv) = g
    field_simp
  rw [e]; rfl

/-- The line density that the element of an interpolated profile uses at `zeta`. -/
def densityAt (sc : SCInterpolated ℝ) (zeta : ℝ) : Res ℝ :=
  match sc.density with
  | some f => f zeta
  | none => .ok sc.fallback

theorem scInterpolated_eq {w : ℝ → ℝ → Res (ℝ × ℝ)} {sc : SCInterpolated ℝ} {c : Coord ℝ} {E : ℝ × ℝ} {d : ℝ}
    (hr : c.rvv ≠ 0) (hp : c.p0c ≠ 0) (hb : c.beta0 ≠ 0) (hd : densityAt sc c.zeta = .ok d)
    (hE : gaussE w sc.minSigmaDiff sc.sigmaX sc.sigmaY (c.x - sc.xCo) (c.y - sc.yCo) = .ok E) :
    scInterpolated w sc c = .ok { c with
      px := c.px + kSC sc.nPart sc.length c (c.beta0 * c.rvv) (1 - c.beta0 * (c.beta0 * c.rvv)) d * E.1
      py := c.py + kSC sc.nPart sc.length c (c.beta0 * c.rvv) (1 - c.beta0 * (c.beta0 * c.rvv)) d * E.2 } := by
  have hq := charge0_pos
  unfold scInterpolated
  simp only
  unfold densityAt at hd
  have e : c.chi * c.chargeRatio * sc.length * sc.nPart * (charge0 * c.q0) * (charge0 * c.q0) *
      (1 - c.beta0 * (c.beta0 * c.rvv)) * d / (c.p0c * charge0 * (c.beta0 * c.rvv)) =
      kSC sc.nPart sc.length c (c.beta0 * c.rvv) (1 - c.beta0 * (c.beta0 * c.rvv)) d := by
    unfold kSC
    generalize 1 - c.beta0 * (c.beta0 * c.rvv) = g
    field_simp
  rcases hm : sc.density with _ | f <;> simp only [hm] at hd ⊢ <;> rw [hd, Res.ok_bind,
    cdiv_ok (mul_ne_zero (mul_ne_zero hp hq.ne') (mul_ne_zero hb hr)), Res.ok_bind, hE, Res.ok_bind, e] <;> rfl

/-! ### Symplecticity -/

/-- A kick in the direction of a field without curl. -/
theorem fieldKick_symplectic {E : ℝ → ℝ → ℝ × ℝ} {k x0 y0 d1 d2 : ℝ} {v : V} (h : SmoothAt E (v.1 - x0) (v.2.2.1 - y0)) :
    SymplecticAt (fun v : V => (v.1, v.2.1 + (k * (E (v.1 - x0) (v.2.2.1 - y0)).1 - d1), v.2.2.1,
      v.2.2.2.1 + (k * (E (v.1 - x0) (v.2.2.1 - y0)).2 - d2), v.2.2.2.2.1, v.2.2.2.2.2)) v := by
  obtain ⟨a, b, d, L, hL, hLe⟩ := h
  have hs : HasFDerivAt (fun u : E3 => (u.1 - x0, u.2.1 - y0))
      ((ContinuousLinearMap.fst ℝ ℝ (ℝ × ℝ)).prod
        ((ContinuousLinearMap.fst ℝ ℝ ℝ).comp (ContinuousLinearMap.snd ℝ ℝ (ℝ × ℝ)))) (qOf v) := by
    refine HasFDerivAt.prodMk ?_ ?_
    · exact (ContinuousLinearMap.fst ℝ ℝ (ℝ × ℝ)).hasFDerivAt.sub_const x0
    · exact ((ContinuousLinearMap.fst ℝ ℝ ℝ).comp (ContinuousLinearMap.snd ℝ ℝ (ℝ × ℝ))).hasFDerivAt.sub_const y0
  have hc := HasFDerivAt.comp (g := fun z : ℝ × ℝ => E z.1 z.2) (qOf v) hL hs
  have h1 := ((ContinuousLinearMap.fst ℝ ℝ ℝ).hasFDerivAt.comp (qOf v) hc)
  have h2 := ((ContinuousLinearMap.snd ℝ ℝ ℝ).hasFDerivAt.comp (qOf v) hc)
  have hF : HasFDerivAt (fun u : E3 => ((k * (E (u.1 - x0) (u.2.1 - y0)).1 - d1, k * (E (u.1 - x0) (u.2.1 - y0)).2 - d2,
      0) : E3)) _ (qOf v) :=
    ((h1.const_mul k).sub_const d1).prodMk (((h2.const_mul k).sub_const d2).prodMk (hasFDerivAt_const (0 : ℝ) (qOf v)))
  have key := kickMap_symplectic hF (fun a b => by simp [dot, hLe]; ring)
  refine key.congr (Filter.Eventually.of_forall fun u => ?_)
  simp only [kickMap, qOf, add_zero]

/-- A transverse kick whose strength depends on the energy, without a change of the time of flight. -/
theorem kick_not_symplectic {G : V → V} {v : V} {k : ℝ → ℝ → ℝ} {k' x0 y0 d1 d2 : ℝ} {E : ℝ → ℝ → ℝ × ℝ}
    (hG : ∀ᶠ u in 𝓝 v, G u = (u.1, u.2.1 + (k u.2.2.2.2.1 u.2.2.2.2.2 * (E (u.1 - x0) (u.2.2.1 - y0)).1 - d1), u.2.2.1,
      u.2.2.2.1 + (k u.2.2.2.2.1 u.2.2.2.2.2 * (E (u.1 - x0) (u.2.2.1 - y0)).2 - d2), u.2.2.2.2.1, u.2.2.2.2.2))
    (hk : HasDerivAt (fun t => k v.2.2.2.2.1 (v.2.2.2.2.2 + t)) k' 0) (hS : SymplecticAt G v) :
    k' * (E (v.1 - x0) (v.2.2.1 - y0)).1 = 0 := by
  obtain ⟨D, hD, hw⟩ := hS
  have proj : ∀ P : V →L[ℝ] ℝ, (∀ᶠ u in 𝓝 v, P (G u) = P u) → ∀ a, P (D a) = P a := by
    intro P hP a
    have h1 : HasFDerivAt (fun u => P (G u)) (P.comp D) v := P.hasFDerivAt.comp v hD
    have h2 : HasFDerivAt (fun u => P (G u)) P v := P.hasFDerivAt.congr_of_eventuallyEq hP
    exact congrArg (fun L => L a) (h1.unique h2)
  let p1 : V →L[ℝ] ℝ := ContinuousLinearMap.fst ℝ ℝ _
  let r1 : V →L[ℝ] ℝ × ℝ × ℝ × ℝ × ℝ := ContinuousLinearMap.snd ℝ ℝ _
  let p2 : V →L[ℝ] ℝ := (ContinuousLinearMap.fst ℝ ℝ _).comp r1
  let r2 : V →L[ℝ] ℝ × ℝ × ℝ × ℝ := (ContinuousLinearMap.snd ℝ ℝ _).comp r1
  let p3 : V →L[ℝ] ℝ := (ContinuousLinearMap.fst ℝ ℝ _).comp r2
  let r3 : V →L[ℝ] ℝ × ℝ × ℝ := (ContinuousLinearMap.snd ℝ ℝ _).comp r2
  let r4 : V →L[ℝ] ℝ × ℝ := (ContinuousLinearMap.snd ℝ ℝ _).comp r3
  let p5 : V →L[ℝ] ℝ := (ContinuousLinearMap.fst ℝ ℝ _).comp r4
  let p6 : V →L[ℝ] ℝ := (ContinuousLinearMap.snd ℝ ℝ _).comp r4
  have q1 : ∀ a : V, (D a).1 = a.1 := proj p1 (by filter_upwards [hG] with u hu; rw [hu]; rfl)
  have q3 : ∀ a : V, (D a).2.2.1 = a.2.2.1 := proj p3 (by filter_upwards [hG] with u hu; rw [hu]; rfl)
  have q5 : ∀ a : V, (D a).2.2.2.2.1 = a.2.2.2.2.1 := proj p5 (by filter_upwards [hG] with u hu; rw [hu]; rfl)
  have q6 : ∀ a : V, (D a).2.2.2.2.2 = a.2.2.2.2.2 := proj p6 (by filter_upwards [hG] with u hu; rw [hu]; rfl)
  set ep : V := (0, 0, 0, 0, 0, 1) with hep
  set ex : V := (1, 0, 0, 0, 0, 0) with hex
  have hl := hasDerivAt_lineV v ep
  have hD0 : HasFDerivAt G D (v + (0 : ℝ) • ep) := by simpa using hD
  have h1 : HasDerivAt (fun t : ℝ => p2 (G (v + t • ep))) (p2 (D ep)) 0 :=
    p2.hasFDerivAt.comp_hasDerivAt 0 (hD0.comp_hasDerivAt 0 hl)
  have hc : ContinuousAt (fun t : ℝ => v + t • ep) 0 := hl.continuousAt
  have hev : ∀ᶠ t in 𝓝 (0 : ℝ), p2 (G (v + t • ep))
      = v.2.1 + (k v.2.2.2.2.1 (v.2.2.2.2.2 + t) * (E (v.1 - x0) (v.2.2.1 - y0)).1 - d1) := by
    have : Tendsto (fun t : ℝ => v + t • ep) (𝓝 0) (𝓝 v) := by
      have := hc.tendsto; simpa using this
    filter_upwards [this.eventually hG] with t ht
    rw [ht]
    simp [p2, r1, hep]
  have h2 : HasDerivAt (fun t : ℝ => v.2.1 + (k v.2.2.2.2.1 (v.2.2.2.2.2 + t) * (E (v.1 - x0) (v.2.2.1 - y0)).1 - d1))
      (k' * (E (v.1 - x0) (v.2.2.1 - y0)).1) 0 := ((hk.mul_const _).sub_const d1).const_add v.2.1
  have h3 := h1.unique (h2.congr_of_eventuallyEq hev)
  have h4 : (D ep).2.1 = k' * (E (v.1 - x0) (v.2.2.1 - y0)).1 := h3
  have h5 := hw ex ep
  simp only [omega, q1, q3, q5, q6, hex, hep] at h5
  linarith

/-- A particle with other transverse coordinates. -/
def place (c : Coord ℝ) (v : V) : Coord ℝ := { c with x := v.1, px := v.2.1, y := v.2.2.1, py := v.2.2.2.1 }

/-- The map, in the canonical variables, is symplectic at the particle. -/
def CanonSymplectic (M : Coord ℝ → Res (Coord ℝ)) (c : Coord ℝ) : Prop :=
  ∃ G : V → V, (∀ᶠ v in 𝓝 (toCanon c), ∃ o, M (ofCanon c v) = .ok o ∧ G v = toCanon o) ∧ SymplecticAt G (toCanon c)

theorem not_canonSymplectic {M : Coord ℝ → Res (Coord ℝ)} {c : Coord ℝ} (hc : Consistent c) {k : ℝ → ℝ → ℝ}
    {k' x0 y0 d1 d2 : ℝ} {E : ℝ → ℝ → ℝ × ℝ}
    (hM : ∀ᶠ v in 𝓝 (toCanon c), M (ofCanon c v) = .ok { ofCanon c v with
      px := v.2.1 + (k v.2.2.2.2.1 v.2.2.2.2.2 * (E (v.1 - x0) (v.2.2.1 - y0)).1 - d1)
      py := v.2.2.2.1 + (k v.2.2.2.2.1 v.2.2.2.2.2 * (E (v.1 - x0) (v.2.2.1 - y0)).2 - d2) })
    (hk : HasDerivAt (fun t => k (c.zeta / c.rvv) (c.psigma + t)) k' 0) (hk' : k' ≠ 0)
    (hE : (E (c.x - x0) (c.y - y0)).1 ≠ 0) : ¬ CanonSymplectic M c := by
  rintro ⟨G, hG, hS⟩
  refine mul_ne_zero hk' hE (kick_not_symplectic (v := toCanon c) (d1 := d1) (d2 := d2) ?_ hk hS)
  filter_upwards [hG, hM, (toCanon_dom hc).eventually] with v ⟨o, h1, h2⟩ h3 h4
  rw [h3] at h1
  rw [h2, ← Res.ok.inj h1]
  have h5 := toCanon_ofCanon h4
  have h6 : (ofCanon c v).zeta / (ofCanon c v).rvv = v.2.2.2.2.1 := congrArg (fun v : V => v.2.2.2.2.1) h5
  unfold toCanon
  simp only [h6]
  rfl

/-- The velocity relative to the one of the reference as a function of the energy. -/
noncomputable def rvvOf (b p : ℝ) : ℝ := opd b p / (1 + b ^ 2 * p)

theorem hasDerivAt_rvv {c : Coord ℝ} (hc : Consistent c) :
    HasDerivAt (fun t => rvvOf c.beta0 (c.psigma + t))
      ((1 - c.beta0 ^ 2) / (opd c.beta0 c.psigma * (1 + c.beta0 ^ 2 * c.psigma) ^ 2)) 0 := by
  have hd := toCanon_dom hc
  have ho : 0 < opd c.beta0 c.psigma := hd.opd_pos
  have hs : opd c.beta0 c.psigma ^ 2 = _ := opd_sq hd
  have h1 := hasDerivAt_opd (w := 1) hd.1
  simp only [mul_one] at h1
  have h2 : HasDerivAt (fun t : ℝ => 1 + c.beta0 ^ 2 * (c.psigma + t)) (c.beta0 ^ 2) 0 := by
    have := (((hasDerivAt_id (0 : ℝ)).const_add c.psigma).const_mul (c.beta0 ^ 2)).const_add 1
    simpa using this
  have he := hc.energy_pos
  have h3 := h1.div h2 (by simpa using he.ne')
  refine h3.congr_deriv ?_
  simp only [add_zero, toCanon] at hs ⊢
  field_simp
  linear_combination (-c.beta0 ^ 2) * hs

theorem rvvOf_eq {c : Coord ℝ} (hc : Consistent c) : rvvOf c.beta0 c.psigma = c.rvv := by
  have := ofCanon_toCanon hc
  exact congrArg Coord.rvv this

theorem Consistent.rvv_pos {c : Coord ℝ} (hc : Consistent c) : 0 < c.rvv := by
  have h1 := hc.energy_pos
  have h2 := hc.delta_pos
  have h3 := hc.rvv_eq
  by_contra h
  nlinarith [mul_nonneg (neg_nonneg.mpr (not_lt.mp h)) h1.le]

/-- The horizontal field of a round beam away from the axis. -/
theorem round_field {w : ℝ → ℝ → Res (ℝ × ℝ)} {minDiff sx sy : ℝ} (hs : 0 < sx + sy) (hd : |sx - sy| < minDiff) :
    ∃ E : ℝ → ℝ → ℝ × ℝ, (∀ x y, 1 / 10 ^ 20 < x ^ 2 + y ^ 2 → gaussE w minDiff sx sy x y = .ok (E x y)) ∧
      ∀ x y, x ≠ 0 → (E x y).1 ≠ 0 := by
  set s := dec 5 1 * (sx + sy) with hsd
  have hs' : 0 < s := by rw [hsd]; norm_num [dec]; linarith
  refine ⟨fun x y => (rX x y (s ^ 2), rY x y (s ^ 2)), fun x y hr => ?_, fun x y hx => ?_⟩
  · unfold gaussE
    rw [if_pos (by rw [fabs_eq]; exact hd), ← hsd, fieldRound_eq hs' hr.le]
  · have h0 : 0 < x ^ 2 + y ^ 2 := by positivity
    have he := eps0_pos
    have hp := Real.pi_pos
    have h1 : Real.exp (-(x ^ 2 + y ^ 2) / (2 * s ^ 2)) < 1 := by
      rw [Real.exp_lt_one_iff]
      have : 0 < (x ^ 2 + y ^ 2) / (2 * s ^ 2) := by positivity
      rw [neg_div]; linarith
    have h2 : 0 < 1 - Real.exp (-(x ^ 2 + y ^ 2) / (2 * s ^ 2)) := by linarith
    simp only [rX, rTemp]
    positivity

theorem eventually_away {c : Coord ℝ} {x0 y0 : ℝ} (h : 1 / 10 ^ 20 < (c.x - x0) ^ 2 + (c.y - y0) ^ 2) :
    ∀ᶠ v in 𝓝 (toCanon c), 1 / 10 ^ 20 < (v.1 - x0) ^ 2 + (v.2.2.1 - y0) ^ 2 := by
  have hc : Continuous (fun v : V => (v.1 - x0) ^ 2 + (v.2.2.1 - y0) ^ 2) := by fun_prop
  exact hc.continuousAt.eventually (lt_mem_nhds h)

end Beam
end SixTrack
