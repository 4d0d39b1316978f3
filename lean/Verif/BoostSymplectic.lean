import Verif.Boost
import Verif.Lift

/-!
# The boost of the six-dimensional beam-beam interaction: symplecticity
-/

namespace SixTrack
namespace Beam
open Elem

/-- Phase space vectors and boosted variables. -/
def starOf (v : V) : Star ℝ := ⟨v.1, v.2.1, v.2.2.1, v.2.2.2.1, v.2.2.2.2.1, v.2.2.2.2.2⟩
def ofStar (s : Star ℝ) : V := (s.x, s.px, s.y, s.py, s.sigma, s.delta)

/-- The longitudinal momentum as a function of the momenta. -/
noncomputable def pzE (p : E3) : ℝ := Real.sqrt ((1 + p.2.2) ^ 2 - p.1 ^ 2 - p.2.1 ^ 2)

/-- The momenta after the inverse boost. -/
noncomputable def backP (b : Boost ℝ) (p : E3) : E3 :=
  (p.1 * b.cphi + (p.2.2 + 1 - pzE p) * b.cphi * b.cphi * b.calpha * b.tphi,
    p.2.1 * b.cphi + (p.2.2 + 1 - pzE p) * b.cphi * b.cphi * b.salpha * b.tphi,
    p.2.2 + b.sphi * (p.1 * b.calpha + p.2.1 * b.salpha))

theorem pzE_pos {p : E3} (h : 0 < pzE p) : 0 < (1 + p.2.2) ^ 2 - p.1 ^ 2 - p.2.1 ^ 2 :=
  Real.sqrt_pos.mp h

theorem contDiffAt_pzE {p : E3} (h : 0 < pzE p) : ContDiffAt ℝ 2 pzE p := by
  have h1 := (pzE_pos h).ne'
  unfold pzE
  exact ContDiffAt.sqrt (by fun_prop) h1

theorem contDiffAt_backP (b : Boost ℝ) {p : E3} (h : 0 < pzE p) : ContDiffAt ℝ 2 (backP b) p := by
  have h1 := contDiffAt_pzE h
  unfold backP
  fun_prop

theorem hasDerivAt_pzE {p : E3} (h : 0 < pzE p) (a : E3) : HasDerivAt (fun t : ℝ => pzE (p + t • a))
    (((1 + p.2.2) * a.2.2 - p.1 * a.1 - p.2.1 * a.2.1) / pzE p) 0 := by
  have l1 : HasDerivAt (fun t : ℝ => p.1 + t * a.1) a.1 0 := by
    have := ((hasDerivAt_id (0 : ℝ)).mul_const a.1).const_add p.1
    simpa using this
  have l2 : HasDerivAt (fun t : ℝ => p.2.1 + t * a.2.1) a.2.1 0 := by
    have := ((hasDerivAt_id (0 : ℝ)).mul_const a.2.1).const_add p.2.1
    simpa using this
  have l3 : HasDerivAt (fun t : ℝ => p.2.2 + t * a.2.2) a.2.2 0 := by
    have := ((hasDerivAt_id (0 : ℝ)).mul_const a.2.2).const_add p.2.2
    simpa using this
  have h1 := pzE_pos h
  have h2 := (((l3.const_add 1).pow 2).sub (l1.pow 2)).sub (l2.pow 2)
  have h3 := h2.sqrt (by simpa using h1.ne')
  refine h3.congr_deriv ?_
  simp only [Pi.sub_apply, Pi.pow_apply, zero_mul, add_zero]
  show _ / (2 * pzE p) = _
  have := h.ne'
  field_simp
  simp only [Nat.cast_ofNat]
  ring

theorem fderiv_backP (b : Boost ℝ) {p : E3} (h : 0 < pzE p) (a : E3) :
    fderiv ℝ (backP b) p a =
      (a.1 * b.cphi + (a.2.2 - ((1 + p.2.2) * a.2.2 - p.1 * a.1 - p.2.1 * a.2.1) / pzE p) * b.cphi * b.cphi * b.calpha * b.tphi,
       a.2.1 * b.cphi + (a.2.2 - ((1 + p.2.2) * a.2.2 - p.1 * a.1 - p.2.1 * a.2.1) / pzE p) * b.cphi * b.cphi * b.salpha * b.tphi,
       a.2.2 + b.sphi * (a.1 * b.calpha + a.2.1 * b.salpha)) := by
  have hl : HasDerivAt (fun t : ℝ => p + t • a) a 0 := by
    have := ((hasDerivAt_id (0 : ℝ)).smul_const a).const_add p
    simpa using this
  have hd : DifferentiableAt ℝ (backP b) p := (contDiffAt_backP b h).differentiableAt (by norm_num)
  have hd0 : HasFDerivAt (backP b) (fderiv ℝ (backP b) p) (p + (0 : ℝ) • a) := by
    simpa using hd.hasFDerivAt
  have e1 := hd0.comp_hasDerivAt 0 hl
  have l1 : HasDerivAt (fun t : ℝ => p.1 + t * a.1) a.1 0 := by
    have := ((hasDerivAt_id (0 : ℝ)).mul_const a.1).const_add p.1
    simpa using this
  have l2 : HasDerivAt (fun t : ℝ => p.2.1 + t * a.2.1) a.2.1 0 := by
    have := ((hasDerivAt_id (0 : ℝ)).mul_const a.2.1).const_add p.2.1
    simpa using this
  have l3 : HasDerivAt (fun t : ℝ => p.2.2 + t * a.2.2) a.2.2 0 := by
    have := ((hasDerivAt_id (0 : ℝ)).mul_const a.2.2).const_add p.2.2
    simpa using this
  have lz := hasDerivAt_pzE h a
  have lh := (l3.add_const 1).sub lz
  have e2 := ((l1.mul_const b.cphi).add ((((lh.mul_const b.cphi).mul_const b.cphi).mul_const b.calpha).mul_const b.tphi)).prodMk
    (((l2.mul_const b.cphi).add ((((lh.mul_const b.cphi).mul_const b.cphi).mul_const b.salpha).mul_const b.tphi)).prodMk
      (l3.add (((l1.mul_const b.calpha).add (l2.mul_const b.salpha)).const_mul b.sphi)))
  exact e1.unique e2

theorem differentiableAt_invBoost {b : Boost ℝ} (hb : b.Ok) {v : V} (h : 0 < pz (starOf v))
    (hs : 0 < pzBack b (starOf v)) : DifferentiableAt ℝ (fun w => ofStar (invBoostR b (starOf w))) v := by
  have hdet := det_back hb h
  have hc := hb.pos
  have hd0 : 1 / b.cphi + ((starOf v).px / pz (starOf v) * b.calpha + (starOf v).py / pz (starOf v) * b.salpha -
      (1 - ((starOf v).delta + 1) / pz (starOf v)) * b.sphi) * b.tphi ≠ 0 := by rw [hdet]; positivity
  have hz : DifferentiableAt ℝ (fun w => pz (starOf w)) v := by
    have h1 : (1 + v.2.2.2.2.2) ^ 2 - v.2.1 ^ 2 - v.2.2.2.1 ^ 2 ≠ 0 := (Real.sqrt_pos.mp h).ne'
    unfold pz starOf
    exact DifferentiableAt.sqrt (by fun_prop) h1
  have hz0 := h.ne'
  simp only [ofStar, invBoostR, along]
  simp only [starOf] at hd0 hz hz0 ⊢
  fun_prop (disch := assumption)

theorem invBoost_conformal {b : Boost ℝ} (hb : b.Ok) {v : V} (h : 0 < pz (starOf v))
    (hs : 0 < pzBack b (starOf v)) : ConformalAt b.cphi (fun w => ofStar (invBoostR b (starOf w))) v := by
  have hev : ∀ᶠ w in nhds v, 0 < pz (starOf w) ∧ 0 < pzBack b (starOf w) := by
    have c1 : Continuous fun w : V => pz (starOf w) := by
      unfold pz starOf; fun_prop
    have c2 : Continuous fun w : V => pzBack b (starOf w) := by
      unfold pzBack along pz starOf; fun_prop
    exact (c1.continuousAt.eventually (lt_mem_nhds h)).and (c2.continuousAt.eventually (lt_mem_nhds hs))
  refine conformal_of_lift (f := backP b) (differentiableAt_invBoost hb h hs) (contDiffAt_backP b h) ?_ ?_
  · exact Filter.Eventually.of_forall fun w => rfl
  · refine hev.mono fun w hw a => ?_
    obtain ⟨h, hs⟩ := hw
    have hdet := det_back hb h
    have hc := hb.pos
    have hd0 : 1 / b.cphi + ((starOf w).px / pz (starOf w) * b.calpha + (starOf w).py / pz (starOf w) * b.salpha -
      (1 - ((starOf w).delta + 1) / pz (starOf w)) * b.sphi) * b.tphi ≠ 0 := by rw [hdet]; positivity
    obtain ⟨g1, g2, g3⟩ := lin_inv' (X := (starOf w).x) (Y := (starOf w).y) (Z := (starOf w).sigma) hb hd0
    have hz : pzE (pOf w) = pz (starOf w) := rfl
    rw [fderiv_backP b (show 0 < pzE (pOf w) from h), hz]
    have hsp : b.cphi * b.tphi = b.sphi := by rw [hb.tan]; field_simp
    have hcc : b.cphi * b.cphi⁻¹ = 1 := mul_inv_cancel₀ hc.ne'
    change (invBoostR b (starOf w)).x + (starOf w).px / pz (starOf w) * b.sphi *
      ((invBoostR b (starOf w)).x * b.calpha + (invBoostR b (starOf w)).y * b.salpha) +
      b.calpha * b.tphi * (invBoostR b (starOf w)).sigma = (starOf w).x at g1
    change (invBoostR b (starOf w)).y + (starOf w).py / pz (starOf w) * b.sphi *
      ((invBoostR b (starOf w)).x * b.calpha + (invBoostR b (starOf w)).y * b.salpha) +
      b.salpha * b.tphi * (invBoostR b (starOf w)).sigma = (starOf w).y at g2
    change (1 - ((starOf w).delta + 1) / pz (starOf w)) * b.sphi *
      ((invBoostR b (starOf w)).x * b.calpha + (invBoostR b (starOf w)).y * b.salpha) +
      (invBoostR b (starOf w)).sigma / b.cphi = (starOf w).sigma at g3
    simp only [dot, qOf, ofStar, pOf]
    simp only [starOf] at g1 g2 g3 ⊢
    generalize invBoostR b _ = u at *
    simp only [div_eq_mul_inv] at g1 g2 g3 ⊢
    generalize (pz _)⁻¹ = z at *
    rw [← hsp] at g1 g2 g3 ⊢
    linear_combination (b.cphi * a.1) * g1 + (b.cphi * a.2.1) * g2 + (b.cphi * a.2.2) * g3
      - u.sigma * a.2.2 * hcc

/-- After the boost, the longitudinal momentum is the one the code computes, and the inverse finds the
old one. -/
theorem pz_boost {b : Boost ℝ} (hb : b.Ok) {v : Star ℝ} (h : 0 < pz v) (hs : 0 < pzStar b v) :
    pz (boostR b v) = pzStar b v ∧ pzBack b (boostR b v) = pz v := by
  have h1 : pz (boostR b v) = pzStar b v := by
    unfold pz; rw [boost_arg hb h, Real.sqrt_sq hs.le]
  have hd := det_eq hb hs
  have hd' := det_back hb (v := boostR b v) (by rw [h1]; exact hs)
  rw [h1] at hd'
  rw [hd] at hd'
  have hc := hb.pos
  refine ⟨h1, ?_⟩
  have := (div_left_inj' (by positivity)).mp hd'
  exact this.symm

theorem invBoostR_boostR {b : Boost ℝ} (hb : b.Ok) {v : Star ℝ} (h : 0 < pz v) (hs : 0 < pzStar b v) :
    invBoostR b (boostR b v) = v := by
  obtain ⟨h1, h2⟩ := pz_boost hb h hs
  have e := invBoost_boost hb h hs
  rw [invBoost_eq hb (by rw [h1]; exact hs) (by rw [h2]; exact h), Res.ok_inj] at e
  exact e

theorem differentiableAt_boost {b : Boost ℝ} (hb : b.Ok) {v : V} (h : 0 < pz (starOf v))
    (hs : 0 < pzStar b (starOf v)) : DifferentiableAt ℝ (fun w => ofStar (boostR b (starOf w))) v := by
  have hc := hb.pos
  have hz : DifferentiableAt ℝ (fun w => pz (starOf w)) v := by
    have h1 : (1 + v.2.2.2.2.2) ^ 2 - v.2.1 ^ 2 - v.2.2.2.1 ^ 2 ≠ 0 := (Real.sqrt_pos.mp h).ne'
    unfold pz starOf
    exact DifferentiableAt.sqrt (by fun_prop) h1
  have hz0 := h.ne'
  have hz1 := hs.ne'
  have hz2 := hc.ne'
  simp only [ofStar, boostR, pzStar, along]
  simp only [starOf, pzStar, along] at hz hz0 hz1 ⊢
  fun_prop (disch := assumption)

/-- The boost is conformally symplectic, with factor `1 / cos phi`. -/
theorem boost_conformal {b : Boost ℝ} (hb : b.Ok) {v : V} (h : 0 < pz (starOf v))
    (hs : 0 < pzStar b (starOf v)) :
    ConformalAt (b.cphi)⁻¹ (fun w => ofStar (boostR b (starOf w))) v := by
  obtain ⟨h1, h2⟩ := pz_boost hb h hs
  have so : ∀ s, starOf (ofStar s) = s := fun s => rfl
  refine ConformalAt.inverse hb.pos.ne' (differentiableAt_boost hb h hs)
    (invBoost_conformal hb (by rw [so, h1]; exact hs) (by rw [so, h2]; exact h)) ?_
  have hev : ∀ᶠ w in nhds v, 0 < pz (starOf w) ∧ 0 < pzStar b (starOf w) := by
    have c1 : Continuous fun w : V => pz (starOf w) := by
      unfold pz starOf; fun_prop
    have c2 : Continuous fun w : V => pzStar b (starOf w) := by
      unfold pzStar along pz starOf; fun_prop
    exact (c1.continuousAt.eventually (lt_mem_nhds h)).and (c2.continuousAt.eventually (lt_mem_nhds hs))
  refine hev.mono fun w hw => ?_
  rw [so, invBoostR_boostR hb hw.1 hw.2]
  rfl

end Beam
end SixTrack
