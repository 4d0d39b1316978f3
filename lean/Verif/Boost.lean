import Verif.BeamFieldsReal

/-!
# The boost of the six-dimensional beam-beam interaction: lemmas
-/

namespace SixTrack
namespace Beam

open Elem

/-- The boost parameters belong to angles `phi` and `alpha`, and `cos phi` is not zero. -/
structure Boost.Ok (b : Boost ℝ) : Prop where
  unit : b.sphi ^ 2 + b.cphi ^ 2 = 1
  tan : b.tphi = b.sphi / b.cphi
  unitA : b.salpha ^ 2 + b.calpha ^ 2 = 1
  pos : 0 < b.cphi

/-- Longitudinal momentum. -/
noncomputable def pz (v : Star ℝ) : ℝ := Real.sqrt ((1 + v.delta) ^ 2 - v.px ^ 2 - v.py ^ 2)

/-- The component of the momentum along the crossing plane. -/
def along (b : Boost ℝ) (v : Star ℝ) : ℝ := v.px * b.calpha + v.py * b.salpha

/-- The longitudinal momentum after the boost. -/
noncomputable def pzStar (b : Boost ℝ) (v : Star ℝ) : ℝ := pz v - along b v * b.tphi

/-- The boosted variables. -/
noncomputable def boostR (b : Boost ℝ) (v : Star ℝ) : Star ℝ :=
  let h := v.delta + 1 - pz v
  let px := (v.px - h * b.calpha * b.tphi) / b.cphi
  let py := (v.py - h * b.salpha * b.tphi) / b.cphi
  let delta := v.delta - along b v * b.tphi + h * b.tphi ^ 2
  let u := v.x * b.calpha + v.y * b.salpha
  { x := v.x + px / pzStar b v * b.sphi * u + b.calpha * b.tphi * v.sigma
    px := px
    y := v.y + py / pzStar b v * b.sphi * u + b.salpha * b.tphi * v.sigma
    py := py
    sigma := (1 - (delta + 1) / pzStar b v) * b.sphi * u + v.sigma / b.cphi
    delta := delta }

theorem pz_sq {v : Star ℝ} (h : 0 < pz v) : pz v ^ 2 = (1 + v.delta) ^ 2 - v.px ^ 2 - v.py ^ 2 :=
  Real.sq_sqrt (Real.sqrt_pos.mp h).le

theorem boost_arg {b : Boost ℝ} (hb : b.Ok) {v : Star ℝ} (h : 0 < pz v) :
    (1 + (boostR b v).delta) ^ 2 - (boostR b v).px ^ 2 - (boostR b v).py ^ 2 = pzStar b v ^ 2 := by
  obtain ⟨h1, ht, h2, hc⟩ := hb
  have h3 := pz_sq h
  have hc' := hc.ne'
  have hic : (b.cphi⁻¹) ^ 2 = 1 + b.tphi ^ 2 := by
    rw [ht]; field_simp; linarith
  simp only [boostR, pzStar, along, div_eq_mul_inv]
  generalize b.cphi⁻¹ = i at *
  generalize pz v = p at *
  linear_combination (-(v.px - (v.delta + 1 - p) * b.calpha * b.tphi) ^ 2 -
    (v.py - (v.delta + 1 - p) * b.salpha * b.tphi) ^ 2) * hic -
    (1 + b.tphi ^ 2) * (v.delta + 1 - p) ^ 2 * b.tphi ^ 2 * h2 - (1 + b.tphi ^ 2) * h3

theorem boost_eq {b : Boost ℝ} (hb : b.Ok) {v : Star ℝ} (h : 0 < pz v) (hs : 0 < pzStar b v) :
    boost b v = .ok (boostR b v) := by
  have harg := boost_arg hb h
  obtain ⟨h1, ht, h2, hc⟩ := hb
  have hc' := hc.ne'
  have e0 : (1 + v.delta) * (1 + v.delta) - v.px * v.px - v.py * v.py =
    (1 + v.delta) ^ 2 - v.px ^ 2 - v.py ^ 2 := by ring
  have hp : Real.sqrt ((1 + v.delta) ^ 2 - v.px ^ 2 - v.py ^ 2) = pz v := rfl
  unfold boost
  rw [e0, csqrt_ok (Real.sqrt_pos.mp h).le, hp]
  simp only [Res.ok_bind, cdiv_ok hc', Res.pure_eq]
  have e1 : (1 + (v.delta - v.px * b.calpha * b.tphi - v.py * b.salpha * b.tphi +
      (v.delta + 1 - pz v) * b.tphi * b.tphi)) * (1 + (v.delta - v.px * b.calpha * b.tphi - v.py * b.salpha * b.tphi +
      (v.delta + 1 - pz v) * b.tphi * b.tphi)) -
      (v.px / b.cphi - (v.delta + 1 - pz v) * b.calpha * b.tphi / b.cphi) * (v.px / b.cphi - (v.delta + 1 - pz v) * b.calpha * b.tphi / b.cphi) -
      (v.py / b.cphi - (v.delta + 1 - pz v) * b.salpha * b.tphi / b.cphi) * (v.py / b.cphi - (v.delta + 1 - pz v) * b.salpha * b.tphi / b.cphi) = pzStar b v ^ 2 := by
    rw [← harg]; simp only [boostR, along]; ring
  rw [e1, csqrt_ok (by positivity), Real.sqrt_sq hs.le]
  simp only [Res.ok_bind, cdiv_ok hs.ne', Res.ok_inj]
  simp only [boostR, along, Star.mk.injEq]
  refine ⟨?_, ?_, ?_, ?_, ?_, ?_⟩ <;> ring

/-- The determinant of the inverse is positive. -/
theorem det_eq {b : Boost ℝ} (hb : b.Ok) {v : Star ℝ} (hs : 0 < pzStar b v) :
    1 / b.cphi + ((boostR b v).px / pzStar b v * b.calpha + (boostR b v).py / pzStar b v * b.salpha -
      (1 - ((boostR b v).delta + 1) / pzStar b v) * b.sphi) * b.tphi =
    pz v / (b.cphi * pzStar b v) := by
  obtain ⟨h1, ht, h2, hc⟩ := hb
  have hc' := hc.ne'
  have hs' := hs.ne'
  have hsp : b.sphi = b.tphi * b.cphi := by rw [ht]; field_simp
  have hic : b.cphi ^ 2 * (1 + b.tphi ^ 2) = 1 := by rw [ht]; field_simp; linarith
  simp only [boostR]
  have hps : pzStar b v = pz v - along b v * b.tphi := rfl
  field_simp
  rw [hsp, hps]
  simp only [along]
  generalize pz v = p at *
  linear_combination -(v.delta + 1 - p) * b.tphi ^ 2 * h2 + b.tphi ^ 2 * (v.delta + 1 - p) * hic

/-- The matrix of the inverse boost is the inverse of the matrix of the boost. -/
theorem lin_inv {b : Boost ℝ} (hb : b.Ok) {hx hy hs x y σ : ℝ}
    (hd : 1 / b.cphi + (hx * b.calpha + hy * b.salpha - hs * b.sphi) * b.tphi ≠ 0) :
    let d := 1 / b.cphi + (hx * b.calpha + hy * b.salpha - hs * b.sphi) * b.tphi
    let X := x + hx * b.sphi * (x * b.calpha + y * b.salpha) + b.calpha * b.tphi * σ
    let Y := y + hy * b.sphi * (x * b.calpha + y * b.salpha) + b.salpha * b.tphi * σ
    let Z := hs * b.sphi * (x * b.calpha + y * b.salpha) + σ / b.cphi
    (1 / b.cphi + b.salpha * b.tphi * (hy - hs * b.salpha * b.sphi)) / d * X +
      b.salpha * b.tphi * (hs * b.calpha * b.sphi - hx) / d * Y +
      -b.tphi * (b.calpha - hx * b.salpha * b.salpha * b.sphi + hy * b.calpha * b.salpha * b.sphi) / d * Z = x ∧
    b.calpha * b.tphi * (-hy + hs * b.salpha * b.sphi) / d * X +
      (1 / b.cphi + b.calpha * b.tphi * (hx - hs * b.calpha * b.sphi)) / d * Y +
      -b.tphi * (b.salpha - hy * b.calpha * b.calpha * b.sphi + hx * b.calpha * b.salpha * b.sphi) / d * Z = y ∧
    -hs * b.calpha * b.sphi / d * X + -hs * b.salpha * b.sphi / d * Y +
      (1 + hx * b.calpha * b.sphi + hy * b.salpha * b.sphi) / d * Z = σ := by
  obtain ⟨h1, ht, h2, hc⟩ := hb
  intro d X Y Z
  have ht' : b.tphi = b.sphi * b.cphi⁻¹ := by rw [ht, div_eq_mul_inv]
  have key : ∀ n1 n2 n3 r : ℝ, n1 * X + n2 * Y + n3 * Z = r * d →
      n1 / d * X + n2 / d * Y + n3 / d * Z = r := by
    intro n1 n2 n3 r e
    have hd' : d ≠ 0 := hd
    field_simp
    linear_combination e
  refine ⟨key _ _ _ _ ?_, key _ _ _ _ ?_, key _ _ _ _ ?_⟩ <;>
    simp only [X, Y, Z, d, ht', div_eq_mul_inv]
  · linear_combination -hs * b.sphi ^ 2 * b.cphi⁻¹ * x * h2
  · linear_combination -hs * b.sphi ^ 2 * b.cphi⁻¹ * y * h2
  · linear_combination -hs * b.sphi ^ 2 * b.cphi⁻¹ * σ * h2

theorem invBoost_boost {b : Boost ℝ} (hb : b.Ok) {v : Star ℝ} (h : 0 < pz v) (hs : 0 < pzStar b v) :
    invBoost b (boostR b v) = .ok v := by
  have hdet := det_eq hb hs
  have harg := boost_arg hb h
  obtain ⟨h1, ht, h2, hc⟩ := hb
  have hc' := hc.ne'
  have e0 : (1 + (boostR b v).delta) * (1 + (boostR b v).delta) - (boostR b v).px * (boostR b v).px -
    (boostR b v).py * (boostR b v).py = pzStar b v ^ 2 := by rw [← harg]; ring
  unfold invBoost
  rw [e0, csqrt_ok (by positivity), Real.sqrt_sq hs.le]
  simp only [Res.ok_bind, cdiv_ok hs.ne', cdiv_ok hc', Res.pure_eq]
  rw [hdet]
  have hd0 : pz v / (b.cphi * pzStar b v) ≠ 0 := by positivity
  simp only [Res.ok_bind, cdiv_ok hd0, Res.ok_inj]
  rw [← hdet] at hd0 ⊢
  have hlin := lin_inv (hx := (boostR b v).px / pzStar b v) (hy := (boostR b v).py / pzStar b v)
    (hs := 1 - ((boostR b v).delta + 1) / pzStar b v) (x := v.x) (y := v.y) (σ := v.sigma) ⟨h1, ht, h2, hc⟩ hd0
  obtain ⟨g1, g2, g3⟩ := hlin
  have f1 : (boostR b v).x = v.x + (boostR b v).px / pzStar b v * b.sphi * (v.x * b.calpha + v.y * b.salpha) + b.calpha * b.tphi * v.sigma := rfl
  have f2 : (boostR b v).y = v.y + (boostR b v).py / pzStar b v * b.sphi * (v.x * b.calpha + v.y * b.salpha) + b.salpha * b.tphi * v.sigma := rfl
  have f3 : (boostR b v).sigma = (1 - ((boostR b v).delta + 1) / pzStar b v) * b.sphi * (v.x * b.calpha + v.y * b.salpha) + v.sigma / b.cphi := rfl
  rw [← f1, ← f2, ← f3] at g1 g2 g3
  rw [g1, g2, g3]
  have hic : b.cphi ^ 2 * (1 + b.tphi ^ 2) = 1 := by rw [ht]; field_simp; linarith
  have hh : ((boostR b v).delta + 1 - pzStar b v) * b.cphi * b.cphi = v.delta + 1 - pz v := by
    simp only [boostR, pzStar, along]
    linear_combination (v.delta + 1 - pz v) * hic
  have e1 : (boostR b v).px * b.cphi + (v.delta + 1 - pz v) * b.calpha * b.tphi = v.px := by
    simp only [boostR]; field_simp; ring
  have e2 : (boostR b v).py * b.cphi + (v.delta + 1 - pz v) * b.salpha * b.tphi = v.py := by
    simp only [boostR]; field_simp; ring
  rw [hh, e1, e2]
  cases v
  simp only [Star.mk.injEq, true_and]
  simp only [boostR, along]
  ring

/-- The longitudinal momentum after the inverse boost. -/
noncomputable def pzBack (b : Boost ℝ) (v : Star ℝ) : ℝ :=
  b.cphi ^ 2 * pz v + b.sphi * along b v + b.sphi ^ 2 * (1 + v.delta)

/-- The variables after the inverse boost. -/
noncomputable def invBoostR (b : Boost ℝ) (v : Star ℝ) : Star ℝ :=
  let hx := v.px / pz v
  let hy := v.py / pz v
  let hs := 1 - (v.delta + 1) / pz v
  let d := 1 / b.cphi + (hx * b.calpha + hy * b.salpha - hs * b.sphi) * b.tphi
  { x := (1 / b.cphi + b.salpha * b.tphi * (hy - hs * b.salpha * b.sphi)) / d * v.x +
      b.salpha * b.tphi * (hs * b.calpha * b.sphi - hx) / d * v.y +
      -b.tphi * (b.calpha - hx * b.salpha * b.salpha * b.sphi + hy * b.calpha * b.salpha * b.sphi) / d * v.sigma
    px := v.px * b.cphi + (v.delta + 1 - pz v) * b.cphi * b.cphi * b.calpha * b.tphi
    y := b.calpha * b.tphi * (-hy + hs * b.salpha * b.sphi) / d * v.x +
      (1 / b.cphi + b.calpha * b.tphi * (hx - hs * b.calpha * b.sphi)) / d * v.y +
      -b.tphi * (b.salpha - hy * b.calpha * b.calpha * b.sphi + hx * b.calpha * b.salpha * b.sphi) / d * v.sigma
    py := v.py * b.cphi + (v.delta + 1 - pz v) * b.cphi * b.cphi * b.salpha * b.tphi
    sigma := -hs * b.calpha * b.sphi / d * v.x + -hs * b.salpha * b.sphi / d * v.y +
      (1 + hx * b.calpha * b.sphi + hy * b.salpha * b.sphi) / d * v.sigma
    delta := v.delta + b.sphi * along b v }

theorem det_back {b : Boost ℝ} (hb : b.Ok) {v : Star ℝ} (hs : 0 < pz v) :
    1 / b.cphi + (v.px / pz v * b.calpha + v.py / pz v * b.salpha -
      (1 - (v.delta + 1) / pz v) * b.sphi) * b.tphi = pzBack b v / (b.cphi * pz v) := by
  obtain ⟨h1, ht, h2, hc⟩ := hb
  have hc' := hc.ne'
  have hs' := hs.ne'
  simp only [pzBack, along]
  rw [ht]
  field_simp
  linear_combination -pz v * h1

theorem invBoost_eq {b : Boost ℝ} (hb : b.Ok) {v : Star ℝ} (h : 0 < pz v) (hs : 0 < pzBack b v) :
    invBoost b v = .ok (invBoostR b v) := by
  have hdet := det_back hb h
  obtain ⟨h1, ht, h2, hc⟩ := hb
  have hc' := hc.ne'
  have e0 : (1 + v.delta) * (1 + v.delta) - v.px * v.px - v.py * v.py =
    (1 + v.delta) ^ 2 - v.px ^ 2 - v.py ^ 2 := by ring
  have hp : Real.sqrt ((1 + v.delta) ^ 2 - v.px ^ 2 - v.py ^ 2) = pz v := rfl
  have hd0 : 1 / b.cphi + (v.px / pz v * b.calpha + v.py / pz v * b.salpha -
      (1 - (v.delta + 1) / pz v) * b.sphi) * b.tphi ≠ 0 := by rw [hdet]; positivity
  unfold invBoost
  rw [e0, csqrt_ok (Real.sqrt_pos.mp h).le, hp]
  simp only [Res.ok_bind, cdiv_ok h.ne', cdiv_ok hc', Res.pure_eq, cdiv_ok hd0, Res.ok_inj]
  simp only [invBoostR, Star.mk.injEq, true_and]
  simp only [along]
  rw [ht]
  field_simp
  linear_combination b.sphi ^ 2 * (v.delta + 1 - pz v) * h2

/-- The momenta before the inverse boost are those after the boost. -/
theorem boost_momenta {b : Boost ℝ} (hb : b.Ok) {v : Star ℝ} (h : 0 < pz v) (hs : 0 < pzBack b v) :
    pz (invBoostR b v) = pzBack b v ∧ pzStar b (invBoostR b v) = pz v ∧
      (boostR b (invBoostR b v)).px = v.px ∧ (boostR b (invBoostR b v)).py = v.py ∧
      (boostR b (invBoostR b v)).delta = v.delta := by
  have h3 := pz_sq h
  obtain ⟨h1, ht, h2, hc⟩ := hb
  have hc' := hc.ne'
  have hsp : b.cphi * b.tphi = b.sphi := by rw [ht]; field_simp
  have hp : pz (invBoostR b v) = pzBack b v := by
    unfold pz
    rw [show (1 + (invBoostR b v).delta) ^ 2 - (invBoostR b v).px ^ 2 - (invBoostR b v).py ^ 2 =
      pzBack b v ^ 2 from ?_, Real.sqrt_sq hs.le]
    have ex : (invBoostR b v).px = v.px * b.cphi + (v.delta + 1 - pz v) * b.cphi * b.calpha * b.sphi := by
      simp only [invBoostR]; linear_combination (v.delta + 1 - pz v) * b.cphi * b.calpha * hsp
    have ey : (invBoostR b v).py = v.py * b.cphi + (v.delta + 1 - pz v) * b.cphi * b.salpha * b.sphi := by
      simp only [invBoostR]; linear_combination (v.delta + 1 - pz v) * b.cphi * b.salpha * hsp
    rw [ex, ey]
    simp only [invBoostR, pzBack, along]
    linear_combination -(v.delta + 1 - pz v) ^ 2 * b.cphi ^ 2 * b.sphi ^ 2 * h2 -
      b.cphi ^ 2 * h3 + (-2 * (1 + v.delta) * b.sphi * (v.px * b.calpha + v.py * b.salpha) -
        (1 + v.delta) ^ 2 * (1 + b.sphi ^ 2) - b.cphi ^ 2 * pz v ^ 2) * h1
  have hu : along b (invBoostR b v) = b.cphi * along b v + (v.delta + 1 - pz v) * b.cphi * b.sphi := by
    simp only [along, invBoostR]
    linear_combination (v.delta + 1 - pz v) * b.cphi * b.cphi * b.tphi * h2 + (v.delta + 1 - pz v) * b.cphi * hsp
  have hh : (invBoostR b v).delta + 1 - pz (invBoostR b v) = b.cphi ^ 2 * (v.delta + 1 - pz v) := by
    rw [hp]
    simp only [invBoostR, pzBack]
    linear_combination -(1 + v.delta) * h1
  refine ⟨hp, ?_, ?_, ?_, ?_⟩
  · unfold pzStar
    rw [hp, hu]
    simp only [pzBack]
    rw [ht]
    field_simp
    linear_combination pz v * h1
  · simp only [boostR, hh]
    simp only [invBoostR]
    field_simp
    ring
  · simp only [boostR, hh]
    simp only [invBoostR]
    field_simp
    ring
  · simp only [boostR, hh, hu]
    simp only [invBoostR]
    rw [ht]
    field_simp
    ring

theorem lin_inv' {b : Boost ℝ} (hb : b.Ok) {hx hy hs X Y Z : ℝ}
    (hd : 1 / b.cphi + (hx * b.calpha + hy * b.salpha - hs * b.sphi) * b.tphi ≠ 0) :
    let d := 1 / b.cphi + (hx * b.calpha + hy * b.salpha - hs * b.sphi) * b.tphi
    let x := (1 / b.cphi + b.salpha * b.tphi * (hy - hs * b.salpha * b.sphi)) / d * X +
      b.salpha * b.tphi * (hs * b.calpha * b.sphi - hx) / d * Y +
      -b.tphi * (b.calpha - hx * b.salpha * b.salpha * b.sphi + hy * b.calpha * b.salpha * b.sphi) / d * Z
    let y := b.calpha * b.tphi * (-hy + hs * b.salpha * b.sphi) / d * X +
      (1 / b.cphi + b.calpha * b.tphi * (hx - hs * b.calpha * b.sphi)) / d * Y +
      -b.tphi * (b.salpha - hy * b.calpha * b.calpha * b.sphi + hx * b.calpha * b.salpha * b.sphi) / d * Z
    let σ := -hs * b.calpha * b.sphi / d * X + -hs * b.salpha * b.sphi / d * Y +
      (1 + hx * b.calpha * b.sphi + hy * b.salpha * b.sphi) / d * Z
    x + hx * b.sphi * (x * b.calpha + y * b.salpha) + b.calpha * b.tphi * σ = X ∧
    y + hy * b.sphi * (x * b.calpha + y * b.salpha) + b.salpha * b.tphi * σ = Y ∧
    hs * b.sphi * (x * b.calpha + y * b.salpha) + σ / b.cphi = Z := by
  obtain ⟨h1, ht, h2, hc⟩ := hb
  intro d x y σ
  have hd' : d ≠ 0 := hd
  have ht' : b.tphi = b.sphi * b.cphi⁻¹ := by rw [ht, div_eq_mul_inv]
  have ex : x * d = (1 / b.cphi + b.salpha * b.tphi * (hy - hs * b.salpha * b.sphi)) * X +
      b.salpha * b.tphi * (hs * b.calpha * b.sphi - hx) * Y +
      -b.tphi * (b.calpha - hx * b.salpha * b.salpha * b.sphi + hy * b.calpha * b.salpha * b.sphi) * Z := by
    simp only [x]; field_simp
  have ey : y * d = b.calpha * b.tphi * (-hy + hs * b.salpha * b.sphi) * X +
      (1 / b.cphi + b.calpha * b.tphi * (hx - hs * b.calpha * b.sphi)) * Y +
      -b.tphi * (b.salpha - hy * b.calpha * b.calpha * b.sphi + hx * b.calpha * b.salpha * b.sphi) * Z := by
    simp only [y]; field_simp
  have es : σ * d = -hs * b.calpha * b.sphi * X + -hs * b.salpha * b.sphi * Y +
      (1 + hx * b.calpha * b.sphi + hy * b.salpha * b.sphi) * Z := by
    simp only [σ]; field_simp
  have hdd : d = b.cphi⁻¹ + (hx * b.calpha + hy * b.salpha - hs * b.sphi) * (b.sphi * b.cphi⁻¹) := by
    simp only [d, ht', one_div]
  simp only [one_div, ht'] at ex ey es
  refine ⟨mul_right_cancel₀ hd' ?_, mul_right_cancel₀ hd' ?_, mul_right_cancel₀ hd' ?_⟩
  · rw [ht']
    linear_combination (1 + hx * b.sphi * b.calpha) * ex + hx * b.sphi * b.salpha * ey +
      b.calpha * (b.sphi * b.cphi⁻¹) * es - X * hdd - hs * b.sphi ^ 2 * b.cphi⁻¹ * X * h2
  · rw [ht']
    linear_combination hy * b.sphi * b.calpha * ex + (1 + hy * b.sphi * b.salpha) * ey +
      b.salpha * (b.sphi * b.cphi⁻¹) * es - Y * hdd - hs * b.sphi ^ 2 * b.cphi⁻¹ * Y * h2
  · rw [div_eq_mul_inv]
    linear_combination hs * b.sphi * b.calpha * ex + hs * b.sphi * b.salpha * ey +
      b.cphi⁻¹ * es - Z * hdd - hs * b.sphi ^ 2 * b.cphi⁻¹ * Z * h2

theorem boost_invBoost {b : Boost ℝ} (hb : b.Ok) {v : Star ℝ} (h : 0 < pz v) (hs : 0 < pzBack b v) :
    boostR b (invBoostR b v) = v := by
  obtain ⟨-, m2, m3, m4, m5⟩ := boost_momenta hb h hs
  have hdet := det_back hb h
  have hc := hb.pos
  have hd0 : 1 / b.cphi + (v.px / pz v * b.calpha + v.py / pz v * b.salpha -
      (1 - (v.delta + 1) / pz v) * b.sphi) * b.tphi ≠ 0 := by rw [hdet]; positivity
  obtain ⟨g1, g2, g3⟩ := lin_inv' (X := v.x) (Y := v.y) (Z := v.sigma) hb hd0
  have f1 : (boostR b (invBoostR b v)).x = v.x := by
    rw [← g1]
    show _ + (boostR b (invBoostR b v)).px / pzStar b (invBoostR b v) * _ * _ + _ = _
    rw [m2, m3]
    rfl
  have f2 : (boostR b (invBoostR b v)).y = v.y := by
    rw [← g2]
    show _ + (boostR b (invBoostR b v)).py / pzStar b (invBoostR b v) * _ * _ + _ = _
    rw [m2, m4]
    rfl
  have f3 : (boostR b (invBoostR b v)).sigma = v.sigma := by
    rw [← g3]
    show (1 - ((boostR b (invBoostR b v)).delta + 1) / pzStar b (invBoostR b v)) * _ * _ + _ = _
    rw [m2, m5]
    rfl
  generalize boostR b (invBoostR b v) = u at *
  cases u; cases v
  simp_all
end Beam
end SixTrack
