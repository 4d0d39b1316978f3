import Verif.ElementsReal
import Mathlib.Data.Complex.BigOperators
import Mathlib.Analysis.Complex.Basic
import Mathlib.Tactic.FieldSimp
import Mathlib.Tactic.LinearCombination
import Mathlib.Tactic.Positivity

/-!
# C36 - C39: drifts, shifts, rotations, multipole kicks and energy changes
-/

namespace SixTrack
open Elem

/-! ### C36 -/

/-- Two drifts are one drift of the total length. -/
theorem C36_drifts_compose (l1 l2 : ℝ) (c : Coord ℝ) :
    drift l2 (drift l1 c) = drift (l1 + l2) c := by
  ext <;> simp only [drift] <;> ring

/-- A drift changes only `x`, `y`, `s` and `zeta`: momenta and energy are unchanged. -/
theorem C36_drift_keeps_momenta (l : ℝ) (c : Coord ℝ) :
    drift l c = { c with
      x := (drift l c).x, y := (drift l c).y, s := c.s + l, zeta := (drift l c).zeta } := rfl

/-- The positions move along the slopes `px/(1+delta)`, `py/(1+delta)`. -/
theorem C36_drift_moves (l : ℝ) (c : Coord ℝ) (hd : 1 + c.delta ≠ 0)
    (hr : c.rpp = 1 / (1 + c.delta)) :
    (drift l c).x = c.x + l * (c.px / (1 + c.delta)) ∧
    (drift l c).y = c.y + l * (c.py / (1 + c.delta)) ∧
    (drift l c).zeta = c.zeta + l * (c.rvv - 1 -
      ((c.px / (1 + c.delta)) ^ 2 + (c.py / (1 + c.delta)) ^ 2) / 2) := by
  simp only [drift, hr, Nat.cast_ofNat]
  refine ⟨by field_simp, by field_simp, by field_simp; ring⟩

/-- Drifting backwards undoes a drift, and a drift of length zero does nothing. -/
theorem C36_drift_reversible (l : ℝ) (c : Coord ℝ) : drift (-l) (drift l c) = c ∧ drift 0 c = c := by
  constructor <;> ext <;> simp only [drift] <;> ring

/-- Two exact drifts are one exact drift of the total length (for a particle that moves forward; the
momenta are unchanged, so it does so in both). -/
theorem C36_exact_drifts_compose (l1 l2 : ℝ) (c : Coord ℝ)
    (_h : c.px ^ 2 + c.py ^ 2 < (1 + c.delta) ^ 2) :
    driftExact l2 (driftExact l1 c) = driftExact (l1 + l2) c := by
  ext <;> simp only [driftExact] <;> ring

theorem C36_exact_drift_keeps_momenta (l : ℝ) (c : Coord ℝ) :
    driftExact l c = { c with
      x := (driftExact l c).x, y := (driftExact l c).y, s := c.s + l, zeta := (driftExact l c).zeta } := rfl

/-- The particle moves on a straight line along its momentum: with `pz > 0` such that
`px² + py² + pz² = (1+delta)²`, a drift by `l` moves it by `l/pz` times the transverse momentum. -/
theorem C36_exact_drift_moves (l : ℝ) (c : Coord ℝ) (pz : ℝ) (hpz : 0 < pz)
    (h : c.px ^ 2 + c.py ^ 2 + pz ^ 2 = (1 + c.delta) ^ 2) :
    (driftExact l c).x = c.x + (l / pz) * c.px ∧
    (driftExact l c).y = c.y + (l / pz) * c.py ∧
    (driftExact l c).zeta = c.zeta + l * (c.rvv - (1 + c.delta) / pz) := by
  have e : Real.sqrt ((c.delta + 1) * (c.delta + 1) - (c.px * c.px + c.py * c.py)) = pz := by
    rw [show (c.delta + 1) * (c.delta + 1) - (c.px * c.px + c.py * c.py) = pz ^ 2 by
      linear_combination -h]
    exact Real.sqrt_sq hpz.le
  simp only [driftExact, sqrt_real, e]
  refine ⟨by ring, by ring, by ring⟩

/-- Backwards and forwards, exact drift. -/
theorem C36_exact_drift_reversible (l : ℝ) (c : Coord ℝ)
    (_h : c.px ^ 2 + c.py ^ 2 < (1 + c.delta) ^ 2) :
    driftExact (-l) (driftExact l c) = c ∧ driftExact 0 c = c := by
  constructor <;> ext <;> simp only [driftExact] <;> ring

example : sample.px ^ 2 + sample.py ^ 2 < (1 + sample.delta) ^ 2 ∧
    1 + sample.delta ≠ 0 ∧ sample.rpp = 1 / (1 + sample.delta) ∧
    (drift 3 (drift 2 sample)).x = 1 / 10 + 5 / 3 := by
  simp only [sample, drift]; norm_num

example : ∃ c : Coord ℝ, ∃ pz : ℝ, 0 < pz ∧ c.px ^ 2 + c.py ^ 2 + pz ^ 2 = (1 + c.delta) ^ 2 ∧ c.px ≠ 0 :=
  ⟨{ sample with px := 3 / 5, py := 0 }, 4 / 5, by norm_num, by simp only [sample]; norm_num,
    by norm_num⟩

/-! ### C37 -/

/-- A shift moves the particle by `(-dx, -dy)`, and the opposite shift restores it. -/
theorem C37_shift_invertible (dx dy : ℝ) (c : Coord ℝ) :
    xyShift dx dy c = { c with x := c.x - dx, y := c.y - dy } ∧
    xyShift (-dx) (-dy) (xyShift dx dy c) = c := by
  constructor <;> ext <;> simp only [xyShift] <;> ring

/-- The map of a rotation element whose angle was set. -/
noncomputable def rotate (angle : ℝ) (c : Coord ℝ) : Coord ℝ :=
  sRotation (SRotationObj.setAngle angle : SRotationObj ℝ).cosZ
    (SRotationObj.setAngle angle : SRotationObj ℝ).sinZ c

/-- A rotation followed by the opposite rotation restores the particle. -/
theorem C37_rotation_invertible (a : ℝ) (c : Coord ℝ) : rotate (-a) (rotate a c) = c := by
  have h := Real.sin_sq_add_cos_sq a
  ext <;> simp only [rotate, sRotation, SRotationObj.setAngle, cos_real, sin_real, Real.cos_neg,
    Real.sin_neg]
  · linear_combination c.x * h
  · linear_combination c.y * h
  · linear_combination c.px * h
  · linear_combination c.py * h

/-- Rotations compose additively. -/
theorem C37_rotations_compose (a b : ℝ) (c : Coord ℝ) : rotate b (rotate a c) = rotate (a + b) c := by
  ext <;> simp only [rotate, sRotation, SRotationObj.setAngle, cos_real, sin_real, Real.cos_add,
    Real.sin_add] <;> ring

/-- Rotations preserve distances (in position and in transverse momentum) and the angular momentum, and
change nothing else. -/
theorem C37_rotation_isometry (a : ℝ) (c d : Coord ℝ) :
    ((rotate a c).x - (rotate a d).x) ^ 2 + ((rotate a c).y - (rotate a d).y) ^ 2 =
      (c.x - d.x) ^ 2 + (c.y - d.y) ^ 2 ∧
    ((rotate a c).px - (rotate a d).px) ^ 2 + ((rotate a c).py - (rotate a d).py) ^ 2 =
      (c.px - d.px) ^ 2 + (c.py - d.py) ^ 2 ∧
    (rotate a c).x * (rotate a c).py - (rotate a c).y * (rotate a c).px =
      c.x * c.py - c.y * c.px ∧
    rotate a c = { c with
      x := (rotate a c).x, y := (rotate a c).y, px := (rotate a c).px, py := (rotate a c).py } := by
  have h := Real.sin_sq_add_cos_sq a
  refine ⟨?_, ?_, ?_, rfl⟩ <;>
    simp only [rotate, sRotation, SRotationObj.setAngle, cos_real, sin_real]
  · linear_combination ((c.x - d.x) ^ 2 + (c.y - d.y) ^ 2) * h
  · linear_combination ((c.px - d.px) ^ 2 + (c.py - d.py) ^ 2) * h
  · linear_combination (c.x * c.py - c.y * c.px) * h

/-- The frame turns from the `x` axis towards the `y` axis: the rotation by a quarter turn takes a
particle on the `y` axis to the `x` axis. -/
theorem C37_rotation_direction (c : Coord ℝ) :
    (rotate (Real.pi / 2) c).x = c.y ∧ (rotate (Real.pi / 2) c).y = -c.x ∧
    (rotate (Real.pi / 2) c).px = c.py ∧ (rotate (Real.pi / 2) c).py = -c.px := by
  simp [rotate, sRotation, SRotationObj.setAngle]

/-- Setting the angle in degrees. -/
theorem C37_degrees (d : ℝ) :
    (SRotationObj.setAngleDeg d : SRotationObj ℝ) = SRotationObj.setAngle (d * Real.pi / 180) := by
  unfold SRotationObj.setAngleDeg
  congr 1
  simp only [deg2rad, pi_real, Nat.cast_ofNat]
  ring

example : rotate Real.pi sample ≠ sample := by
  intro h
  have := congrArg Coord.x h
  simp [rotate, sRotation, SRotationObj.setAngle, sample] at this
  norm_num at this

/-! ### C38 -/

namespace Elem

theorem horner_spec (bal : Nat → ℝ) (x y : ℝ) (n : Nat) (dpx dpy : ℝ) :
    (⟨(horner bal x y n dpx dpy).1, (horner bal x y n dpx dpy).2⟩ : ℂ) =
      (⟨dpx, dpy⟩ : ℂ) * (⟨x, y⟩ : ℂ) ^ n +
        ∑ i ∈ Finset.range n, (⟨bal (2 * i), bal (2 * i + 1)⟩ : ℂ) * (⟨x, y⟩ : ℂ) ^ i := by
  induction n generalizing dpx dpy with
  | zero => simp [horner]
  | succ n ih =>
    simp only [horner]
    rw [ih, Finset.sum_range_succ]
    have e : (⟨bal (2 * n) + (dpx * x - dpy * y), bal (2 * n + 1) + (dpx * y + dpy * x)⟩ : ℂ) =
        ⟨bal (2 * n), bal (2 * n + 1)⟩ + ⟨dpx, dpy⟩ * ⟨x, y⟩ := by
      apply Complex.ext <;> simp
    rw [e]
    ring

theorem horner_full (bal : Nat → ℝ) (x y : ℝ) (n : Nat) :
    (⟨(horner bal x y n (bal (2 * n)) (bal (2 * n + 1))).1,
      (horner bal x y n (bal (2 * n)) (bal (2 * n + 1))).2⟩ : ℂ) =
      ∑ i ∈ Finset.range (n + 1), (⟨bal (2 * i), bal (2 * i + 1)⟩ : ℂ) * (⟨x, y⟩ : ℂ) ^ i := by
  rw [horner_spec, Finset.sum_range_succ]
  ring

theorem horner_congr (bal bal' : Nat → ℝ) (x y : ℝ) (n : Nat) (dpx dpy : ℝ)
    (h : ∀ i < 2 * n, bal i = bal' i) :
    horner bal x y n dpx dpy = horner bal' x y n dpx dpy := by
  induction n generalizing dpx dpy with
  | zero => rfl
  | succ n ih =>
    simp only [horner]
    rw [h (2 * n) (by omega), h (2 * n + 1) (by omega)]
    exact ih _ _ (fun i hi => h i (by omega))

end Elem

/-- The multipole field at `x + iy`, as it is stored: `Σ (b_n + i a_n) (x+iy)^n`. -/
noncomputable def storedField (mp : Multipole ℝ) (x y : ℝ) : ℂ :=
  ∑ n ∈ Finset.range (mp.order + 1), (⟨mp.bal (2 * n), mp.bal (2 * n + 1)⟩ : ℂ) * (⟨x, y⟩ : ℂ) ^ n

/-- The kick of a thin multipole without curvature: minus `chi` times the real part and plus `chi` times
the imaginary part of the field; nothing else changes. -/
theorem C38_kick (mp : Multipole ℝ) (c : Coord ℝ) (hx : mp.hxl = 0) (hy : mp.hyl = 0) :
    multipole mp c = { c with
      px := c.px - c.chi * (storedField mp c.x c.y).re
      py := c.py + c.chi * (storedField mp c.x c.y).im } := by
  have h := horner_full mp.bal c.x c.y mp.order
  unfold storedField
  rw [← h]
  simp only [multipole, hx, hy, lt_irrefl, or_self, if_false]
  ext <;> simp only []
  ring

/-- With curvature there is the weak focusing of the bend in addition, and `zeta` changes. -/
theorem C38_kick_curved (mp : Multipole ℝ) (c : Coord ℝ) (h : mp.hxl ≠ 0 ∨ mp.hyl ≠ 0) :
    multipole mp c = { c with
      zeta := c.zeta + c.chi * (c.y * mp.hyl - c.x * mp.hxl)
      px := c.px - c.chi * (storedField mp c.x c.y).re + mp.hxl * (1 + c.delta)
        - (if 0 < mp.length then c.chi * mp.bal 0 * mp.hxl / mp.length * c.x else 0)
      py := c.py + c.chi * (storedField mp c.x c.y).im - mp.hyl * (1 + c.delta)
        + (if 0 < mp.length then c.chi * mp.bal 1 * mp.hyl / mp.length * c.y else 0) } := by
  have hh := horner_full mp.bal c.x c.y mp.order
  unfold storedField
  rw [← hh]
  have hc : 0 < mp.hxl ∨ 0 < mp.hyl ∨ mp.hxl < 0 ∨ mp.hyl < 0 := by
    rcases h with h | h
    · rcases lt_or_gt_of_ne h with h | h
      · exact Or.inr (Or.inr (Or.inl h))
      · exact Or.inl h
    · rcases lt_or_gt_of_ne h with h | h
      · exact Or.inr (Or.inr (Or.inr h))
      · exact Or.inr (Or.inl h)
  simp only [multipole, if_pos hc]
  by_cases hl : 0 < mp.length
  · simp only [if_pos hl]
    ext <;> simp only [] <;> ring
  · simp only [if_neg hl]
    ext <;> simp only [] <;> ring

/-- Only the entries up to `2·order + 1` of the array are read. -/
theorem C38_reads (mp : Multipole ℝ) (bal' : Nat → ℝ) (c : Coord ℝ)
    (h : ∀ i < 2 * mp.order + 2, mp.bal i = bal' i) :
    multipole mp c = multipole { mp with bal := bal' } c := by
  have e : horner mp.bal c.x c.y mp.order (mp.bal (2 * mp.order)) (mp.bal (2 * mp.order + 1)) =
      horner bal' c.x c.y mp.order (bal' (2 * mp.order)) (bal' (2 * mp.order + 1)) := by
    rw [← h (2 * mp.order) (by omega), ← h (2 * mp.order + 1) (by omega)]
    exact horner_congr _ _ _ _ _ _ _ (fun i hi => h i (by omega))
  simp only [multipole, e, h 0 (by omega), h 1 (by omega)]

example : ∃ mp : Multipole ℝ, mp.order = 2 ∧ mp.hxl = 0 ∧ mp.hyl = 0 ∧
    (multipole mp sample).px ≠ sample.px := by
  refine ⟨⟨2, 0, 0, 0, fun i => i⟩, rfl, rfl, rfl, ?_⟩
  simp only [multipole, horner, sample]
  norm_num

/-! ### C39 -/

/-- Ratio of the particle's energy to the reference energy after adding `dE`, from `delta`. -/
noncomputable def relEnergy (c : Coord ℝ) (dE : ℝ) : ℝ :=
  dE / Real.sqrt (c.p0c ^ 2 + c.mass0 ^ 2) + Real.sqrt (c.beta0 ^ 2 * ((1 + c.delta) ^ 2 - 1) + 1)

/-- The particle keeps moving: its energy stays positive and above its rest energy
(`1 - beta0²` is `1/gamma0²`). -/
def KeepsMoving (c : Coord ℝ) (dE : ℝ) : Prop :=
  0 < relEnergy c dE ∧ 1 - c.beta0 ^ 2 < relEnergy c dE ^ 2

/-- The defining relations between `psigma`, `delta`, `rpp` and `rvv` (with
`ptau = psigma·beta0 = (E - E0)/(p0c)`): `(1+delta)² = 1 + 2 ptau/beta0 + ptau²`, `rpp = 1/(1+delta)`,
`rvv = beta/beta0 = (1+delta)/(1+beta0·ptau)`. -/
structure Consistent (c : Coord ℝ) : Prop where
  beta0_pos : 0 < c.beta0
  delta_pos : 0 < 1 + c.delta
  energy_pos : 0 < 1 + c.beta0 ^ 2 * c.psigma
  dispersion : (1 + c.delta) ^ 2 = 1 + 2 * c.psigma + (c.psigma * c.beta0) ^ 2
  rpp_eq : c.rpp * (1 + c.delta) = 1
  rvv_eq : c.rvv * (1 + c.beta0 ^ 2 * c.psigma) = 1 + c.delta

namespace Elem

theorem addToEnergy_eq (c : Coord ℝ) (dE : ℝ) (hb : c.beta0 ≠ 0) :
    addToEnergy c dE = { c with
      delta := Real.sqrt ((relEnergy c dE ^ 2 - 1) / c.beta0 ^ 2 + 1) - 1
      psigma := (relEnergy c dE - 1) / c.beta0 ^ 2
      zeta := c.zeta * (Real.sqrt ((relEnergy c dE ^ 2 - 1) / c.beta0 ^ 2 + 1) / relEnergy c dE / c.rvv)
      rvv := Real.sqrt ((relEnergy c dE ^ 2 - 1) / c.beta0 ^ 2 + 1) / relEnergy c dE
      rpp := 1 / Real.sqrt ((relEnergy c dE ^ 2 - 1) / c.beta0 ^ 2 + 1) } := by
  have e1 : c.delta * c.beta0 * (c.delta * c.beta0) + ((2 : Nat) : ℝ) * (c.delta * c.beta0) * c.beta0 + 1 =
      c.beta0 ^ 2 * ((1 + c.delta) ^ 2 - 1) + 1 := by push_cast; ring
  have e2 : dE / energy0 c + Real.sqrt (c.beta0 ^ 2 * ((1 + c.delta) ^ 2 - 1) + 1) - 1 =
      relEnergy c dE - 1 := by
    unfold relEnergy energy0
    simp only [sqrt_real, pow_two]
  have e3 : (relEnergy c dE - 1) / c.beta0 * ((relEnergy c dE - 1) / c.beta0) +
      ((2 : Nat) : ℝ) * ((relEnergy c dE - 1) / c.beta0 / c.beta0) + 1 =
      (relEnergy c dE ^ 2 - 1) / c.beta0 ^ 2 + 1 := by
    push_cast
    field_simp
    ring
  simp only [addToEnergy, sqrt_real, e1, e2, e3]
  ext <;> simp only [sub_add_cancel, add_sub_cancel]
  field_simp

theorem arg_pos {c : Coord ℝ} {dE : ℝ} (hb : c.beta0 ≠ 0) (h : KeepsMoving c dE) :
    0 < (relEnergy c dE ^ 2 - 1) / c.beta0 ^ 2 + 1 := by
  have hb2 : 0 < c.beta0 ^ 2 := by positivity
  have : (relEnergy c dE ^ 2 - 1) / c.beta0 ^ 2 + 1 =
      (relEnergy c dE ^ 2 - (1 - c.beta0 ^ 2)) / c.beta0 ^ 2 := by
    field_simp
    ring
  rw [this]
  apply div_pos _ hb2
  linarith [h.2]

theorem relEnergy_addToEnergy {c : Coord ℝ} {d1 d2 : ℝ} (hb : c.beta0 ≠ 0)
    (h1 : KeepsMoving c d1) : relEnergy (addToEnergy c d1) d2 = relEnergy c (d1 + d2) := by
  have ha := arg_pos hb h1
  have key : Real.sqrt (c.beta0 ^ 2 *
      ((1 + (Real.sqrt ((relEnergy c d1 ^ 2 - 1) / c.beta0 ^ 2 + 1) - 1)) ^ 2 - 1) + 1) =
      relEnergy c d1 := by
    rw [add_sub_cancel, Real.sq_sqrt ha.le]
    rw [show c.beta0 ^ 2 * ((relEnergy c d1 ^ 2 - 1) / c.beta0 ^ 2 + 1 - 1) + 1 = relEnergy c d1 ^ 2 by
      field_simp; ring]
    exact Real.sqrt_sq h1.1.le
  rw [addToEnergy_eq c d1 hb]
  show d2 / Real.sqrt (c.p0c ^ 2 + c.mass0 ^ 2) + _ = _
  rw [key]
  unfold relEnergy
  ring

end Elem

/-- Adding `dE1` and then `dE2` is the same as adding `dE1 + dE2`. -/
theorem C39_energy_additive (c : Coord ℝ) (d1 d2 : ℝ) (hb : 0 < c.beta0)
    (h1 : KeepsMoving c d1) (_h2 : KeepsMoving c (d1 + d2)) :
    addToEnergy (addToEnergy c d1) d2 = addToEnergy c (d1 + d2) := by
  have hb' : c.beta0 ≠ 0 := hb.ne'
  have ha := Real.sqrt_pos.mpr (arg_pos hb' h1)
  have hr := h1.1
  have e := relEnergy_addToEnergy (d2 := d2) hb' h1
  have hb2 : (addToEnergy c d1).beta0 = c.beta0 := rfl
  rw [addToEnergy_eq (addToEnergy c d1) d2 (by rw [hb2]; exact hb'), e, hb2, addToEnergy_eq c d1 hb',
    addToEnergy_eq c (d1 + d2) hb']
  ext <;> simp only []
  generalize Real.sqrt ((relEnergy c d1 ^ 2 - 1) / c.beta0 ^ 2 + 1) = S at *
  field_simp

/-- After every energy change the derived variables satisfy their defining relations. -/
theorem C39_energy_consistent (c : Coord ℝ) (dE : ℝ) (hb : 0 < c.beta0) (h : KeepsMoving c dE) :
    Consistent (addToEnergy c dE) := by
  have hb' : c.beta0 ≠ 0 := hb.ne'
  have ha := arg_pos hb' h
  have hs := Real.sqrt_pos.mpr ha
  have hr := h.1
  have hsq := Real.sq_sqrt ha.le
  rw [addToEnergy_eq c dE hb']
  have hps : 1 + c.beta0 ^ 2 * ((relEnergy c dE - 1) / c.beta0 ^ 2) = relEnergy c dE := by
    field_simp; ring
  constructor <;> simp only [add_sub_cancel]
  · exact hb
  · exact hs
  · rw [hps]; exact hr
  · rw [hsq]
    field_simp
    ring
  · rw [one_div, inv_mul_cancel₀ hs.ne']
  · rw [hps]
    field_simp

/-- After setting `delta` the derived variables satisfy their defining relations. -/
theorem C39_delta_consistent (c : Coord ℝ) (d : ℝ) (hb : 0 < c.beta0) (hb1 : c.beta0 ≤ 1)
    (hd : 0 < 1 + d) : Consistent (updateDelta c d) ∧ (updateDelta c d).delta = d := by
  have harg : 0 < c.beta0 ^ 2 * ((1 + d) ^ 2 - 1) + 1 := by
    have : c.beta0 ^ 2 * ((1 + d) ^ 2 - 1) + 1 = c.beta0 ^ 2 * (1 + d) ^ 2 + (1 - c.beta0 ^ 2) := by ring
    rw [this]
    have h1 : c.beta0 ^ 2 ≤ 1 := by
      calc c.beta0 ^ 2 ≤ 1 ^ 2 := pow_le_pow_left₀ hb.le hb1 2
        _ = 1 := by norm_num
    have : 0 < c.beta0 ^ 2 * (1 + d) ^ 2 := by positivity
    linarith
  have e1 : d * c.beta0 * (d * c.beta0) + ((2 : Nat) : ℝ) * (d * c.beta0) * c.beta0 + 1 =
      c.beta0 ^ 2 * ((1 + d) ^ 2 - 1) + 1 := by push_cast; ring
  have hs := Real.sqrt_pos.mpr harg
  have hsq := Real.sq_sqrt harg.le
  refine ⟨?_, rfl⟩
  have hps : 1 + c.beta0 ^ 2 * ((Real.sqrt (c.beta0 ^ 2 * ((1 + d) ^ 2 - 1) + 1) - 1) /
      (c.beta0 * c.beta0)) = Real.sqrt (c.beta0 ^ 2 * ((1 + d) ^ 2 - 1) + 1) := by
    field_simp; ring
  constructor <;> simp only [updateDelta, sqrt_real, e1, add_sub_cancel]
  · exact hb
  · exact hd
  · rw [hps]; exact hs
  · generalize Real.sqrt (c.beta0 ^ 2 * ((1 + d) ^ 2 - 1) + 1) = S at *
    field_simp
    linear_combination -hsq
  · field_simp
  · rw [hps]
    field_simp

/-- Adding no energy to a consistent particle changes nothing, and setting `delta` to the value it has
changes nothing. -/
theorem C39_no_change (c : Coord ℝ) (hc : Consistent c) :
    addToEnergy c 0 = c ∧ updateDelta c c.delta = c := by
  obtain ⟨hb, hd, he, hdisp, hrpp, hrvv⟩ := hc
  have hb' : c.beta0 ≠ 0 := hb.ne'
  have hd' : 1 + c.delta ≠ 0 := hd.ne'
  have he' : 1 + c.beta0 ^ 2 * c.psigma ≠ 0 := he.ne'
  have hroot : Real.sqrt (c.beta0 ^ 2 * ((1 + c.delta) ^ 2 - 1) + 1) = 1 + c.beta0 ^ 2 * c.psigma := by
    rw [hdisp, show c.beta0 ^ 2 * (1 + 2 * c.psigma + (c.psigma * c.beta0) ^ 2 - 1) + 1 =
      (1 + c.beta0 ^ 2 * c.psigma) ^ 2 by ring]
    exact Real.sqrt_sq he.le
  have hrel : relEnergy c 0 = 1 + c.beta0 ^ 2 * c.psigma := by
    unfold relEnergy
    rw [hroot]; ring
  have hroot2 : Real.sqrt (((1 + c.beta0 ^ 2 * c.psigma) ^ 2 - 1) / c.beta0 ^ 2 + 1) = 1 + c.delta := by
    rw [show ((1 + c.beta0 ^ 2 * c.psigma) ^ 2 - 1) / c.beta0 ^ 2 + 1 = (1 + c.delta) ^ 2 by
      rw [hdisp]; field_simp; ring]
    exact Real.sqrt_sq hd.le
  have hv : c.rvv = (1 + c.delta) / (1 + c.beta0 ^ 2 * c.psigma) := by
    field_simp; linear_combination hrvv
  have hp : c.rpp = 1 / (1 + c.delta) := by field_simp; linear_combination hrpp
  have hv' : c.rvv ≠ 0 := by rw [hv]; positivity
  constructor
  · rw [addToEnergy_eq c 0 hb', hrel, hroot2]
    ext <;> simp only []
    · rw [← hv]; field_simp
    · field_simp; ring
    · ring
    · rw [hp]
    · rw [hv]
  · have e1 : c.delta * c.beta0 * (c.delta * c.beta0) +
        ((2 : Nat) : ℝ) * (c.delta * c.beta0) * c.beta0 + 1 =
        c.beta0 ^ 2 * ((1 + c.delta) ^ 2 - 1) + 1 := by push_cast; ring
    simp only [updateDelta, sqrt_real, e1, hroot]
    ext <;> simp only []
    · field_simp; ring
    · rw [hp]
    · rw [hv]; congr 1; ring

/-- An energy change can be undone. -/
theorem C39_energy_reversible (c : Coord ℝ) (hc : Consistent c) (dE : ℝ) (h : KeepsMoving c dE)
    (h0 : KeepsMoving c 0) : addToEnergy (addToEnergy c dE) (-dE) = c := by
  rw [C39_energy_additive c dE (-dE) hc.beta0_pos h (by rw [add_neg_cancel]; exact h0), add_neg_cancel]
  exact (C39_no_change c hc).1

/-- The time coordinate `zeta/(beta0·rvv)` is not changed by an energy change. -/
theorem C39_time_kept (c : Coord ℝ) (dE : ℝ) (hb : 0 < c.beta0) (hr : c.rvv ≠ 0) (h : KeepsMoving c dE) :
    (addToEnergy c dE).zeta / ((addToEnergy c dE).beta0 * (addToEnergy c dE).rvv) =
      c.zeta / (c.beta0 * c.rvv) := by
  have hb' : c.beta0 ≠ 0 := hb.ne'
  have hs := Real.sqrt_pos.mpr (arg_pos hb' h)
  have he := h.1
  rw [addToEnergy_eq c dE hb']
  simp only []
  generalize Real.sqrt ((relEnergy c dE ^ 2 - 1) / c.beta0 ^ 2 + 1) = S at *
  field_simp

/-- What the energy read back is after adding `dE`: it has grown by `dE` times the mass ratio. -/
theorem C39_energy_gain_partial (c : Coord ℝ) (hc : Consistent c) (dE : ℝ) (hp : 0 < c.p0c)
    (hbeta : c.beta0 = c.p0c / Real.sqrt (c.p0c ^ 2 + c.mass0 ^ 2)) (_h : KeepsMoving c dE) :
    energy (addToEnergy c dE) = energy c + dE * massRatio c := by
  have hb' : c.beta0 ≠ 0 := hc.beta0_pos.ne'
  have hE0 : 0 < Real.sqrt (c.p0c ^ 2 + c.mass0 ^ 2) := Real.sqrt_pos.mpr (by positivity)
  have hroot : Real.sqrt (c.beta0 ^ 2 * ((1 + c.delta) ^ 2 - 1) + 1) = 1 + c.beta0 ^ 2 * c.psigma := by
    rw [hc.dispersion, show c.beta0 ^ 2 * (1 + 2 * c.psigma + (c.psigma * c.beta0) ^ 2 - 1) + 1 =
      (1 + c.beta0 ^ 2 * c.psigma) ^ 2 by ring]
    exact Real.sqrt_sq hc.energy_pos.le
  have hrel : relEnergy c dE = dE / Real.sqrt (c.p0c ^ 2 + c.mass0 ^ 2) + (1 + c.beta0 ^ 2 * c.psigma) := by
    unfold relEnergy
    rw [hroot]
  rw [addToEnergy_eq c dE hb']
  unfold energy massRatio
  simp only [sqrt_real, hrel, ← pow_two]
  have hb2 : c.p0c = c.beta0 * Real.sqrt (c.p0c ^ 2 + c.mass0 ^ 2) := by
    conv_rhs => rw [hbeta]
    field_simp
  generalize Real.sqrt (c.p0c ^ 2 + c.mass0 ^ 2) = E at *
  rw [hb2]
  field_simp
  ring

/-- For an ion whose mass is twice the reference mass (at the same charge-to-mass ratio), adding the
energy 1 makes the energy read back grow by 2. -/
theorem C39_energy_gain_violated :
    ∃ c : Coord ℝ, Consistent c ∧ c.beta0 = c.p0c / Real.sqrt (c.p0c ^ 2 + c.mass0 ^ 2) ∧
      KeepsMoving c 1 ∧ energy (addToEnergy c 1) = energy c + 2 := by
  have hroot : Real.sqrt (4 ^ 2 + 3 ^ 2) = 5 := by
    rw [show (4 : ℝ) ^ 2 + 3 ^ 2 = 5 ^ 2 by norm_num]; exact Real.sqrt_sq (by norm_num)
  let c : Coord ℝ := { sample with chargeRatio := 2 }
  have hc : Consistent c := by
    constructor <;> simp only [c, sample] <;> norm_num
  have hb : c.beta0 = c.p0c / Real.sqrt (c.p0c ^ 2 + c.mass0 ^ 2) := by
    simp only [c, sample]; rw [hroot]
  have hk : KeepsMoving c 1 := by
    have : relEnergy c 1 = 6 / 5 := by
      unfold relEnergy
      simp only [c, sample]
      rw [hroot, show ((4 / 5 : ℝ)) ^ 2 * ((1 + 0) ^ 2 - 1) + 1 = 1 by norm_num, Real.sqrt_one]
      norm_num
    unfold KeepsMoving
    rw [this]
    simp only [c, sample]
    norm_num
  refine ⟨c, hc, hb, hk, ?_⟩
  rw [C39_energy_gain_partial c hc 1 (by simp only [c, sample]; norm_num) hb hk]
  simp only [massRatio, c, sample]
  norm_num

example : Consistent sample ∧ KeepsMoving sample 1 ∧ KeepsMoving sample 0 ∧ KeepsMoving sample (-1) := by
  have hroot : Real.sqrt (4 ^ 2 + 3 ^ 2) = 5 := by
    rw [show (4 : ℝ) ^ 2 + 3 ^ 2 = 5 ^ 2 by norm_num]; exact Real.sqrt_sq (by norm_num)
  have key : ∀ dE, relEnergy sample dE = dE / 5 + 1 := by
    intro dE
    unfold relEnergy
    simp only [sample]
    rw [hroot, show ((4 / 5 : ℝ)) ^ 2 * ((1 + 0) ^ 2 - 1) + 1 = 1 by norm_num, Real.sqrt_one]
  refine ⟨by constructor <;> simp only [sample] <;> norm_num, ?_, ?_, ?_⟩ <;>
    unfold KeepsMoving <;> rw [key] <;> simp only [sample] <;> norm_num

end SixTrack
