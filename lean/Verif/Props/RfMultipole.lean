import Verif.Props.SymplecticLattice

/-!
# C50: RF multipoles
-/

namespace SixTrack
open Elem

namespace Elem

/-- The phase of the normal (`j = 2n`) or skew (`j = 2n+1`) part. -/
noncomputable def rfPhase (phase : Nat → ℝ) (ktau : ℝ) (j : Nat) : ℝ := Real.pi / 180 * phase j - ktau

/-- The transverse field of an RF multipole: `Σ (cos φ_n·b_n + i cos φ_s·a_n) (x+iy)^n`. -/
noncomputable def rfField (bal phase : Nat → ℝ) (ktau x y : ℝ) (n : Nat) : ℂ :=
  ∑ k ∈ Finset.range n, (⟨Real.cos (rfPhase phase ktau (2 * k)) * bal (2 * k),
    Real.cos (rfPhase phase ktau (2 * k + 1)) * bal (2 * k + 1)⟩ : ℂ) * (⟨x, y⟩ : ℂ) ^ k

/-- What the energy kick is made of: `Re Σ (sin φ_n·b_n + i sin φ_s·a_n) (x+iy)^(n+1)`. -/
noncomputable def rfPot (bal phase : Nat → ℝ) (ktau x y : ℝ) (n : Nat) : ℂ :=
  ∑ k ∈ Finset.range n, (⟨Real.sin (rfPhase phase ktau (2 * k)) * bal (2 * k),
    Real.sin (rfPhase phase ktau (2 * k + 1)) * bal (2 * k + 1)⟩ : ℂ) * (⟨x, y⟩ : ℂ) ^ (k + 1)

theorem rfFold_spec (bal phase : Nat → ℝ) (ktau x y : ℝ) (n : Nat) :
    (List.range n).foldl (rfStep bal phase ktau x y) ⟨0, 0, 0, 1, 0⟩ =
      ⟨(rfField bal phase ktau x y n).re, (rfField bal phase ktau x y n).im,
       (rfPot bal phase ktau x y n).re, ((⟨x, y⟩ : ℂ) ^ n).re, ((⟨x, y⟩ : ℂ) ^ n).im⟩ := by
  induction n with
  | zero => simp [rfField, rfPot]
  | succ n ih =>
    rw [List.range_succ, List.foldl_append, ih]
    simp only [List.foldl_cons, List.foldl_nil, rfStep, rfField, rfPot, Finset.sum_range_succ, pow_succ]
    generalize (⟨x, y⟩ : ℂ) ^ n = z
    simp only [Complex.add_re, Complex.add_im, Complex.mul_re, Complex.mul_im, cos_real, sin_real, deg2rad,
      pi_real, Nat.cast_ofNat, rfPhase]
    congr 1 <;> ring

theorem rfLoop_spec (bal phase : Nat → ℝ) (ktau x y : ℝ) (order : Nat) :
    (rfLoop bal phase ktau x y order).dpx = (rfField bal phase ktau x y (order + 1)).re ∧
    (rfLoop bal phase ktau x y order).dpy = (rfField bal phase ktau x y (order + 1)).im ∧
    (rfLoop bal phase ktau x y order).dptr = (rfPot bal phase ktau x y (order + 1)).re := by
  unfold rfLoop
  rw [rfFold_spec]
  exact ⟨rfl, rfl, rfl⟩

end Elem

/-- The map of an RF multipole: transverse kick from the oscillating field, then an energy change.
Everything else follows from the energy change. -/
theorem C50_map (rf : RFMultipole ℝ) (c : Coord ℝ) :
    let k := 2 * Real.pi * rf.frequency / 299792458
    let ktau := k * c.zeta / (c.beta0 * c.rvv)
    let q := c.q0 * c.chargeRatio
    rfMultipole rf c = addToEnergy { c with
        px := c.px - c.chi * (rfField rf.bal rf.phase ktau c.x c.y (rf.order + 1)).re
        py := c.py + c.chi * (rfField rf.bal rf.phase ktau c.x c.y (rf.order + 1)).im }
      (q * rf.voltage * Real.sin (Real.pi / 180 * rf.lag - ktau) -
        q * k * c.p0c * (rfPot rf.bal rf.phase ktau c.x c.y (rf.order + 1)).re) := by
  intro k ktau q
  have hk : rf.frequency * (2 * Real.pi) / 299792458 = k := by simp only [k]; ring
  unfold rfMultipole
  simp only [Nat.cast_ofNat, cLight, pi_real, sin_real, deg2rad, hk]
  have h := rfLoop_spec rf.bal rf.phase ktau c.x c.y rf.order
  simp only [ktau] at h
  rw [h.1, h.2.1, h.2.2]
  congr 1
  · congr 1
    ring
  · simp only [q, ktau]
    rw [mul_comm rf.lag]
    ring

/-- Without strengths an RF multipole is a cavity. -/
theorem C50_is_cavity (rf : RFMultipole ℝ) (c : Coord ℝ) (h0 : ∀ i < 2 * rf.order + 2, rf.bal i = 0) :
    rfMultipole rf c = cavity ⟨rf.voltage, rf.frequency, rf.lag⟩ c := by
  have hf : ∀ ktau, rfField rf.bal rf.phase ktau c.x c.y (rf.order + 1) = 0 := by
    intro ktau
    apply Finset.sum_eq_zero
    intro i hi
    have hi' := Finset.mem_range.mp hi
    rw [h0 (2 * i) (by omega), h0 (2 * i + 1) (by omega), mul_zero, mul_zero]
    have : (⟨0, 0⟩ : ℂ) = 0 := rfl
    rw [this, zero_mul]
  have hp : ∀ ktau, rfPot rf.bal rf.phase ktau c.x c.y (rf.order + 1) = 0 := by
    intro ktau
    apply Finset.sum_eq_zero
    intro i hi
    have hi' := Finset.mem_range.mp hi
    rw [h0 (2 * i) (by omega), h0 (2 * i + 1) (by omega), mul_zero, mul_zero]
    have : (⟨0, 0⟩ : ℂ) = 0 := rfl
    rw [this, zero_mul]
  rw [C50_map]
  rw [hf, hp]
  unfold cavity
  simp only [Complex.zero_re, Complex.zero_im, mul_zero, sub_zero, add_zero, deg2rad, cLight, sin_real,
    pi_real, Nat.cast_ofNat]
  congr 3
  ring

/-- At frequency, voltage and phases zero an RF multipole is a thin multipole (for a consistent
particle, which keeps its energy). -/
theorem C50_is_multipole (rf : RFMultipole ℝ) (c : Coord ℝ) (hc : Consistent c) (hf : rf.frequency = 0)
    (hv : rf.voltage = 0) (hp : ∀ i < 2 * rf.order + 2, rf.phase i = 0) :
    rfMultipole rf c = multipole ⟨rf.order, 0, 0, 0, rf.bal⟩ c := by
  rw [C50_map, C38_kick _ _ rfl rfl]
  have hfield : rfField rf.bal rf.phase 0 c.x c.y (rf.order + 1) =
      storedField ⟨rf.order, 0, 0, 0, rf.bal⟩ c.x c.y := by
    unfold rfField storedField
    apply Finset.sum_congr rfl
    intro i hi
    have hi' := Finset.mem_range.mp hi
    unfold rfPhase
    rw [hp (2 * i) (by omega), hp (2 * i + 1) (by omega)]
    simp
  simp only [hf, hv, mul_zero, zero_div, zero_mul, sub_zero]
  rw [hfield]
  refine (C39_no_change _ ?_).1
  obtain ⟨a, b, d, e, f, g⟩ := hc
  exact ⟨a, b, d, e, f, g⟩

namespace Elem

/-- The kick of an RF multipole of order 0 in canonical variables. -/
noncomputable def rf0V (rf : RFMultipole ℝ) (c0 : Coord ℝ) (v : V) : V :=
  let k := 2 * Real.pi * rf.frequency / 299792458
  let f0 := rfPhase rf.phase (k * v.2.2.2.2.1 / c0.beta0) 0
  let f1 := rfPhase rf.phase (k * v.2.2.2.2.1 / c0.beta0) 1
  let q := c0.q0 * c0.chargeRatio
  (v.1, v.2.1 + -(c0.chi * (Real.cos f0 * rf.bal 0)), v.2.2.1, v.2.2.2.1 + c0.chi * (Real.cos f1 * rf.bal 1),
    v.2.2.2.2.1, v.2.2.2.2.2 +
      (q * rf.voltage * Real.sin (Real.pi / 180 * rf.lag - k * v.2.2.2.2.1 / c0.beta0) -
        q * k * c0.p0c * (Real.sin f0 * rf.bal 0 * v.1 - Real.sin f1 * rf.bal 1 * v.2.2.1)) /
        (Real.sqrt (c0.p0c ^ 2 + c0.mass0 ^ 2) * c0.beta0 ^ 2))

theorem rf0_ofCanon {c0 : Coord ℝ} {v : V} (rf : RFMultipole ℝ) (ho : rf.order = 0) (hb : 0 < c0.beta0)
    (h : Dom c0.beta0 v) (h' : Dom c0.beta0 (rf0V rf c0 v)) :
    rfMultipole rf (ofCanon c0 v) = ofCanon c0 (rf0V rf c0 v) := by
  have h1 := h.opd_pos
  have h2 := h.2
  have htau : ∀ k : ℝ, k * (ofCanon c0 v).zeta / ((ofCanon c0 v).beta0 * (ofCanon c0 v).rvv) =
      k * v.2.2.2.2.1 / c0.beta0 := by
    intro k
    unfold ofCanon
    dsimp only
    field_simp
  rw [C50_map]
  rw [htau, ho]
  simp only [rfField, rfPot, zero_add, Finset.sum_range_one, mul_zero, pow_zero, mul_one, pow_one,
    Complex.mul_re]
  set k := 2 * Real.pi * rf.frequency / 299792458
  set f0 := rfPhase rf.phase (k * v.2.2.2.2.1 / c0.beta0) 0
  set f1 := rfPhase rf.phase (k * v.2.2.2.2.1 / c0.beta0) 1
  let u : V := (v.1, v.2.1 - c0.chi * (Real.cos f0 * rf.bal 0), v.2.2.1,
    v.2.2.2.1 + c0.chi * (Real.cos f1 * rf.bal 1), v.2.2.2.2.1, v.2.2.2.2.2)
  have hu : Dom c0.beta0 u := h
  have e := addToEnergy_ofCanon (c0 := c0) (v := u)
    (c0.q0 * c0.chargeRatio * rf.voltage * Real.sin (Real.pi / 180 * rf.lag - k * v.2.2.2.2.1 / c0.beta0) -
        c0.q0 * c0.chargeRatio * k * c0.p0c *
          (Real.sin f0 * rf.bal 0 * v.1 - Real.sin f1 * rf.bal 1 * v.2.2.1)) hb hu h'
  refine Eq.trans e (congrArg (ofCanon c0) ?_)
  unfold rf0V
  refine Prod.ext rfl (Prod.ext ?_ (Prod.ext rfl (Prod.ext rfl (Prod.ext rfl rfl))))
  show v.2.1 - _ = v.2.1 + -_
  ring

theorem inCanon_rf0 {c0 : Coord ℝ} {v : V} (rf : RFMultipole ℝ) (ho : rf.order = 0) (hb : 0 < c0.beta0)
    (h : Dom c0.beta0 v) (h' : Dom c0.beta0 (rf0V rf c0 v)) : inCanon (rfMultipole rf) c0 v = rf0V rf c0 v := by
  unfold inCanon
  rw [rf0_ofCanon rf ho hb h h', toCanon_ofCanon h']

theorem rf0V_symplectic (rf : RFMultipole ℝ) (c0 : Coord ℝ) (v : V) (hb : 0 < c0.beta0)
    (hp : c0.p0c = c0.beta0 * Real.sqrt (c0.p0c ^ 2 + c0.mass0 ^ 2))
    (hE : 0 < Real.sqrt (c0.p0c ^ 2 + c0.mass0 ^ 2)) (hchi : c0.chi = c0.q0 * c0.chargeRatio) :
    SymplecticAt (rf0V rf c0) v := by
  have hb' := hb.ne'
  generalize hEE : Real.sqrt (c0.p0c ^ 2 + c0.mass0 ^ 2) = E at *
  refine symplecticAt_of_lines ?_ (D := fun w =>
    let k := 2 * Real.pi * rf.frequency / 299792458
    let f0 := rfPhase rf.phase (k * v.2.2.2.2.1 / c0.beta0) 0
    let f1 := rfPhase rf.phase (k * v.2.2.2.2.1 / c0.beta0) 1
    let fl := Real.pi / 180 * rf.lag - k * v.2.2.2.2.1 / c0.beta0
    let q := c0.q0 * c0.chargeRatio
    let kw := k * w.2.2.2.2.1 / c0.beta0
    (w.1, w.2.1 - c0.chi * (Real.sin f0 * kw * rf.bal 0), w.2.2.1,
      w.2.2.2.1 + c0.chi * (Real.sin f1 * kw * rf.bal 1), w.2.2.2.2.1,
      w.2.2.2.2.2 + (- q * rf.voltage * (Real.cos fl * kw) - q * k * c0.p0c *
        (Real.sin f0 * rf.bal 0 * w.1 - Real.cos f0 * kw * rf.bal 0 * v.1
          - (Real.sin f1 * rf.bal 1 * w.2.2.1 - Real.cos f1 * kw * rf.bal 1 * v.2.2.1))) /
            (E * c0.beta0 ^ 2))) ?_ ?_
  · unfold rf0V rfPhase
    fun_prop
  · intro w
    simp only [line_eq, rf0V, rfPhase, hEE]
    have l1 := hasDerivAt_line v.1 w.1
    have l3 := hasDerivAt_line v.2.2.1 w.2.2.1
    have l5 := hasDerivAt_line v.2.2.2.2.1 w.2.2.2.2.1
    have hph : ∀ a k : ℝ, HasDerivAt (fun t : ℝ => a - k * (v.2.2.2.2.1 + t * w.2.2.2.2.1) / c0.beta0)
        (-(k * w.2.2.2.2.1 / c0.beta0)) 0 := by
      intro a k
      exact (((l5.const_mul k).div_const c0.beta0).const_sub a)
    apply hasDerivAt_six
    · exact l1
    · refine ((hasDerivAt_line v.2.1 w.2.1).add
        (((((hph _ _).cos).mul_const (rf.bal 0)).const_mul c0.chi).neg)).congr_deriv ?_
      simp only [zero_mul, add_zero]
      ring
    · exact l3
    · refine ((hasDerivAt_line v.2.2.2.1 w.2.2.2.1).add
        ((((hph _ _).cos).mul_const (rf.bal 1)).const_mul c0.chi)).congr_deriv ?_
      simp only [zero_mul, add_zero]
      ring
    · exact l5
    · refine ((hasDerivAt_line v.2.2.2.2.2 w.2.2.2.2.2).add
        ((((hph _ _).sin.const_mul _).sub
          (((((hph _ _).sin.mul_const _).mul l1).sub (((hph _ _).sin.mul_const _).mul l3)).const_mul
            _)).div_const _)).congr_deriv ?_
      simp only [zero_mul, add_zero]
      ring
  · intro a d
    simp only [omega, hchi]
    rw [hp]
    field_simp
    ring

theorem rf0V_continuousAt (rf : RFMultipole ℝ) (c0 : Coord ℝ) (v : V) : ContinuousAt (rf0V rf c0) v := by
  unfold rf0V rfPhase
  fun_prop

end Elem

/-- An RF dipole (order 0) with its accelerating part is symplectic, if `chi` is the charge
`q0·charge_ratio` and `beta0` belongs to `p0c`. -/
theorem C50_symplectic_partial (rf : RFMultipole ℝ) (c0 : Coord ℝ) (v : V) (ho : rf.order = 0)
    (hb : 0 < c0.beta0) (hp : c0.p0c = c0.beta0 * Real.sqrt (c0.p0c ^ 2 + c0.mass0 ^ 2))
    (hE : 0 < Real.sqrt (c0.p0c ^ 2 + c0.mass0 ^ 2)) (hchi : c0.chi = c0.q0 * c0.chargeRatio)
    (h : Dom c0.beta0 v) (h'' : Dom c0.beta0 (rf0V rf c0 v)) :
    SymplecticAt (inCanon (rfMultipole rf) c0) v := by
  have hnear := (rf0V_continuousAt rf c0 v).eventually h''.eventually
  refine (rf0V_symplectic rf c0 v hb hp hE hchi).congr ?_
  filter_upwards [h.eventually, hnear] with w hw hw'
  exact inCanon_rf0 rf ho hb hw hw'

example : ∃ (rf : RFMultipole ℝ) (c0 : Coord ℝ) (v : V), rf.order = 0 ∧ rf.bal 0 ≠ 0 ∧ 0 < c0.beta0 ∧
    c0.p0c = c0.beta0 * Real.sqrt (c0.p0c ^ 2 + c0.mass0 ^ 2) ∧ 0 < Real.sqrt (c0.p0c ^ 2 + c0.mass0 ^ 2) ∧
    c0.chi = c0.q0 * c0.chargeRatio ∧ Dom c0.beta0 v ∧ Dom c0.beta0 (rf0V rf c0 v) := by
  have hroot : Real.sqrt (4 ^ 2 + 3 ^ 2) = 5 := by
    rw [show (4 : ℝ) ^ 2 + 3 ^ 2 = 5 ^ 2 by norm_num]; exact Real.sqrt_sq (by norm_num)
  refine ⟨⟨0, 0, 1, 0, fun _ => 1, fun _ => 0⟩, sample, 0, rfl, by norm_num, ?_, ?_, ?_, ?_, ?_, ?_⟩ <;>
    simp only [sample, hroot, Dom, rf0V] <;> norm_num

namespace Elem

/-- An RF quadrupole whose phase is `sigma`, on the sample particle. -/
theorem rfQuad_form (u : V) (hu : Dom (4 / 5) u)
    (hu' : Dom (4 / 5) (u.1, 0, 0, 0, 0, u.2.2.2.2.2 + Real.sin u.2.2.2.2.1 * (u.1 ^ 2 - u.2.2.1 ^ 2))) :
    inCanon (rfMultipole ⟨1, 0, 4 / 5 * 299792458 / (2 * Real.pi), 0, fun i => if i = 2 then 1 else 0,
        fun _ => 0⟩) sample u =
      (u.1, u.2.1 - Real.cos u.2.2.2.2.1 * u.1, u.2.2.1, u.2.2.2.1 + Real.cos u.2.2.2.2.1 * u.2.2.1,
        u.2.2.2.2.1, u.2.2.2.2.2 + Real.sin u.2.2.2.2.1 * (u.1 ^ 2 - u.2.2.1 ^ 2)) := by
  have hroot : Real.sqrt (4 ^ 2 + 3 ^ 2) = 5 := by
    rw [show (4 : ℝ) ^ 2 + 3 ^ 2 = 5 ^ 2 by norm_num]; exact Real.sqrt_sq (by norm_num)
  have h1 := hu.opd_pos
  have h2 := hu.2
  have hk : 2 * Real.pi * (4 / 5 * 299792458 / (2 * Real.pi)) / 299792458 = (4 / 5 : ℝ) := by
    have := Real.pi_pos
    field_simp
  have htau : (4 / 5 : ℝ) * (ofCanon sample u).zeta / ((ofCanon sample u).beta0 * (ofCanon sample u).rvv) =
      u.2.2.2.2.1 := by
    unfold ofCanon sample
    dsimp only
    generalize 1 + (4 / 5 : ℝ) ^ 2 * u.2.2.2.2.2 = e at *
    field_simp
  unfold inCanon
  rw [C50_map]
  dsimp only
  rw [hk, htau]
  have hfield : rfField (fun i => if i = 2 then 1 else 0) (fun _ => 0) u.2.2.2.2.1 u.1 u.2.2.1 (1 + 1) =
      ⟨Real.cos u.2.2.2.2.1 * u.1, Real.cos u.2.2.2.2.1 * u.2.2.1⟩ := by
    apply Complex.ext <;> simp [rfField, rfPhase, Finset.sum_range_succ]
  have hpot : (rfPot (fun i => if i = 2 then 1 else 0) (fun _ => 0) u.2.2.2.2.1 u.1 u.2.2.1 (1 + 1)).re =
      -(Real.sin u.2.2.2.2.1 * (u.1 ^ 2 - u.2.2.1 ^ 2)) := by
    simp [rfPot, rfPhase, Finset.sum_range_succ, pow_two]
  have hx : (ofCanon sample u).x = u.1 := rfl
  have hy : (ofCanon sample u).y = u.2.2.1 := rfl
  rw [hx, hy, hfield, hpot]
  let w : V := (u.1, u.2.1 - Real.cos u.2.2.2.2.1 * u.1, u.2.2.1,
    u.2.2.2.1 + Real.cos u.2.2.2.2.1 * u.2.2.1, u.2.2.2.2.1, u.2.2.2.2.2)
  have hw : ({ ofCanon sample u with
      px := (ofCanon sample u).px - (ofCanon sample u).chi * (Real.cos u.2.2.2.2.1 * u.1)
      py := (ofCanon sample u).py + (ofCanon sample u).chi * (Real.cos u.2.2.2.2.1 * u.2.2.1) } : Coord ℝ) =
      ofCanon sample w := by
    have hc : (ofCanon sample u).chi = 1 := rfl
    rw [hc, one_mul, one_mul]
    rfl
  have hq : (ofCanon sample u).q0 * (ofCanon sample u).chargeRatio * 0 * Real.sin (Real.pi / 180 * 0 - u.2.2.2.2.1)
      - (ofCanon sample u).q0 * (ofCanon sample u).chargeRatio * (4 / 5) * (ofCanon sample u).p0c *
        -(Real.sin u.2.2.2.2.1 * (u.1 ^ 2 - u.2.2.1 ^ 2)) =
      16 / 5 * (Real.sin u.2.2.2.2.1 * (u.1 ^ 2 - u.2.2.1 ^ 2)) := by
    have a1 : (ofCanon sample u).q0 = 1 := rfl
    have a2 : (ofCanon sample u).chargeRatio = 1 := rfl
    have a3 : (ofCanon sample u).p0c = 4 := rfl
    rw [a1, a2, a3]; ring
  refine Eq.trans (congrArg toCanon (congrArg₂ addToEnergy hw hq)) ?_
  have hs : w.2.2.2.2.2 + 16 / 5 * (Real.sin u.2.2.2.2.1 * (u.1 ^ 2 - u.2.2.1 ^ 2)) /
      (Real.sqrt (sample.p0c ^ 2 + sample.mass0 ^ 2) * sample.beta0 ^ 2) =
      u.2.2.2.2.2 + Real.sin u.2.2.2.2.1 * (u.1 ^ 2 - u.2.2.1 ^ 2) := by
    have : Real.sqrt (sample.p0c ^ 2 + sample.mass0 ^ 2) = 5 := hroot
    rw [this]
    simp only [sample, w]
    ring
  rw [addToEnergy_ofCanon (c0 := sample) (v := w) _ (by simp only [sample]; norm_num) hu
    (by rw [hs]; exact hu'), hs, toCanon_ofCanon]
  exact hu'

end Elem

/-- An RF quadrupole is not symplectic: the energy kick lacks the factor `1/(n+1)` of the potential. -/
theorem C50_symplectic_violated :
    ∃ (rf : RFMultipole ℝ) (c0 : Coord ℝ) (v : V), rf.order = 1 ∧ 0 < c0.beta0 ∧
      c0.p0c = c0.beta0 * Real.sqrt (c0.p0c ^ 2 + c0.mass0 ^ 2) ∧ c0.chi = c0.q0 * c0.chargeRatio ∧
      Dom c0.beta0 v ∧ Dom c0.beta0 (inCanon (rfMultipole rf) c0 v) ∧
      ¬ SymplecticAt (inCanon (rfMultipole rf) c0) v := by
  have hroot : Real.sqrt (4 ^ 2 + 3 ^ 2) = 5 := by
    rw [show (4 : ℝ) ^ 2 + 3 ^ 2 = 5 ^ 2 by norm_num]; exact Real.sqrt_sq (by norm_num)
  let v : V := (1, 0, 0, 0, Real.pi / 2, 0)
  have hv : Dom (4 / 5) v := by unfold Dom; simp [v]
  have hv' : Dom (4 / 5) (v.1, 0, 0, 0, 0, v.2.2.2.2.2 + Real.sin v.2.2.2.2.1 * (v.1 ^ 2 - v.2.2.1 ^ 2)) := by
    unfold Dom; norm_num [v]
  have hnear : ∀ᶠ u : V in nhds v, Dom (4 / 5)
      (u.1, 0, 0, 0, 0, u.2.2.2.2.2 + Real.sin u.2.2.2.2.1 * (u.1 ^ 2 - u.2.2.1 ^ 2)) := by
    have hc : Continuous (fun u : V => ((u.1, 0, 0, 0, 0,
      u.2.2.2.2.2 + Real.sin u.2.2.2.2.1 * (u.1 ^ 2 - u.2.2.1 ^ 2)) : V)) := by fun_prop
    exact hc.continuousAt.eventually hv'.eventually
  let G : V → V := fun u => (u.1, u.2.1 - Real.cos u.2.2.2.2.1 * u.1, u.2.2.1,
    u.2.2.2.1 + Real.cos u.2.2.2.2.1 * u.2.2.1, u.2.2.2.2.1,
    u.2.2.2.2.2 + Real.sin u.2.2.2.2.1 * (u.1 ^ 2 - u.2.2.1 ^ 2))
  refine ⟨⟨1, 0, 4 / 5 * 299792458 / (2 * Real.pi), 0, fun i => if i = 2 then 1 else 0, fun _ => 0⟩,
    sample, v, rfl, by simp only [sample]; norm_num, by simp only [sample, hroot]; norm_num,
    by simp only [sample]; norm_num, hv, ?_, ?_⟩
  · rw [rfQuad_form v hv hv']
    unfold Dom at hv' ⊢
    exact hv'
  · intro hs
    have hline : ∀ a : V, ∀ᶠ t : ℝ in nhds 0, inCanon (rfMultipole ⟨1, 0, 4 / 5 * 299792458 / (2 * Real.pi),
        0, fun i => if i = 2 then 1 else 0, fun _ => 0⟩) sample (v + t • a) =
        G (v + t • a) := by
      intro a
      have hc : Continuous (fun t : ℝ => v + t • a) := by fun_prop
      have h0 := hc.tendsto 0
      rw [zero_smul, add_zero] at h0
      filter_upwards [h0.eventually hnear, hv.line a] with t h1 h2
      exact rfQuad_form _ h2 h1
    let a : V := (1, 0, 0, 0, 0, 0)
    let d : V := (0, 0, 0, 0, 1, 0)
    have l1 := hasDerivAt_line 1 1
    have ls := hasDerivAt_line (Real.pi / 2) 1
    have ha : HasDerivAt (fun t : ℝ => ((1 + t * 1, 0, 0, 0, Real.pi / 2, (1 + t * 1) ^ 2) : V))
        (1, 0, 0, 0, 0, 2) 0 := by
      refine hasDerivAt_six l1 (hasDerivAt_const _ _) (hasDerivAt_const _ _) (hasDerivAt_const _ _)
        (hasDerivAt_const _ _) ((l1.pow 2).congr_deriv (by norm_num))
    have hd : HasDerivAt (fun t : ℝ => ((1, -Real.cos (Real.pi / 2 + t * 1), 0, 0, Real.pi / 2 + t * 1,
        Real.sin (Real.pi / 2 + t * 1)) : V)) (0, 1, 0, 0, 1, 0) 0 := by
      refine hasDerivAt_six (hasDerivAt_const _ _) ((ls.cos.neg).congr_deriv (by simp)) (hasDerivAt_const _ _)
        (hasDerivAt_const _ _) ls (ls.sin.congr_deriv (by simp))
    have ha' := hasDerivAt_congr_near ha ((hline a).mono fun t ht => ht.trans (by simp [G, v, a]))
    have hd' := hasDerivAt_congr_near hd ((hline d).mono fun t ht => ht.trans (by simp [G, v, d]))
    have := hs.lines ha' hd'
    simp [omega, a, d] at this
    norm_num at this

/-- For a reference charge of 2 (and a particle of the reference species) even an RF dipole is not
symplectic: the energy kick is taken with the charge, the transverse kick with `chi`. -/
theorem C50_reference_charge_violated :
    ∃ (rf : RFMultipole ℝ) (c0 : Coord ℝ) (v : V), rf.order = 0 ∧ 0 < c0.beta0 ∧
      c0.p0c = c0.beta0 * Real.sqrt (c0.p0c ^ 2 + c0.mass0 ^ 2) ∧ c0.chi = 1 ∧ c0.chargeRatio = 1 ∧
      Dom c0.beta0 v ∧ Dom c0.beta0 (inCanon (rfMultipole rf) c0 v) ∧
      ¬ SymplecticAt (inCanon (rfMultipole rf) c0) v := by
  have hroot : Real.sqrt (4 ^ 2 + 3 ^ 2) = 5 := by
    rw [show (4 : ℝ) ^ 2 + 3 ^ 2 = 5 ^ 2 by norm_num]; exact Real.sqrt_sq (by norm_num)
  let v : V := (1, 0, 0, 0, Real.pi / 2, 0)
  let rf : RFMultipole ℝ := ⟨0, 0, 4 / 5 * 299792458 / (2 * Real.pi), 0, fun i => if i = 0 then 1 else 0,
    fun _ => 0⟩
  let c0 : Coord ℝ := { sample with q0 := 2 }
  let G : V → V := fun u => (u.1, u.2.1 - Real.cos u.2.2.2.2.1, u.2.2.1, u.2.2.2.1,
      u.2.2.2.2.1, u.2.2.2.2.2 + 2 * (Real.sin u.2.2.2.2.1 * u.1))
  have hk : 2 * Real.pi * (4 / 5 * 299792458 / (2 * Real.pi)) / 299792458 = (4 / 5 : ℝ) := by
    have := Real.pi_pos
    field_simp
  have hform : ∀ u : V, rf0V rf c0 u = (u.1, u.2.1 - Real.cos u.2.2.2.2.1, u.2.2.1, u.2.2.2.1,
      u.2.2.2.2.1, u.2.2.2.2.2 + 2 * (Real.sin u.2.2.2.2.1 * u.1)) := by
    intro u
    have hks : (4 / 5 : ℝ) * u.2.2.2.2.1 / (4 / 5) = u.2.2.2.2.1 := by ring
    simp only [rf0V, rfPhase, rf, c0, sample, hk, hks, hroot]
    refine Prod.ext rfl (Prod.ext ?_ (Prod.ext rfl (Prod.ext ?_ (Prod.ext rfl ?_)))) <;>
      simp [Real.cos_neg, Real.sin_neg]
    · ring
    · ring
  have hv : Dom c0.beta0 v := by unfold Dom; simp [v]
  have hv' : Dom c0.beta0 (rf0V rf c0 v) := by rw [hform]; unfold Dom; norm_num [v, c0, sample]
  have hb : 0 < c0.beta0 := by simp only [c0, sample]; norm_num
  refine ⟨rf, c0, v, rfl, hb, by simp only [c0, sample, hroot]; norm_num, rfl, rfl, hv, ?_, ?_⟩
  · rw [inCanon_rf0 rf rfl hb hv hv']; exact hv'
  · intro hs
    have hnear := (rf0V_continuousAt rf c0 v).eventually hv'.eventually
    have hline : ∀ a : V, ∀ᶠ t : ℝ in nhds 0, inCanon (rfMultipole rf) c0 (v + t • a) =
        G (v + t • a) := by
      intro a
      have hc : Continuous (fun t : ℝ => v + t • a) := by fun_prop
      have h0 := hc.tendsto 0
      rw [zero_smul, add_zero] at h0
      filter_upwards [h0.eventually hnear, hv.line a] with t h1 h2
      exact (inCanon_rf0 rf rfl hb h2 h1).trans (hform _)
    let a : V := (1, 0, 0, 0, 0, 0)
    let d : V := (0, 0, 0, 0, 1, 0)
    have l1 := hasDerivAt_line 1 1
    have ls := hasDerivAt_line (Real.pi / 2) 1
    have ha : HasDerivAt (fun t : ℝ => ((1 + t * 1, 0, 0, 0, Real.pi / 2, 2 * (1 + t * 1)) : V))
        (1, 0, 0, 0, 0, 2) 0 := by
      refine hasDerivAt_six l1 (hasDerivAt_const _ _) (hasDerivAt_const _ _) (hasDerivAt_const _ _)
        (hasDerivAt_const _ _) ((l1.const_mul 2).congr_deriv (by norm_num))
    have hd : HasDerivAt (fun t : ℝ => ((1, -Real.cos (Real.pi / 2 + t * 1), 0, 0, Real.pi / 2 + t * 1,
        2 * Real.sin (Real.pi / 2 + t * 1)) : V)) (0, 1, 0, 0, 1, 0) 0 := by
      refine hasDerivAt_six (hasDerivAt_const _ _) ((ls.cos.neg).congr_deriv (by simp)) (hasDerivAt_const _ _)
        (hasDerivAt_const _ _) ls ((ls.sin.const_mul 2).congr_deriv (by simp))
    have ha' := hasDerivAt_congr_near ha ((hline a).mono fun t ht => ht.trans (by simp [G, v, a]))
    have hd' := hasDerivAt_congr_near hd ((hline d).mono fun t ht => ht.trans (by simp [G, v, d]))
    have := hs.lines ha' hd'
    simp [omega, a, d] at this
    norm_num at this

end SixTrack
