import Verif.Props.Symplectic

/-!
# C40, C50: the other thin elements, cavities, and whole lattices
-/

namespace SixTrack
open Elem

namespace Elem

/-- Derivatives along lines of a symplectic map preserve the form. -/
theorem SymplecticAt.lines {G : V → V} {v a b da db : V} (h : SymplecticAt G v)
    (ha : HasDerivAt (fun t : ℝ => G (v + t • a)) da 0) (hb : HasDerivAt (fun t : ℝ => G (v + t • b)) db 0) :
    omega da db = omega a b := by
  obtain ⟨L, hL, hw⟩ := h
  have key : ∀ w d, HasDerivAt (fun t : ℝ => G (v + t • w)) d 0 → d = L w := by
    intro w d hd
    have h1 : HasDerivAt (fun t : ℝ => v + t • w) w 0 := by
      have := ((hasDerivAt_id (0 : ℝ)).smul_const w).const_add v
      simpa using this
    have h2 : HasFDerivAt G L (v + (0 : ℝ) • w) := by simpa using hL
    exact hd.unique (h2.comp_hasDerivAt 0 h1)
  rw [key a da ha, key b db hb, hw]

theorem hasDerivAt_congr_near {f g : ℝ → V} {d : V} (hf : HasDerivAt f d 0)
    (h : ∀ᶠ t in nhds (0 : ℝ), g t = f t) : HasDerivAt g d 0 :=
  hf.congr_of_eventuallyEq h

/-- Points of a line through a point of the domain are in the domain. -/
theorem Dom.line {b : ℝ} {v : V} (h : Dom b v) (w : V) : ∀ᶠ t in nhds (0 : ℝ), Dom b (v + t • w) := by
  have hc : Continuous (fun t : ℝ => v + t • w) := by fun_prop
  have := hc.tendsto 0
  rw [zero_smul, add_zero] at this
  exact this.eventually h.eventually

end Elem

/-- A bending multipole is not symplectic for a particle with `chi = 2`: the change of `zeta` is scaled
with `chi`, the kick by the curvature is not. -/
theorem C40_multipole_violated :
    ∃ mp : Multipole ℝ, ∃ c0 : Coord ℝ, ∃ v : V, Dom c0.beta0 v ∧ 0 < c0.beta0 ∧ c0.beta0 < 1 ∧
      ¬ SymplecticAt (inCanon (multipole mp) c0) v := by
  let mp : Multipole ℝ := ⟨0, 0, 1, 0, fun _ => 0⟩
  let c0 : Coord ℝ := { sample with chi := 2 }
  have hb : c0.beta0 = 4 / 5 := rfl
  have hdom : Dom c0.beta0 (0 : V) := by unfold Dom; simp
  have hform : ∀ u : V, Dom c0.beta0 u → inCanon (multipole mp) c0 u =
      (u.1, u.2.1 + opd c0.beta0 u.2.2.2.2.2, u.2.2.1, u.2.2.2.1,
        u.2.2.2.2.1 - 2 * u.1 * (1 + c0.beta0 ^ 2 * u.2.2.2.2.2) / opd c0.beta0 u.2.2.2.2.2, u.2.2.2.2.2) := by
    intro u hu
    have h1 := hu.opd_pos
    have h2 := hu.2
    have hf : storedField mp u.1 u.2.2.1 = 0 := by
      unfold storedField
      apply Finset.sum_eq_zero
      intro i _
      have : (⟨mp.bal (2 * i), mp.bal (2 * i + 1)⟩ : ℂ) = 0 := rfl
      rw [this, zero_mul]
    unfold inCanon
    rw [C38_kick_curved mp _ (Or.inl (by simp [mp]))]
    unfold toCanon ofCanon
    dsimp only
    rw [hf]
    have hl : ¬ (0 : ℝ) < mp.length := by simp [mp]
    simp only [if_neg hl]
    refine Prod.ext rfl (Prod.ext ?_ (Prod.ext rfl (Prod.ext ?_ (Prod.ext ?_ rfl)))) <;>
      simp only [mp, c0, sample, Complex.zero_re, Complex.zero_im]
    · ring
    · ring
    · have h1' : opd (4 / 5) u.2.2.2.2.2 ≠ 0 := h1.ne'
      have h2' : 1 + (4 / 5 : ℝ) ^ 2 * u.2.2.2.2.2 ≠ 0 := h2.ne'
      generalize 1 + (4 / 5 : ℝ) ^ 2 * u.2.2.2.2.2 = e at *
      field_simp
      ring
  refine ⟨mp, c0, 0, hdom, by rw [hb]; norm_num, by rw [hb]; norm_num, ?_⟩
  intro hs
  let a : V := (1, 0, 0, 0, 0, 0)
  let d : V := (0, 0, 0, 0, 0, 1)
  have ho : opd c0.beta0 0 = 1 := by unfold opd; simp
  have ha : HasDerivAt (fun t : ℝ => inCanon (multipole mp) c0 (0 + t • a)) (1, 0, 0, 0, -2, 0) 0 := by
    refine hasDerivAt_congr_near (f := fun t : ℝ => ((t, 1, 0, 0, -2 * t, 0) : V)) ?_
      ((hdom.line a).mono fun t ht => ?_)
    · refine hasDerivAt_six (hasDerivAt_id 0) (hasDerivAt_const _ _) (hasDerivAt_const _ _)
        (hasDerivAt_const _ _) ?_ (hasDerivAt_const _ _)
      exact ((hasDerivAt_id (0 : ℝ)).const_mul (-2)).congr_deriv (by norm_num)
    · rw [hform _ ht]
      simp [a, ho]
  have hd : HasDerivAt (fun t : ℝ => inCanon (multipole mp) c0 (0 + t • d)) (0, 1, 0, 0, 0, 1) 0 := by
    refine hasDerivAt_congr_near (f := fun t : ℝ => ((0, opd c0.beta0 (0 + t * 1), 0, 0, 0, t) : V)) ?_
      ((hdom.line d).mono fun t ht => ?_)
    · refine hasDerivAt_six (hasDerivAt_const _ _) ?_ (hasDerivAt_const _ _)
        (hasDerivAt_const _ _) (hasDerivAt_const _ _) (hasDerivAt_id 0)
      have := hasDerivAt_opd (b := c0.beta0) (p := 0) (w := 1) (by norm_num)
      refine this.congr_deriv ?_
      rw [ho]; norm_num
    · rw [hform _ ht]
      simp [d]
  have := hs.lines ha hd
  simp [omega, a, d] at this
  norm_num at this

namespace Elem

/-- A linear-affine map with canonical formula, see the uses. -/
theorem inCanon_shift {c0 : Coord ℝ} {v : V} (dx dy : ℝ) (h : Dom c0.beta0 v) :
    inCanon (xyShift dx dy) c0 v = (v.1 - dx, v.2.1, v.2.2.1 - dy, v.2.2.2.1, v.2.2.2.2.1, v.2.2.2.2.2) := by
  have h1 := h.opd_pos
  have h2 := h.2
  unfold inCanon toCanon ofCanon xyShift
  refine Prod.ext ?_ (Prod.ext rfl (Prod.ext ?_ (Prod.ext rfl (Prod.ext ?_ rfl)))) <;> dsimp only
  · ring
  · ring
  · field_simp

theorem inCanon_rotation {c0 : Coord ℝ} {v : V} (co si : ℝ) (h : Dom c0.beta0 v) :
    inCanon (sRotation co si) c0 v =
      (co * v.1 + si * v.2.2.1, co * v.2.1 + si * v.2.2.2.1, -si * v.1 + co * v.2.2.1,
        -si * v.2.1 + co * v.2.2.2.1, v.2.2.2.2.1, v.2.2.2.2.2) := by
  have h1 := h.opd_pos
  have h2 := h.2
  unfold inCanon toCanon ofCanon sRotation
  refine Prod.ext rfl (Prod.ext rfl (Prod.ext rfl (Prod.ext rfl (Prod.ext ?_ rfl))))
  dsimp only
  field_simp

theorem inCanon_dipEdge {c0 : Coord ℝ} {v : V} (r21 r43 : ℝ) (h : Dom c0.beta0 v) :
    inCanon (dipEdge r21 r43) c0 v = (v.1, v.2.1 + r21 * v.1, v.2.2.1, v.2.2.2.1 + r43 * v.2.2.1,
      v.2.2.2.2.1, v.2.2.2.2.2) := by
  have h1 := h.opd_pos
  have h2 := h.2
  unfold inCanon toCanon ofCanon dipEdge
  refine Prod.ext rfl (Prod.ext rfl (Prod.ext rfl (Prod.ext rfl (Prod.ext ?_ rfl))))
  dsimp only
  field_simp

end Elem

/-- Shifts are symplectic. -/
theorem C40_shift (dx dy : ℝ) (c0 : Coord ℝ) (v : V) (h : Dom c0.beta0 v) :
    SymplecticAt (inCanon (xyShift dx dy) c0) v := by
  refine SymplecticAt.congr (G := fun u : V =>
    (u.1 - dx, u.2.1, u.2.2.1 - dy, u.2.2.2.1, u.2.2.2.2.1, u.2.2.2.2.2)) ?_
    (h.eventually.mono fun _ hw => inCanon_shift dx dy hw)
  refine symplecticAt_of_lines (by fun_prop) (fun w => w) ?_ (fun _ _ => rfl)
  intro w
  exact hasDerivAt_six ((hasDerivAt_line v.1 w.1).sub_const dx) (hasDerivAt_line _ _)
    ((hasDerivAt_line v.2.2.1 w.2.2.1).sub_const dy) (hasDerivAt_line _ _) (hasDerivAt_line _ _)
    (hasDerivAt_line _ _)

theorem Elem.sRotation_symplectic (co si : ℝ) (hcs : si ^ 2 + co ^ 2 = 1) (c0 : Coord ℝ) (v : V)
    (h : Dom c0.beta0 v) : SymplecticAt (inCanon (sRotation co si) c0) v := by
  refine SymplecticAt.congr (G := fun v : V =>
      (co * v.1 + si * v.2.2.1, co * v.2.1 + si * v.2.2.2.1, -si * v.1 + co * v.2.2.1,
        -si * v.2.1 + co * v.2.2.2.1, v.2.2.2.2.1, v.2.2.2.2.2)) ?_
    (h.eventually.mono fun _ hw => inCanon_rotation co si hw)
  refine symplecticAt_of_lines (by fun_prop) (fun v => (co * v.1 + si * v.2.2.1,
    co * v.2.1 + si * v.2.2.2.1, -si * v.1 + co * v.2.2.1, -si * v.2.1 + co * v.2.2.2.1, v.2.2.2.2.1,
    v.2.2.2.2.2)) ?_ ?_
  · intro w
    have l1 := hasDerivAt_line v.1 w.1
    have l2 := hasDerivAt_line v.2.1 w.2.1
    have l3 := hasDerivAt_line v.2.2.1 w.2.2.1
    have l4 := hasDerivAt_line v.2.2.2.1 w.2.2.2.1
    exact hasDerivAt_six ((l1.const_mul co).add (l3.const_mul si)) ((l2.const_mul co).add (l4.const_mul si))
      ((l1.const_mul (-si)).add (l3.const_mul co)) ((l2.const_mul (-si)).add (l4.const_mul co))
      (hasDerivAt_line _ _) (hasDerivAt_line _ _)
  · intro a b
    simp only [omega]
    linear_combination (a.1 * b.2.1 - a.2.1 * b.1 + (a.2.2.1 * b.2.2.2.1 - a.2.2.2.1 * b.2.2.1)) * hcs

/-- Rotations are symplectic. -/
theorem C40_rotation (angle : ℝ) (c0 : Coord ℝ) (v : V) (h : Dom c0.beta0 v) :
    SymplecticAt (inCanon (rotate angle) c0) v := by
  have hcs := Real.sin_sq_add_cos_sq angle
  generalize hs : Real.sin angle = si at hcs
  generalize hc : Real.cos angle = co at hcs
  have he : rotate angle = sRotation co si := by
    funext c
    simp [rotate, SRotationObj.setAngle, hs, hc]
  rw [he]
  exact sRotation_symplectic co si hcs c0 v h

/-- Dipole edges are symplectic. -/
theorem C40_dipole_edge (r21 r43 : ℝ) (c0 : Coord ℝ) (v : V) (h : Dom c0.beta0 v) :
    SymplecticAt (inCanon (dipEdge r21 r43) c0) v := by
  refine SymplecticAt.congr (G := fun v : V => (v.1, v.2.1 + r21 * v.1, v.2.2.1,
      v.2.2.2.1 + r43 * v.2.2.1, v.2.2.2.2.1, v.2.2.2.2.2)) ?_
    (h.eventually.mono fun _ hw => inCanon_dipEdge r21 r43 hw)
  refine symplecticAt_of_lines (by fun_prop) (fun v => (v.1, v.2.1 + r21 * v.1, v.2.2.1,
      v.2.2.2.1 + r43 * v.2.2.1, v.2.2.2.2.1, v.2.2.2.2.2)) ?_ ?_
  · intro w
    have l1 := hasDerivAt_line v.1 w.1
    have l2 := hasDerivAt_line v.2.1 w.2.1
    have l3 := hasDerivAt_line v.2.2.1 w.2.2.1
    have l4 := hasDerivAt_line v.2.2.2.1 w.2.2.2.1
    exact hasDerivAt_six l1 (l2.add (l1.const_mul r21)) l3 (l4.add (l3.const_mul r43))
      (hasDerivAt_line _ _) (hasDerivAt_line _ _)
  · intro a b
    simp only [omega]
    ring

namespace Elem

/-- Adding energy in canonical variables: only `psigma` changes. -/
theorem addToEnergy_ofCanon {c0 : Coord ℝ} {v : V} (dE : ℝ) (hb : 0 < c0.beta0) (h : Dom c0.beta0 v)
    (h' : Dom c0.beta0 (v.1, v.2.1, v.2.2.1, v.2.2.2.1, v.2.2.2.2.1,
      v.2.2.2.2.2 + dE / (Real.sqrt (c0.p0c ^ 2 + c0.mass0 ^ 2) * c0.beta0 ^ 2))) :
    addToEnergy (ofCanon c0 v) dE = ofCanon c0 (v.1, v.2.1, v.2.2.1, v.2.2.2.1, v.2.2.2.2.1,
      v.2.2.2.2.2 + dE / (Real.sqrt (c0.p0c ^ 2 + c0.mass0 ^ 2) * c0.beta0 ^ 2)) := by
  have hc := ofCanon_consistent hb h
  have h1 := h.opd_pos
  have h2 := h.2
  have h1' := h'.opd_pos
  have h2' := h'.2
  have hb' : c0.beta0 ≠ 0 := hb.ne'
  dsimp only at h1' h2'
  have hroot : Real.sqrt (c0.beta0 ^ 2 * ((1 + (opd c0.beta0 v.2.2.2.2.2 - 1)) ^ 2 - 1) + 1) =
      1 + c0.beta0 ^ 2 * v.2.2.2.2.2 := by
    rw [add_sub_cancel, opd_sq h, show c0.beta0 ^ 2 * (1 + 2 * v.2.2.2.2.2 + c0.beta0 ^ 2 *
      v.2.2.2.2.2 ^ 2 - 1) + 1 = (1 + c0.beta0 ^ 2 * v.2.2.2.2.2) ^ 2 by ring]
    exact Real.sqrt_sq h2.le
  have hrel : relEnergy (ofCanon c0 v) dE = 1 + c0.beta0 ^ 2 * (v.2.2.2.2.2 +
      dE / (Real.sqrt (c0.p0c ^ 2 + c0.mass0 ^ 2) * c0.beta0 ^ 2)) := by
    unfold relEnergy
    have : Real.sqrt ((ofCanon c0 v).beta0 ^ 2 * ((1 + (ofCanon c0 v).delta) ^ 2 - 1) + 1) =
      1 + c0.beta0 ^ 2 * v.2.2.2.2.2 := hroot
    rw [this]
    show dE / Real.sqrt (c0.p0c ^ 2 + c0.mass0 ^ 2) + _ = _
    rw [mul_add, ← mul_div_assoc, mul_comm (c0.beta0 ^ 2) dE, mul_div_mul_right _ _ (by positivity)]
    ring
  generalize hp : v.2.2.2.2.2 + dE / (Real.sqrt (c0.p0c ^ 2 + c0.mass0 ^ 2) * c0.beta0 ^ 2) = p' at *
  have hopd : Real.sqrt (((1 + c0.beta0 ^ 2 * p') ^ 2 - 1) / c0.beta0 ^ 2 + 1) = opd c0.beta0 p' := by
    unfold opd
    congr 1
    field_simp
    ring
  rw [addToEnergy_eq (ofCanon c0 v) dE hb', hrel]
  have hbb : (ofCanon c0 v).beta0 = c0.beta0 := rfl
  rw [hbb, hopd]
  unfold ofCanon
  ext <;> dsimp only
  · field_simp
  · field_simp; ring

/-- The kick of a cavity on `psigma`. -/
noncomputable def cavKick (cv : Cavity ℝ) (c0 : Coord ℝ) (sigma : ℝ) : ℝ :=
  c0.q0 * c0.chargeRatio * cv.voltage *
    Real.sin (Real.pi / 180 * cv.lag - 2 * Real.pi / 299792458 * cv.frequency * (sigma / c0.beta0)) /
    (Real.sqrt (c0.p0c ^ 2 + c0.mass0 ^ 2) * c0.beta0 ^ 2)

theorem inCanon_cavity {c0 : Coord ℝ} {v : V} (cv : Cavity ℝ) (hb : 0 < c0.beta0) (h : Dom c0.beta0 v)
    (h' : Dom c0.beta0 (v.1, v.2.1, v.2.2.1, v.2.2.2.1, v.2.2.2.2.1,
      v.2.2.2.2.2 + cavKick cv c0 v.2.2.2.2.1)) :
    cavity cv (ofCanon c0 v) = ofCanon c0 (v.1, v.2.1, v.2.2.1, v.2.2.2.1, v.2.2.2.2.1,
      v.2.2.2.2.2 + cavKick cv c0 v.2.2.2.2.1) := by
  have h1 := h.opd_pos
  have h2 := h.2
  have htau : (ofCanon c0 v).zeta / ((ofCanon c0 v).beta0 * (ofCanon c0 v).rvv) = v.2.2.2.2.1 / c0.beta0 := by
    unfold ofCanon
    dsimp only
    field_simp
  have e := addToEnergy_ofCanon (c0 := c0) (v := v) (c0.q0 * c0.chargeRatio * cv.voltage *
    Real.sin (Real.pi / 180 * cv.lag - 2 * Real.pi / 299792458 * cv.frequency * (v.2.2.2.2.1 / c0.beta0)))
    hb h h'
  unfold cavKick
  rw [← e]
  unfold cavity
  dsimp only
  rw [htau]
  simp only [deg2rad, cLight, sin_real, pi_real, Nat.cast_ofNat]
  rfl

theorem cavV_continuousAt (cv : Cavity ℝ) (c0 : Coord ℝ) (v : V) :
    ContinuousAt (fun v : V => ((v.1, v.2.1, v.2.2.1, v.2.2.2.1, v.2.2.2.2.1,
      v.2.2.2.2.2 + cavKick cv c0 v.2.2.2.2.1) : V)) v := by
  unfold cavKick
  fun_prop

end Elem

/-- Cavities are symplectic (as long as the particle keeps moving). -/
theorem C40_cavity (cv : Cavity ℝ) (c0 : Coord ℝ) (v : V) (hb : 0 < c0.beta0) (h : Dom c0.beta0 v)
    (h' : Dom c0.beta0 (v.1, v.2.1, v.2.2.1, v.2.2.2.1, v.2.2.2.2.1,
      v.2.2.2.2.2 + cavKick cv c0 v.2.2.2.2.1)) :
    SymplecticAt (inCanon (cavity cv) c0) v := by
  have hnear : ∀ᶠ w : V in nhds v, Dom c0.beta0 (w.1, w.2.1, w.2.2.1, w.2.2.2.1, w.2.2.2.2.1,
      w.2.2.2.2.2 + cavKick cv c0 w.2.2.2.2.1) :=
    (cavV_continuousAt cv c0 v).eventually h'.eventually
  refine SymplecticAt.congr (G := fun v : V => (v.1, v.2.1 + 0, v.2.2.1, v.2.2.2.1 + 0, v.2.2.2.2.1,
      v.2.2.2.2.2 + cavKick cv c0 v.2.2.2.2.1)) ?_ ?_
  · have hd : DifferentiableAt ℝ (cavKick cv c0) v.2.2.2.2.1 := by
      unfold cavKick; fun_prop
    let P : V →L[ℝ] ℝ := (ContinuousLinearMap.fst ℝ ℝ ℝ).comp ((ContinuousLinearMap.snd ℝ ℝ _).comp
      ((ContinuousLinearMap.snd ℝ ℝ _).comp ((ContinuousLinearMap.snd ℝ ℝ _).comp
        (ContinuousLinearMap.snd ℝ ℝ _))))
    have hP : HasFDerivAt (fun u : V => u.2.2.2.2.1) P v := P.hasFDerivAt
    have he := hd.hasDerivAt.hasFDerivAt.comp v hP
    exact kick_symplectic (a := fun _ => 0) (c := fun _ => 0) (e := fun u => cavKick cv c0 u.2.2.2.2.1)
      (hasFDerivAt_const 0 v) (hasFDerivAt_const 0 v) he 0 0 0 0 0 (deriv (cavKick cv c0) v.2.2.2.2.1)
      (by intro w; simp) (by intro w; simp) (by intro w; simp [P, mul_comm])
  · filter_upwards [h.eventually, hnear] with w hw hw'
    unfold inCanon
    rw [inCanon_cavity cv hb hw hw', toCanon_ofCanon hw']
    simp

/-- A particle at the zero crossing of a cavity of voltage and frequency 1. -/
example : 0 < sample.beta0 ∧ Dom sample.beta0 (1 / 10, 1 / 3, 1 / 5, -1 / 4, 0, 1 / 50) ∧
    Dom sample.beta0 (1 / 10, 1 / 3, 1 / 5, -1 / 4, 0, 1 / 50 + cavKick ⟨1, 1, 0⟩ sample 0) := by
  have hk : cavKick ⟨1, 1, 0⟩ sample 0 = 0 := by simp [cavKick]
  rw [hk]
  unfold Dom
  simp only [sample]
  norm_num

end SixTrack
