import Verif.Canon

/-!
# C40: the thin-lens maps are symplectic
-/

namespace SixTrack
open Elem

namespace Elem

/-- A coordinate along a line. -/
theorem hasDerivAt_line (a w : ℝ) : HasDerivAt (fun t : ℝ => a + t * w) w 0 := by
  have := ((hasDerivAt_id (0 : ℝ)).mul_const w).const_add a
  simpa using this

theorem line_eq (v w : V) (t : ℝ) : v + t • w =
    (v.1 + t * w.1, v.2.1 + t * w.2.1, v.2.2.1 + t * w.2.2.1, v.2.2.2.1 + t * w.2.2.2.1,
      v.2.2.2.2.1 + t * w.2.2.2.2.1, v.2.2.2.2.2 + t * w.2.2.2.2.2) := rfl

theorem hasDerivAt_six {f1 f2 f3 f4 f5 f6 : ℝ → ℝ} {d1 d2 d3 d4 d5 d6 t : ℝ}
    (h1 : HasDerivAt f1 d1 t) (h2 : HasDerivAt f2 d2 t) (h3 : HasDerivAt f3 d3 t)
    (h4 : HasDerivAt f4 d4 t) (h5 : HasDerivAt f5 d5 t) (h6 : HasDerivAt f6 d6 t) :
    HasDerivAt (fun t => ((f1 t, f2 t, f3 t, f4 t, f5 t, f6 t) : V)) (d1, d2, d3, d4, d5, d6) t :=
  h1.prodMk (h2.prodMk (h3.prodMk (h4.prodMk (h5.prodMk h6))))

/-- The drift in canonical variables. -/
noncomputable def driftV (b L : ℝ) (v : V) : V :=
  (v.1 + L * (v.2.1 / opd b v.2.2.2.2.2), v.2.1, v.2.2.1 + L * (v.2.2.2.1 / opd b v.2.2.2.2.2), v.2.2.2.1,
    v.2.2.2.2.1 + L * (1 - (1 + b ^ 2 * v.2.2.2.2.2) / opd b v.2.2.2.2.2 -
      (v.2.1 ^ 2 + v.2.2.2.1 ^ 2) * (1 + b ^ 2 * v.2.2.2.2.2) / 2 / opd b v.2.2.2.2.2 ^ 3), v.2.2.2.2.2)

theorem inCanon_drift {c0 : Coord ℝ} {v : V} (L : ℝ) (h : Dom c0.beta0 v) :
    inCanon (drift L) c0 v = driftV c0.beta0 L v := by
  have h1 := h.opd_pos
  have h2 := h.2
  unfold inCanon toCanon ofCanon driftV drift
  simp only [Nat.cast_ofNat]
  refine Prod.ext ?_ (Prod.ext rfl (Prod.ext ?_ (Prod.ext rfl (Prod.ext ?_ rfl)))) <;> dsimp only
  · field_simp
  · field_simp
  · field_simp
    ring

theorem driftV_symplectic {b : ℝ} {v : V} (L : ℝ) (h : Dom b v) : SymplecticAt (driftV b L) v := by
  have h1 := h.opd_pos
  have hne := h1.ne'
  have hdo : DifferentiableAt ℝ (fun u : V => opd b u.2.2.2.2.2) v := by
    have := (differentiableAt_opd h.1).comp v (f := fun u : V => u.2.2.2.2.2) (by fun_prop)
    exact this
  refine symplecticAt_of_lines ?_ (D := fun w =>
    (w.1 + L * (w.2.1 / opd b v.2.2.2.2.2 - v.2.1 * ((1 + b ^ 2 * v.2.2.2.2.2) * w.2.2.2.2.2)
        / opd b v.2.2.2.2.2 ^ 3),
     w.2.1,
     w.2.2.1 + L * (w.2.2.2.1 / opd b v.2.2.2.2.2 - v.2.2.2.1 * ((1 + b ^ 2 * v.2.2.2.2.2) * w.2.2.2.2.2)
        / opd b v.2.2.2.2.2 ^ 3),
     w.2.2.2.1,
     w.2.2.2.2.1 + L * (
        (- b ^ 2 / opd b v.2.2.2.2.2 + (1 + b ^ 2 * v.2.2.2.2.2) ^ 2 / opd b v.2.2.2.2.2 ^ 3
          - (v.2.1 ^ 2 + v.2.2.2.1 ^ 2) / 2 * (b ^ 2 / opd b v.2.2.2.2.2 ^ 3
            - 3 * (1 + b ^ 2 * v.2.2.2.2.2) ^ 2 / opd b v.2.2.2.2.2 ^ 5)) * w.2.2.2.2.2
        - (v.2.1 * w.2.1 + v.2.2.2.1 * w.2.2.2.1) * (1 + b ^ 2 * v.2.2.2.2.2) / opd b v.2.2.2.2.2 ^ 3),
     w.2.2.2.2.2)) ?_ ?_
  · unfold driftV
    have hp3 : opd b v.2.2.2.2.2 ^ 3 ≠ 0 := pow_ne_zero _ hne
    fun_prop (disch := assumption)
  · intro w
    simp only [line_eq, driftV]
    have hR := hasDerivAt_opd (w := w.2.2.2.2.2) h.1
    have hne0 : opd b (v.2.2.2.2.2 + 0 * w.2.2.2.2.2) ≠ 0 := by simpa using hne
    have l2 := hasDerivAt_line v.2.1 w.2.1
    have l4 := hasDerivAt_line v.2.2.2.1 w.2.2.2.1
    have l6 := hasDerivAt_line v.2.2.2.2.2 w.2.2.2.2.2
    have lb := ((l6.const_mul (b ^ 2)).const_add 1)
    apply hasDerivAt_six
    · refine ((hasDerivAt_line v.1 w.1).add ((l2.div hR hne0).const_mul L)).congr_deriv ?_
      simp only [zero_mul, add_zero]
      field_simp
    · exact l2
    · refine ((hasDerivAt_line v.2.2.1 w.2.2.1).add ((l4.div hR hne0).const_mul L)).congr_deriv ?_
      simp only [zero_mul, add_zero]
      field_simp
    · exact l4
    · refine ((hasDerivAt_line v.2.2.2.2.1 w.2.2.2.2.1).add
        ((((hasDerivAt_const (0 : ℝ) (1 : ℝ)).sub (lb.div hR hne0)).sub
          (((((l2.pow 2).add (l4.pow 2)).mul lb).div_const 2).div (hR.pow 3)
            (by simpa using pow_ne_zero 3 hne0))).const_mul L)).congr_deriv ?_
      simp only [zero_mul, add_zero, Pi.pow_apply, Pi.add_apply, Pi.mul_apply]
      push_cast
      field_simp
      ring
    · exact l6
  · intro a d
    simp only [omega]
    field_simp
    ring

/-- The exact drift in canonical variables. -/
noncomputable def driftExactV (b L : ℝ) (v : V) : V :=
  let S := Real.sqrt (1 + 2 * v.2.2.2.2.2 + b ^ 2 * v.2.2.2.2.2 ^ 2 - v.2.1 ^ 2 - v.2.2.2.1 ^ 2)
  (v.1 + L * (v.2.1 / S), v.2.1, v.2.2.1 + L * (v.2.2.2.1 / S), v.2.2.2.1,
    v.2.2.2.2.1 + L * (1 - (1 + b ^ 2 * v.2.2.2.2.2) / S), v.2.2.2.2.2)

theorem inCanon_driftExact {c0 : Coord ℝ} {v : V} (L : ℝ) (h : Dom c0.beta0 v) :
    inCanon (driftExact L) c0 v = driftExactV c0.beta0 L v := by
  have h1 := h.opd_pos
  have h2 := h.2
  have hs := opd_sq h
  have e : (opd c0.beta0 v.2.2.2.2.2 - 1 + 1) * (opd c0.beta0 v.2.2.2.2.2 - 1 + 1) -
      (v.2.1 * v.2.1 + v.2.2.2.1 * v.2.2.2.1) =
      1 + 2 * v.2.2.2.2.2 + c0.beta0 ^ 2 * v.2.2.2.2.2 ^ 2 - v.2.1 ^ 2 - v.2.2.2.1 ^ 2 := by
    linear_combination hs
  unfold inCanon toCanon ofCanon driftExactV driftExact
  simp only [sqrt_real, e]
  refine Prod.ext ?_ (Prod.ext rfl (Prod.ext ?_ (Prod.ext rfl (Prod.ext ?_ rfl)))) <;> dsimp only
  · ring
  · ring
  · generalize Real.sqrt _ = S
    rw [sub_add_cancel]
    field_simp

theorem driftExactV_symplectic {b : ℝ} {v : V} (L : ℝ)
    (h : v.2.1 ^ 2 + v.2.2.2.1 ^ 2 < 1 + 2 * v.2.2.2.2.2 + b ^ 2 * v.2.2.2.2.2 ^ 2) :
    SymplecticAt (driftExactV b L) v := by
  have hq : 0 < 1 + 2 * v.2.2.2.2.2 + b ^ 2 * v.2.2.2.2.2 ^ 2 - v.2.1 ^ 2 - v.2.2.2.1 ^ 2 := by linarith
  have hS := Real.sqrt_pos.mpr hq
  have hq' := hq.ne'
  have hS' := hS.ne'
  refine symplecticAt_of_lines ?_ (D := fun w =>
    let S := Real.sqrt (1 + 2 * v.2.2.2.2.2 + b ^ 2 * v.2.2.2.2.2 ^ 2 - v.2.1 ^ 2 - v.2.2.2.1 ^ 2)
    let dS := ((1 + b ^ 2 * v.2.2.2.2.2) * w.2.2.2.2.2 - v.2.1 * w.2.1 - v.2.2.2.1 * w.2.2.2.1) / S
    (w.1 + L * (w.2.1 / S - v.2.1 * dS / S ^ 2), w.2.1,
     w.2.2.1 + L * (w.2.2.2.1 / S - v.2.2.2.1 * dS / S ^ 2), w.2.2.2.1,
     w.2.2.2.2.1 + L * (- b ^ 2 * w.2.2.2.2.2 / S + (1 + b ^ 2 * v.2.2.2.2.2) * dS / S ^ 2),
     w.2.2.2.2.2)) ?_ ?_
  · unfold driftExactV
    fun_prop (disch := assumption)
  · intro w
    simp only [line_eq, driftExactV]
    have l2 := hasDerivAt_line v.2.1 w.2.1
    have l4 := hasDerivAt_line v.2.2.2.1 w.2.2.2.1
    have l6 := hasDerivAt_line v.2.2.2.2.2 w.2.2.2.2.2
    have lb := ((l6.const_mul (b ^ 2)).const_add 1)
    have lq := (((((l6.const_mul 2).const_add 1).add ((l6.pow 2).const_mul (b ^ 2))).sub (l2.pow 2)).sub
      (l4.pow 2))
    have hR := lq.sqrt (by simpa using hq')
    have hR' : HasDerivAt (fun t : ℝ => Real.sqrt (1 + 2 * (v.2.2.2.2.2 + t * w.2.2.2.2.2) +
        b ^ 2 * (v.2.2.2.2.2 + t * w.2.2.2.2.2) ^ 2 - (v.2.1 + t * w.2.1) ^ 2 -
        (v.2.2.2.1 + t * w.2.2.2.1) ^ 2))
        (((1 + b ^ 2 * v.2.2.2.2.2) * w.2.2.2.2.2 - v.2.1 * w.2.1 - v.2.2.2.1 * w.2.2.2.1) /
          Real.sqrt (1 + 2 * v.2.2.2.2.2 + b ^ 2 * v.2.2.2.2.2 ^ 2 - v.2.1 ^ 2 - v.2.2.2.1 ^ 2)) 0 := by
      refine hR.congr_deriv ?_
      simp only [zero_mul, add_zero, Pi.pow_apply, Pi.add_apply, Pi.sub_apply]
      push_cast
      generalize Real.sqrt _ = S at *
      field_simp
    have hne0 : Real.sqrt (1 + 2 * (v.2.2.2.2.2 + 0 * w.2.2.2.2.2) +
        b ^ 2 * (v.2.2.2.2.2 + 0 * w.2.2.2.2.2) ^ 2 - (v.2.1 + 0 * w.2.1) ^ 2 -
        (v.2.2.2.1 + 0 * w.2.2.2.1) ^ 2) ≠ 0 := by simpa using hS'
    apply hasDerivAt_six
    · refine ((hasDerivAt_line v.1 w.1).add ((l2.div hR' hne0).const_mul L)).congr_deriv ?_
      simp only [zero_mul, add_zero]
      generalize Real.sqrt _ = S at *
      field_simp
    · exact l2
    · refine ((hasDerivAt_line v.2.2.1 w.2.2.1).add ((l4.div hR' hne0).const_mul L)).congr_deriv ?_
      simp only [zero_mul, add_zero]
      generalize Real.sqrt _ = S at *
      field_simp
    · exact l4
    · refine ((hasDerivAt_line v.2.2.2.2.1 w.2.2.2.2.1).add
        (((hasDerivAt_const (0 : ℝ) (1 : ℝ)).sub (lb.div hR' hne0)).const_mul L)).congr_deriv ?_
      simp only [zero_mul, add_zero]
      generalize Real.sqrt _ = S at *
      field_simp
      ring
    · exact l6
  · intro a d
    simp only [omega]
    generalize Real.sqrt _ = S at *
    field_simp
    ring

/-- A kick: momenta change by functions of the positions whose matrix of derivatives is symmetric. -/
theorem kick_symplectic {v : V} {a c e : V → ℝ} {A C E : V →L[ℝ] ℝ} (ha : HasFDerivAt a A v)
    (hc : HasFDerivAt c C v) (he : HasFDerivAt e E v) (axx axy axs ayy ays ass : ℝ)
    (hA : ∀ w, A w = axx * w.1 + axy * w.2.2.1 + axs * w.2.2.2.2.1)
    (hC : ∀ w, C w = axy * w.1 + ayy * w.2.2.1 + ays * w.2.2.2.2.1)
    (hE : ∀ w, E w = axs * w.1 + ays * w.2.2.1 + ass * w.2.2.2.2.1) :
    SymplecticAt (fun u => ((u.1, u.2.1 + a u, u.2.2.1, u.2.2.2.1 + c u, u.2.2.2.2.1, u.2.2.2.2.2 + e u) : V))
      v := by
  refine symplecticAt_of_lines ?_ (D := fun w =>
    (w.1, w.2.1 + A w, w.2.2.1, w.2.2.2.1 + C w, w.2.2.2.2.1, w.2.2.2.2.2 + E w)) ?_ ?_
  · have ha' := ha.differentiableAt
    have hc' := hc.differentiableAt
    have he' := he.differentiableAt
    fun_prop
  · intro w
    have h1 : HasDerivAt (fun t : ℝ => v + t • w) w 0 := by
      have := ((hasDerivAt_id (0 : ℝ)).smul_const w).const_add v
      simpa using this
    have la : HasDerivAt (fun t : ℝ => a (v + t • w)) (A w) 0 :=
      (by simpa using ha : HasFDerivAt a A (v + (0 : ℝ) • w)).comp_hasDerivAt 0 h1
    have lc : HasDerivAt (fun t : ℝ => c (v + t • w)) (C w) 0 :=
      (by simpa using hc : HasFDerivAt c C (v + (0 : ℝ) • w)).comp_hasDerivAt 0 h1
    have le : HasDerivAt (fun t : ℝ => e (v + t • w)) (E w) 0 :=
      (by simpa using he : HasFDerivAt e E (v + (0 : ℝ) • w)).comp_hasDerivAt 0 h1
    exact hasDerivAt_six (hasDerivAt_line _ _) ((hasDerivAt_line v.2.1 w.2.1).add la) (hasDerivAt_line _ _)
      ((hasDerivAt_line v.2.2.2.1 w.2.2.2.1).add lc) (hasDerivAt_line _ _)
      ((hasDerivAt_line v.2.2.2.2.2 w.2.2.2.2.2).add le)
  · intro x y
    simp only [omega, hA, hC, hE]
    ring

/-- The transverse position as a complex number. -/
noncomputable def posCLM : V →L[ℝ] ℂ :=
  (Complex.equivRealProdCLM.symm : ℝ × ℝ →L[ℝ] ℂ).comp
    ((ContinuousLinearMap.fst ℝ ℝ _).prod
      ((ContinuousLinearMap.fst ℝ ℝ _).comp ((ContinuousLinearMap.snd ℝ ℝ _).comp
        (ContinuousLinearMap.snd ℝ ℝ _))))

theorem posCLM_apply (v : V) : posCLM v = ⟨v.1, v.2.2.1⟩ := by
  apply Complex.ext <;> simp [posCLM]

/-- The field of a multipole is a complex polynomial, hence differentiable. -/
theorem storedField_hasFDerivAt (mp : Multipole ℝ) (v : V) :
    ∃ (f' : ℂ) (L : V →L[ℝ] ℂ), HasFDerivAt (fun u : V => storedField mp u.1 u.2.2.1) L v ∧
      ∀ w, L w = f' * ⟨w.1, w.2.2.1⟩ := by
  let F : ℂ → ℂ := fun z =>
    ∑ n ∈ Finset.range (mp.order + 1), (⟨mp.bal (2 * n), mp.bal (2 * n + 1)⟩ : ℂ) * z ^ n
  have hF : DifferentiableAt ℂ F (posCLM v) := by
    unfold F; fun_prop
  have h1 := (hF.hasDerivAt.hasFDerivAt.restrictScalars ℝ).comp v posCLM.hasFDerivAt
  have e : (fun u : V => storedField mp u.1 u.2.2.1) = F ∘ posCLM := by
    funext u
    simp only [Function.comp, posCLM_apply]
    rfl
  rw [← e] at h1
  refine ⟨deriv F (posCLM v), _, h1, ?_⟩
  · intro w
    simp only [posCLM_apply, ContinuousLinearMap.comp_apply, ContinuousLinearMap.coe_restrictScalars',
      ContinuousLinearMap.toSpanSingleton_apply, smul_eq_mul]
    ring

/-- The kick of a multipole with additional focusing. -/
noncomputable def multV (mp : Multipole ℝ) (chi k1 k2 : ℝ) (v : V) : V :=
  (v.1, v.2.1 + (-(chi * (storedField mp v.1 v.2.2.1).re) - k1 * v.1), v.2.2.1,
    v.2.2.2.1 + (chi * (storedField mp v.1 v.2.2.1).im + k2 * v.2.2.1), v.2.2.2.2.1, v.2.2.2.2.2 + 0)

theorem multV_symplectic (mp : Multipole ℝ) (chi k1 k2 : ℝ) (v : V) :
    SymplecticAt (multV mp chi k1 k2) v := by
  obtain ⟨f', L, hL, hw⟩ := storedField_hasFDerivAt mp v
  have hre := Complex.reCLM.hasFDerivAt.comp v hL
  have him := Complex.imCLM.hasFDerivAt.comp v hL
  have h1 : HasFDerivAt (fun u : V => k1 * u.1) (k1 • ContinuousLinearMap.fst ℝ ℝ _) v :=
    (ContinuousLinearMap.fst ℝ ℝ (ℝ × ℝ × ℝ × ℝ × ℝ)).hasFDerivAt.const_mul k1
  have h2 : HasFDerivAt (fun u : V => k2 * u.2.2.1)
      (k2 • ((ContinuousLinearMap.fst ℝ ℝ _).comp ((ContinuousLinearMap.snd ℝ ℝ _).comp
        (ContinuousLinearMap.snd ℝ ℝ _)))) v :=
    ((ContinuousLinearMap.fst ℝ ℝ (ℝ × ℝ × ℝ)).comp ((ContinuousLinearMap.snd ℝ ℝ _).comp
        (ContinuousLinearMap.snd ℝ ℝ (ℝ × ℝ × ℝ × ℝ × ℝ)))).hasFDerivAt.const_mul k2
  exact kick_symplectic (a := fun u => -(chi * (storedField mp u.1 u.2.2.1).re) - k1 * u.1)
    (c := fun u => chi * (storedField mp u.1 u.2.2.1).im + k2 * u.2.2.1) (e := fun _ => 0)
    ((hre.const_mul chi).neg.sub h1) ((him.const_mul chi).add h2) (hasFDerivAt_const 0 v)
    (-(chi * f'.re) - k1) (chi * f'.im) 0 (chi * f'.re + k2) 0 0
    (by intro w; simp [hw]; ring) (by intro w; simp [hw]; ring) (by intro w; simp)

/-- The part of a bending magnet's map that comes from its curvature. -/
noncomputable def curveV (b hx hy : ℝ) (v : V) : V :=
  (v.1, v.2.1 + hx * opd b v.2.2.2.2.2, v.2.2.1, v.2.2.2.1 - hy * opd b v.2.2.2.2.2,
    v.2.2.2.2.1 + (hy * v.2.2.1 - hx * v.1) * (1 + b ^ 2 * v.2.2.2.2.2) / opd b v.2.2.2.2.2, v.2.2.2.2.2)

theorem curveV_symplectic {b : ℝ} {v : V} (hx hy : ℝ) (h : Dom b v) : SymplecticAt (curveV b hx hy) v := by
  have h1 := h.opd_pos
  have hne := h1.ne'
  have hdo : DifferentiableAt ℝ (fun u : V => opd b u.2.2.2.2.2) v := by
    have := (differentiableAt_opd h.1).comp v (f := fun u : V => u.2.2.2.2.2) (by fun_prop)
    exact this
  refine symplecticAt_of_lines ?_ (D := fun w =>
    (w.1, w.2.1 + hx * ((1 + b ^ 2 * v.2.2.2.2.2) * w.2.2.2.2.2 / opd b v.2.2.2.2.2), w.2.2.1,
     w.2.2.2.1 - hy * ((1 + b ^ 2 * v.2.2.2.2.2) * w.2.2.2.2.2 / opd b v.2.2.2.2.2),
     w.2.2.2.2.1 + ((hy * w.2.2.1 - hx * w.1) * (1 + b ^ 2 * v.2.2.2.2.2) / opd b v.2.2.2.2.2
       + (hy * v.2.2.1 - hx * v.1) * (b ^ 2 / opd b v.2.2.2.2.2
         - (1 + b ^ 2 * v.2.2.2.2.2) ^ 2 / opd b v.2.2.2.2.2 ^ 3) * w.2.2.2.2.2),
     w.2.2.2.2.2)) ?_ ?_
  · unfold curveV
    fun_prop (disch := assumption)
  · intro w
    simp only [line_eq, curveV]
    have hR := hasDerivAt_opd (w := w.2.2.2.2.2) h.1
    have hne0 : opd b (v.2.2.2.2.2 + 0 * w.2.2.2.2.2) ≠ 0 := by simpa using hne
    have l1 := hasDerivAt_line v.1 w.1
    have l3 := hasDerivAt_line v.2.2.1 w.2.2.1
    have l6 := hasDerivAt_line v.2.2.2.2.2 w.2.2.2.2.2
    have lb := ((l6.const_mul (b ^ 2)).const_add 1)
    apply hasDerivAt_six
    · exact l1
    · exact (hasDerivAt_line v.2.1 w.2.1).add (hR.const_mul hx)
    · exact l3
    · exact (hasDerivAt_line v.2.2.2.1 w.2.2.2.1).sub (hR.const_mul hy)
    · refine ((hasDerivAt_line v.2.2.2.2.1 w.2.2.2.2.1).add
        ((((l3.const_mul hy).sub (l1.const_mul hx)).mul lb).div hR hne0)).congr_deriv ?_
      simp only [zero_mul, add_zero, Pi.mul_apply, Pi.sub_apply]
      field_simp
      ring
    · exact l6
  · intro a d
    simp only [omega]
    field_simp
    ring

theorem inCanon_multipole_straight {c0 : Coord ℝ} {v : V} (mp : Multipole ℝ) (hx : mp.hxl = 0)
    (hy : mp.hyl = 0) (h : Dom c0.beta0 v) : inCanon (multipole mp) c0 v = multV mp c0.chi 0 0 v := by
  have h1 := h.opd_pos
  have h2 := h.2
  unfold inCanon multV
  rw [C38_kick mp _ hx hy]
  unfold toCanon ofCanon
  refine Prod.ext rfl (Prod.ext ?_ (Prod.ext rfl (Prod.ext ?_ (Prod.ext ?_ ?_)))) <;> dsimp only
  · ring
  · ring
  · field_simp
  · ring

theorem inCanon_multipole_curved {c0 : Coord ℝ} {v : V} (mp : Multipole ℝ)
    (hc : mp.hxl ≠ 0 ∨ mp.hyl ≠ 0) (hchi : c0.chi = 1) (h : Dom c0.beta0 v) :
    inCanon (multipole mp) c0 v = curveV c0.beta0 mp.hxl mp.hyl
      (multV mp 1 (if 0 < mp.length then mp.bal 0 * mp.hxl / mp.length else 0)
        (if 0 < mp.length then mp.bal 1 * mp.hyl / mp.length else 0) v) := by
  have h1 := h.opd_pos
  have h2 := h.2
  unfold inCanon multV curveV
  rw [C38_kick_curved mp _ hc]
  unfold toCanon ofCanon
  dsimp only
  rw [hchi]
  by_cases hl : 0 < mp.length
  · simp only [if_pos hl, add_zero]
    refine Prod.ext rfl (Prod.ext ?_ (Prod.ext rfl (Prod.ext ?_ (Prod.ext ?_ rfl)))) <;> dsimp only
    · ring
    · ring
    · field_simp
  · simp only [if_neg hl, add_zero]
    refine Prod.ext rfl (Prod.ext ?_ (Prod.ext rfl (Prod.ext ?_ (Prod.ext ?_ rfl)))) <;> dsimp only
    · ring
    · ring
    · field_simp

end Elem

/-- The drift is symplectic. -/
theorem C40_drift (L : ℝ) (c0 : Coord ℝ) (v : V) (h : Dom c0.beta0 v) :
    SymplecticAt (inCanon (drift L) c0) v :=
  (driftV_symplectic L h).congr (h.eventually.mono fun _ hw => inCanon_drift L hw)

/-- The exact drift is symplectic. -/
theorem C40_exact_drift (L : ℝ) (c0 : Coord ℝ) (v : V) (h : Dom c0.beta0 v)
    (hf : v.2.1 ^ 2 + v.2.2.2.1 ^ 2 < 1 + 2 * v.2.2.2.2.2 + c0.beta0 ^ 2 * v.2.2.2.2.2 ^ 2) :
    SymplecticAt (inCanon (driftExact L) c0) v :=
  (driftExactV_symplectic L hf).congr (h.eventually.mono fun _ hw => inCanon_driftExact L hw)

/-- The multipole is symplectic for every order and strength, if it has no curvature or the particle is
of the reference species (`chi = 1`). -/
theorem C40_multipole_partial (mp : Multipole ℝ) (c0 : Coord ℝ) (v : V) (h : Dom c0.beta0 v)
    (hm : (mp.hxl = 0 ∧ mp.hyl = 0) ∨ c0.chi = 1) : SymplecticAt (inCanon (multipole mp) c0) v := by
  by_cases hs : mp.hxl = 0 ∧ mp.hyl = 0
  · exact (multV_symplectic mp c0.chi 0 0 v).congr
      (h.eventually.mono fun _ hw => inCanon_multipole_straight mp hs.1 hs.2 hw)
  · have hchi : c0.chi = 1 := by
      rcases hm with h | h
      · exact absurd h hs
      · exact h
    have hc : mp.hxl ≠ 0 ∨ mp.hyl ≠ 0 := by
      by_cases h0 : mp.hxl = 0
      · right; intro h1; exact hs ⟨h0, h1⟩
      · left; exact h0
    refine ((multV_symplectic mp 1 _ _ v).comp (curveV_symplectic mp.hxl mp.hyl ?_)).congr
      (h.eventually.mono fun _ hw => inCanon_multipole_curved mp hc hchi hw)
    unfold Dom at h ⊢
    simpa [multV] using h

/-- The sample particle moves forward, and passes a quadrupole (straight) with `chi = 1`. -/
example : Dom sample.beta0 (1 / 10, 1 / 3, 1 / 5, -1 / 4, 1 / 7, 1 / 50) ∧ sample.chi = 1 ∧
    (1 / 3 : ℝ) ^ 2 + (-1 / 4) ^ 2 < 1 + 2 * (1 / 50) + sample.beta0 ^ 2 * (1 / 50) ^ 2 := by
  unfold Dom
  simp only [sample]
  norm_num

end SixTrack
