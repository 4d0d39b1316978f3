import Verif.FieldKick
import Verif.Props.GaussField
import Verif.FaddeevaInt

/-!
# Property C64: the kicks of the transverse field elements

The four-dimensional beam-beam interaction and the three kinds of space charge.  Numbers are exact real numbers;
`wRes w` hands the exact complex error function to the maps in place of `cerrf`.
-/

namespace SixTrack
open Beam Elem Filter Topology

/-- The sizes of the beam are treated as different. -/
structure Elliptic (minDiff sx sy : ℝ) : Prop where
  hx : 0 < sx
  hy : 0 < sy
  ne : sx ≠ sy
  diff : minDiff ≤ |sx - sy|

/-- The reference and the velocity of the particle make sense. -/
structure Moving (c : Coord ℝ) : Prop where
  beta0 : 0 < c.beta0
  rvv : 0 < c.rvv
  p0c : 0 < c.p0c

/-- The momentum kick per unit of field of a beam of `n` particles of charge `q` which moves with velocity `betaS`
against a particle of velocity `beta`. -/
noncomputable def beamBeamFactor (n q betaS : ℝ) (c : Coord ℝ) (beta : ℝ) : ℝ :=
  c.chi * n * q * c.q0 * (1 + beta * betaS) / (c.p0c * (beta + betaS))

/-- The momentum kick per unit of field over the length `len` of a beam of line density `lambda` in particles, which
moves with the reference velocity along with a particle of velocity `beta`. -/
noncomputable def spaceChargeFactor (len lambda : ℝ) (c : Coord ℝ) (beta : ℝ) : ℝ :=
  c.chi * c.chargeRatio * len * lambda * 1.602176634e-19 * c.q0 ^ 2 * (1 - c.beta0 * beta) / (c.p0c * beta)

/-- The result of `M` for the particle `c` is the particle with its transverse momenta changed by `kx` and `ky`. -/
def KickedBy (M : Coord ℝ → Res (Coord ℝ)) (c : Coord ℝ) (kx ky : ℝ) : Prop :=
  M c = .ok { c with px := c.px + kx, py := c.py + ky }

/-- `E` is the field of the normalised Gaussian beam of these sizes. -/
def GaussianField (sx sy : ℝ) (E : ℝ → ℝ → ℝ × ℝ) : Prop := ∀ x y, MaxwellAt (gaussDensity sx sy) E x y

theorem charge0_eq : (charge0 : ℝ) = 1.602176634e-19 := by norm_num [charge0, dec]

theorem Beam.kSC_eq (n len : ℝ) (c : Coord ℝ) (beta d : ℝ) :
    kSC n len c beta (1 - c.beta0 * beta) d = spaceChargeFactor len (n * d) c beta := by
  unfold kSC spaceChargeFactor
  rw [charge0_eq]; ring

/-- Beam-beam: the kick is along the field of the other beam, by the factor for the velocity `beta0 / rvv`, less the
kick to be subtracted. -/
theorem C64_beam_beam_partial {w : ℂ → ℂ} (hw : IsFaddeeva w) (bb : BB4D ℝ)
    (hs : Elliptic bb.minSigmaDiff bb.sigmaX bb.sigmaY) (he : 0 < bb.enabled) :
    ∃ E, GaussianField bb.sigmaX bb.sigmaY E ∧ ∀ c, Moving c → 0 ≤ bb.betaS →
      let k := beamBeamFactor bb.nPart bb.qPart bb.betaS c (c.beta0 / c.rvv)
      let e := E (c.x - bb.deltaX) (c.y - bb.deltaY)
      KickedBy (beamBeam4D (wRes w) bb) c (k * e.1 - bb.dpxSub) (k * e.2 - bb.dpySub) := by
  obtain ⟨E, hE, hM⟩ := C58_elliptic hw hs.hx hs.hy hs.ne hs.diff
  refine ⟨E, hM, fun c hc hb => ?_⟩
  have h := div_pos hc.beta0 hc.rvv
  exact beamBeam4D_eq he hc.rvv.ne' hc.p0c.ne' (by linarith) (hE _ _)

/-- The velocity of a particle is `beta0 * rvv`, not `beta0 / rvv`: for a particle with the same velocity as the
reference the factor is right, for any other it is wrong (unless the other beam moves with the speed of light). -/
theorem C64_beam_beam_velocity_violated (n q betaS : ℝ) (c : Coord ℝ) (hc : Moving c) (hb : 0 ≤ betaS) (hb1 : betaS ≠ 1)
    (hs : c.chi * n * q * c.q0 ≠ 0) :
    beamBeamFactor n q betaS c (c.beta0 / c.rvv) = beamBeamFactor n q betaS c (c.beta0 * c.rvv) ↔ c.rvv = 1 := by
  have h1 := div_pos hc.beta0 hc.rvv
  have h2 := mul_pos hc.beta0 hc.rvv
  have hp := hc.p0c
  constructor
  · intro h
    unfold beamBeamFactor at h
    rw [div_eq_div_iff (mul_ne_zero hp.ne' (by linarith)) (mul_ne_zero hp.ne' (by linarith))] at h
    have h3 : (c.chi * n * q * c.q0 * c.p0c) * ((1 - betaS ^ 2) * (c.beta0 * c.rvv - c.beta0 / c.rvv)) = 0 := by
      linear_combination h
    rcases mul_eq_zero.mp h3 with h3 | h3
    · exact absurd h3 (mul_ne_zero hs hp.ne')
    · rcases mul_eq_zero.mp h3 with h3 | h3
      · exfalso
        have : (1 - betaS) * (1 + betaS) = 0 := by linear_combination h3
        rcases mul_eq_zero.mp this with h | h
        · exact hb1 (by linarith)
        · linarith
      · have h4 : c.beta0 * (c.rvv ^ 2 - 1) = 0 := by
          have hr := hc.rvv.ne'
          field_simp at h3
          linear_combination h3
        rcases mul_eq_zero.mp h4 with h | h
        · exact absurd h hc.beta0.ne'
        · have : (c.rvv - 1) * (c.rvv + 1) = 0 := by linear_combination h
          rcases mul_eq_zero.mp this with h | h
          · linarith
          · linarith [hc.rvv]
  · intro h
    rw [h]; simp

/-- A disabled beam-beam element does nothing. -/
theorem C64_beam_beam_disabled (w : ℝ → ℝ → Res (ℝ × ℝ)) (bb : BB4D ℝ) (h : bb.enabled ≤ 0) (c : Coord ℝ) :
    beamBeam4D w bb c = .ok c := if_neg (not_lt.mpr h)

/-- Space charge with a q-Gaussian profile: the line density is the number of particles times the density at
`zeta / rvv`. -/
theorem C64_qgaussian {w : ℂ → ℂ} (hw : IsFaddeeva w) (sc : SCQGauss ℝ) {sb : ℝ}
    (hs : Elliptic sc.minSigmaDiff sc.sigmaX sc.sigmaY) (hq : sc.qParam < 3) (hc : cqOf sc.qParam = .ok sc.cq)
    (hr : 0 < sc.bunchlengthRms) (hb : sqrtBetaOf sc.bunchlengthRms = .ok sb) :
    ∃ E, GaussianField sc.sigmaX sc.sigmaY E ∧ ∃ ρ : ℝ → ℝ, (∀ x, qGauss x sc.qParam sb sc.cq = .ok (ρ x)) ∧
      ∫ x, ρ x = 1 ∧ ∀ c, Moving c →
        let k := spaceChargeFactor sc.length (sc.nPart * ρ (c.zeta / c.rvv)) c (c.beta0 * c.rvv)
        let e := E (c.x - sc.xCo) (c.y - sc.yCo)
        KickedBy (scQGauss (wRes w) sc) c (k * e.1) (k * e.2) := by
  obtain ⟨E, hE, hM⟩ := C58_elliptic hw hs.hx hs.hy hs.ne hs.diff
  obtain ⟨h0, hi, hsh⟩ := QG.shape_integral hq hc
  have h2 : (0 : ℝ) < Real.sqrt 2 := by positivity
  have hb' := hb
  unfold sqrtBetaOf at hb
  simp only [Nat.cast_ofNat, sqrt_real] at hb
  rw [cdiv_ok (by positivity)] at hb
  have hb := Res.ok.inj hb
  have hb0 : 0 < sb := by rw [← hb]; positivity
  have hρ : ∀ x, qGauss x sc.qParam sb sc.cq = .ok (sb / sc.cq * QG.shape sc.qParam (sb * x)) := by
    intro x
    unfold qGauss
    rw [cdiv_ok h0.ne', Res.ok_bind, QG.expQ_ok, Res.ok_bind]; rfl
  refine ⟨E, hM, _, hρ, ?_, fun c hc => ?_⟩
  · rw [MeasureTheory.integral_const_mul, QG.scaled_integral _ hb0, hsh]
    field_simp
  · have := scQGauss_eq (w := wRes w) (sc := sc) hc.rvv.ne' hc.p0c.ne' hc.beta0.ne' hb' (hρ (c.zeta / c.rvv))
      (hE (c.x - sc.xCo) (c.y - sc.yCo))
    simp only [kSC_eq] at this
    exact this

/-- Space charge with an interpolated profile: the line density is taken at `zeta`. -/
theorem C64_interpolated_partial {w : ℂ → ℂ} (hw : IsFaddeeva w) (sc : SCInterpolated ℝ)
    (hs : Elliptic sc.minSigmaDiff sc.sigmaX sc.sigmaY) :
    ∃ E, GaussianField sc.sigmaX sc.sigmaY E ∧ ∀ c d, Moving c →
      (∀ f, sc.density = some f → f c.zeta = .ok d) → (sc.density = none → d = sc.fallback) →
        let k := spaceChargeFactor sc.length (sc.nPart * d) c (c.beta0 * c.rvv)
        let e := E (c.x - sc.xCo) (c.y - sc.yCo)
        KickedBy (scInterpolated (wRes w) sc) c (k * e.1) (k * e.2) := by
  obtain ⟨E, hE, hM⟩ := C58_elliptic hw hs.hx hs.hy hs.ne hs.diff
  refine ⟨E, hM, fun c d hc h1 h2 => ?_⟩
  have hd : densityAt sc c.zeta = .ok d := by
    unfold densityAt
    rcases hm : sc.density with _ | f
    · simp only; rw [h2 hm]
    · exact h1 f hm
  have := scInterpolated_eq (w := wRes w) (sc := sc) hc.rvv.ne' hc.p0c.ne' hc.beta0.ne' hd
    (hE (c.x - sc.xCo) (c.y - sc.yCo))
  simp only [kSC_eq] at this
  exact this

/-- Space charge of a coasting beam: the line density is the number of particles divided by the circumference; the
factor `1 - beta0²` is the one of a particle with the velocity of the reference. -/
theorem C64_coasting_partial {w : ℂ → ℂ} (hw : IsFaddeeva w) (sc : SCCoasting ℝ)
    (hs : Elliptic sc.minSigmaDiff sc.sigmaX sc.sigmaY) (hcirc : sc.circumference ≠ 0) :
    ∃ E, GaussianField sc.sigmaX sc.sigmaY E ∧ ∀ c, Moving c → ∃ k,
      KickedBy (scCoasting (wRes w) sc) c (k * (E (c.x - sc.xCo) (c.y - sc.yCo)).1)
        (k * (E (c.x - sc.xCo) (c.y - sc.yCo)).2) ∧
      k * (1 - c.beta0 * (c.beta0 * c.rvv)) = (1 - c.beta0 ^ 2) *
        spaceChargeFactor sc.length (sc.nPart / sc.circumference) c (c.beta0 * c.rvv) ∧
      (c.rvv = 1 → k = spaceChargeFactor sc.length (sc.nPart / sc.circumference) c (c.beta0 * c.rvv)) := by
  obtain ⟨E, hE, hM⟩ := C58_elliptic hw hs.hx hs.hy hs.ne hs.diff
  refine ⟨E, hM, fun c hc => ⟨_, scCoasting_eq hc.rvv.ne' hc.p0c.ne' hc.beta0.ne' hcirc (hE _ _), ?_, fun h => ?_⟩⟩
  · unfold kSC spaceChargeFactor
    rw [charge0_eq]; ring
  · unfold kSC spaceChargeFactor
    rw [charge0_eq, h]; ring

/-- For a particle of another velocity the factor of a coasting beam differs from the one of a profile with the same
line density. -/
theorem C64_coasting_velocity_violated {w : ℂ → ℂ} (hw : IsFaddeeva w) (sc : SCCoasting ℝ) (c : Coord ℝ)
    (hs : Elliptic sc.minSigmaDiff sc.sigmaX sc.sigmaY) (hcirc : sc.circumference ≠ 0) (hc : Moving c) (hr : c.rvv ≠ 1)
    (hk : c.chi * c.chargeRatio * sc.length * sc.nPart * c.q0 ≠ 0)
    (hE : ∀ ex ey, gaussE (wRes w) sc.minSigmaDiff sc.sigmaX sc.sigmaY (c.x - sc.xCo) (c.y - sc.yCo) = .ok (ex, ey) →
      ex ≠ 0) :
    ∃ o o', scCoasting (wRes w) sc c = .ok o ∧
      scInterpolated (wRes w) ⟨sc.nPart, sc.sigmaX, sc.sigmaY, sc.length, sc.xCo, sc.yCo, 1 / sc.circumference,
        sc.minSigmaDiff, 1, none⟩ c = .ok o' ∧ o.px ≠ o'.px := by
  obtain ⟨E, hEE, hM⟩ := C58_elliptic hw hs.hx hs.hy hs.ne hs.diff
  have e1 := scCoasting_eq (sc := sc) hc.rvv.ne' hc.p0c.ne' hc.beta0.ne' hcirc (hEE (c.x - sc.xCo) (c.y - sc.yCo))
  have e2 := scInterpolated_eq (w := wRes w) (sc := ⟨sc.nPart, sc.sigmaX, sc.sigmaY, sc.length, sc.xCo, sc.yCo,
    1 / sc.circumference, sc.minSigmaDiff, 1, none⟩) (c := c) hc.rvv.ne' hc.p0c.ne' hc.beta0.ne' rfl
    (hEE (c.x - sc.xCo) (c.y - sc.yCo))
  refine ⟨_, _, e1, e2, ?_⟩
  have hx := hE _ _ (hEE (c.x - sc.xCo) (c.y - sc.yCo))
  generalize (E (c.x - sc.xCo) (c.y - sc.yCo)).1 = ex at hx
  simp only
  intro h
  have hb := mul_pos hc.beta0 hc.rvv
  have hp := hc.p0c
  have h1 : kSC sc.nPart sc.length c (c.beta0 * c.rvv) (1 - c.beta0 * c.beta0) (1 / sc.circumference)
      = kSC sc.nPart sc.length c (c.beta0 * c.rvv) (1 - c.beta0 * (c.beta0 * c.rvv)) (1 / sc.circumference) :=
    mul_right_cancel₀ hx (by linarith)
  unfold kSC at h1
  rw [div_eq_div_iff (by positivity) (by positivity)] at h1
  have h2 : (c.chi * c.chargeRatio * sc.length * sc.nPart * c.q0) * (c.q0 * charge0 * (1 / sc.circumference) * c.p0c *
      c.beta0 ^ 3 * c.rvv) * (c.rvv - 1) = 0 := by linear_combination h1
  have hq : c.q0 ≠ 0 := fun h => hk (by rw [h, mul_zero])
  have h3 : c.q0 * charge0 * (1 / sc.circumference) * c.p0c * c.beta0 ^ 3 * c.rvv ≠ 0 := by
    have := charge0_pos
    have := hc.beta0
    have := hc.rvv
    have : (1 / sc.circumference : ℝ) ≠ 0 := one_div_ne_zero hcirc
    positivity
  rcases mul_eq_zero.mp h2 with h | h
  · exact mul_ne_zero hk h3 h
  · exact hr (by linarith)

/-- The two kinds of profiles are given the same normal distribution but take it at different positions: one at
`zeta / rvv`, the other at `zeta`. -/
theorem C64_profile_position_violated {rho : ℝ → ℝ} {sb cq : ℝ} (hb : 0 < sb) (hc : cqOf (1 : ℝ) = .ok cq)
    (hrho : ∀ x, qGauss x 1 sb cq = .ok (rho x)) (c : Coord ℝ) (hm : Moving c) (hr : c.rvv ≠ 1) (hz : c.zeta ≠ 0) :
    rho (c.zeta / c.rvv) ≠ rho c.zeta := by
  obtain ⟨h0, _, _⟩ := QG.shape_integral (by norm_num) hc
  have hv : ∀ x, rho x = sb / cq * Real.exp (-(sb * x) ^ 2) := by
    intro x
    have h := hrho x
    unfold qGauss at h
    rw [cdiv_ok h0.ne', Res.ok_bind, QG.expQ_ok, Res.ok_bind, QG.shape_gauss (by norm_num)] at h
    exact (Res.ok.inj h).symm
  rw [hv, hv]
  intro h
  have h1 := mul_left_cancel₀ (div_pos hb h0).ne' h
  have h2 := Real.exp_injective h1
  have h3 : (c.zeta / c.rvv) ^ 2 = c.zeta ^ 2 := by
    have h4 : sb ^ 2 * (c.zeta / c.rvv) ^ 2 = sb ^ 2 * c.zeta ^ 2 := by nlinarith
    exact mul_left_cancel₀ (by positivity) h4
  rw [div_pow, div_eq_iff (by have := hm.rvv; positivity)] at h3
  have h5 : c.zeta ^ 2 * ((c.rvv - 1) * (c.rvv + 1)) = 0 := by linear_combination -h3
  rcases mul_eq_zero.mp h5 with h | h
  · exact hz (by simpa using h)
  · rcases mul_eq_zero.mp h with h | h
    · exact hr (by linarith)
    · linarith [hm.rvv]

/-- The switch of the elements of space charge is stored but never read: a disabled element acts like an enabled one. -/
theorem C64_switch_violated (w : ℝ → ℝ → Res (ℝ × ℝ)) (a : SCCoasting ℝ) (b : SCQGauss ℝ) (d : SCInterpolated ℝ)
    (c : Coord ℝ) :
    scCoasting w { a with enabled := 0 } c = scCoasting w { a with enabled := 1 } c ∧
    scQGauss w { b with enabled := 0 } c = scQGauss w { b with enabled := 1 } c ∧
    scInterpolated w { d with enabled := 0 } c = scInterpolated w { d with enabled := 1 } c := ⟨rfl, rfl, rfl⟩

/-- At fixed energy and position along the bunch the map is symplectic in the transverse coordinates. -/
def TransverseSymplectic (M : Coord ℝ → Res (Coord ℝ)) (c : Coord ℝ) : Prop :=
  ∃ G : V → V, (∀ v : V, ∃ o, M (place c v) = .ok o ∧ G v = (o.x, o.px, o.y, o.py, v.2.2.2.2.1, v.2.2.2.2.2)) ∧
    ∀ v, SymplecticAt G v

theorem C64_transverse_beam_beam {w : ℂ → ℂ} (hw : IsFaddeeva w) (bb : BB4D ℝ) (c : Coord ℝ) (hc : Moving c)
    (hs : Elliptic bb.minSigmaDiff bb.sigmaX bb.sigmaY) (he : 0 < bb.enabled) (hb : 0 ≤ bb.betaS) :
    TransverseSymplectic (beamBeam4D (wRes w) bb) c := by
  obtain ⟨E, hE, hM⟩ := smooth_elliptic hw hs.hx hs.hy hs.ne hs.diff
  have h := div_pos hc.beta0 hc.rvv
  exact ⟨_, fun v => ⟨_, beamBeam4D_eq (c := place c v) he hc.rvv.ne' hc.p0c.ne' (by simp only [place]; linarith) (hE _ _),
    rfl⟩, fun v => fieldKick_symplectic (k := kBB bb c (c.beta0 / c.rvv)) (hM _ _)⟩

theorem C64_transverse_coasting {w : ℂ → ℂ} (hw : IsFaddeeva w) (sc : SCCoasting ℝ) (c : Coord ℝ) (hc : Moving c)
    (hs : Elliptic sc.minSigmaDiff sc.sigmaX sc.sigmaY) (hcirc : sc.circumference ≠ 0) :
    TransverseSymplectic (scCoasting (wRes w) sc) c := by
  obtain ⟨E, hE, hM⟩ := smooth_elliptic hw hs.hx hs.hy hs.ne hs.diff
  refine ⟨_, fun v => ⟨_, scCoasting_eq (c := place c v) hc.rvv.ne' hc.p0c.ne' hc.beta0.ne' hcirc (hE _ _), rfl⟩,
    fun v => ?_⟩
  have := fieldKick_symplectic (v := v) (d1 := 0) (d2 := 0)
    (k := kSC sc.nPart sc.length c (c.beta0 * c.rvv) (1 - c.beta0 * c.beta0) (1 / sc.circumference))
    (hM (v.1 - sc.xCo) (v.2.2.1 - sc.yCo))
  simp only [sub_zero] at this
  exact this

theorem C64_transverse_qgaussian {w : ℂ → ℂ} (hw : IsFaddeeva w) (sc : SCQGauss ℝ) (c : Coord ℝ) (hc : Moving c)
    (hs : Elliptic sc.minSigmaDiff sc.sigmaX sc.sigmaY) (hq : sc.qParam < 3) (hcq : cqOf sc.qParam = .ok sc.cq)
    (hr : 0 < sc.bunchlengthRms) : TransverseSymplectic (scQGauss (wRes w) sc) c := by
  obtain ⟨E, hE, hM⟩ := smooth_elliptic hw hs.hx hs.hy hs.ne hs.diff
  obtain ⟨h0, _, _⟩ := QG.shape_integral hq hcq
  obtain ⟨sb, hsb⟩ : ∃ sb, sqrtBetaOf sc.bunchlengthRms = .ok sb := by
    unfold sqrtBetaOf
    simp only [Nat.cast_ofNat, sqrt_real]
    exact ⟨_, cdiv_ok (by positivity)⟩
  obtain ⟨d, hd⟩ : ∃ d, qGauss (c.zeta / c.rvv) sc.qParam sb sc.cq = .ok d := by
    unfold qGauss
    rw [cdiv_ok h0.ne', Res.ok_bind, QG.expQ_ok, Res.ok_bind]
    exact ⟨_, rfl⟩
  refine ⟨_, fun v => ⟨_, scQGauss_eq (c := place c v) hc.rvv.ne' hc.p0c.ne' hc.beta0.ne' hsb hd (hE _ _), rfl⟩,
    fun v => ?_⟩
  have := fieldKick_symplectic (v := v) (d1 := 0) (d2 := 0)
    (k := kSC sc.nPart sc.length c (c.beta0 * c.rvv) (1 - c.beta0 * (c.beta0 * c.rvv)) d)
    (hM (v.1 - sc.xCo) (v.2.2.1 - sc.yCo))
  simp only [sub_zero] at this
  exact this

theorem C64_transverse_interpolated {w : ℂ → ℂ} (hw : IsFaddeeva w) (sc : SCInterpolated ℝ) (c : Coord ℝ) (hc : Moving c)
    (hs : Elliptic sc.minSigmaDiff sc.sigmaX sc.sigmaY) (hd : ∀ f, sc.density = some f → ∃ d, f c.zeta = .ok d) :
    TransverseSymplectic (scInterpolated (wRes w) sc) c := by
  obtain ⟨E, hE, hM⟩ := smooth_elliptic hw hs.hx hs.hy hs.ne hs.diff
  obtain ⟨d, hd⟩ : ∃ d, densityAt sc c.zeta = .ok d := by
    unfold densityAt
    rcases hm : sc.density with _ | f
    · exact ⟨_, rfl⟩
    · exact hd f hm
  refine ⟨_, fun v => ⟨_, scInterpolated_eq (c := place c v) hc.rvv.ne' hc.p0c.ne' hc.beta0.ne' hd (hE _ _), rfl⟩,
    fun v => ?_⟩
  have := fieldKick_symplectic (v := v) (d1 := 0) (d2 := 0)
    (k := kSC sc.nPart sc.length c (c.beta0 * c.rvv) (1 - c.beta0 * (c.beta0 * c.rvv)) d)
    (hM (v.1 - sc.xCo) (v.2.2.1 - sc.yCo))
  simp only [sub_zero] at this
  exact this

/-! ### All six coordinates

The strength of each kick depends on the energy of the particle, but no element changes the time of flight, so that
the maps are not symplectic in the canonical variables. -/

/-- The beam is treated as round and the particle is beside its axis. -/
structure RoundBeside (minDiff sx sy dx dy : ℝ) : Prop where
  size : 0 < sx + sy
  diff : |sx - sy| < minDiff
  off : dx ≠ 0
  away : 1 / 10 ^ 20 < dx ^ 2 + dy ^ 2

theorem C64_coasting_symplectic_violated (w : ℝ → ℝ → Res (ℝ × ℝ)) (sc : SCCoasting ℝ) (c : Coord ℝ) (hc : Consistent c)
    (hb : c.beta0 < 1) (hp : c.p0c ≠ 0) (hcirc : sc.circumference ≠ 0)
    (hs : RoundBeside sc.minSigmaDiff sc.sigmaX sc.sigmaY (c.x - sc.xCo) (c.y - sc.yCo))
    (hk : c.chi * c.chargeRatio * sc.length * sc.nPart * c.q0 ≠ 0) : ¬ CanonSymplectic (scCoasting w sc) c := by
  obtain ⟨E, hE, hE0⟩ := round_field (w := w) hs.size hs.diff
  have hb0 := hc.beta0_pos
  have hv : 0 < rvvOf c.beta0 c.psigma := by rw [rvvOf_eq hc]; exact Consistent.rvv_pos hc
  have hr := hasDerivAt_rvv hc
  set C := c.chi * c.chargeRatio * sc.length * sc.nPart * charge0 * c.q0 ^ 2 * (1 - c.beta0 * c.beta0) *
    (1 / sc.circumference) / (c.p0c * c.beta0) with hC
  have hC0 : C ≠ 0 := by
    have hq : c.q0 ≠ 0 := fun h => hk (by rw [h, mul_zero])
    have := charge0_pos
    have h1 : 0 < 1 - c.beta0 * c.beta0 := by nlinarith
    have : C = (c.chi * c.chargeRatio * sc.length * sc.nPart * c.q0) * (charge0 * c.q0 * (1 - c.beta0 * c.beta0) *
      (1 / sc.circumference) / (c.p0c * c.beta0)) := by rw [hC]; ring
    rw [this]
    refine mul_ne_zero hk ?_
    generalize 1 - c.beta0 * c.beta0 = g at h1
    positivity
  have hd := hr.inv (by simpa using hv.ne') |>.const_mul C
  refine not_canonSymplectic hc (k := fun _ p => C * (rvvOf c.beta0 p)⁻¹) (d1 := 0) (d2 := 0) (x0 := sc.xCo)
    (y0 := sc.yCo) (E := E) ?_ hd ?_ (hE0 _ _ hs.off)
  · filter_upwards [eventually_away hs.away, (toCanon_dom hc).eventually] with v h1 h2
    have h3 := Consistent.rvv_pos (ofCanon_consistent hb0 h2)
    rw [scCoasting_eq (c := ofCanon c v) h3.ne' hp hb0.ne' hcirc (hE _ _ h1)]
    have : kSC sc.nPart sc.length (ofCanon c v) ((ofCanon c v).beta0 * (ofCanon c v).rvv)
        (1 - (ofCanon c v).beta0 * (ofCanon c v).beta0) (1 / sc.circumference) = C * (rvvOf c.beta0 v.2.2.2.2.2)⁻¹ := by
      rw [hC]
      unfold kSC
      have e : (ofCanon c v).rvv = rvvOf c.beta0 v.2.2.2.2.2 := rfl
      rw [e] at h3 ⊢
      show c.chi * c.chargeRatio * sc.length * sc.nPart * charge0 * c.q0 ^ 2 * (1 - c.beta0 * c.beta0) *
        (1 / sc.circumference) / (c.p0c * (c.beta0 * rvvOf c.beta0 v.2.2.2.2.2)) = _
      rw [← mul_assoc c.p0c, ← div_div, div_eq_mul_inv _ (rvvOf c.beta0 v.2.2.2.2.2)]
    rw [this]
    simp only [sub_zero]
    rfl
  · have ho : 0 < opd c.beta0 c.psigma := (toCanon_dom hc).opd_pos
    have he := hc.energy_pos
    have h1 : 0 < 1 - c.beta0 ^ 2 := by nlinarith
    simp only [add_zero]
    refine mul_ne_zero hC0 (div_ne_zero (neg_ne_zero.mpr ?_) (by positivity))
    generalize 1 - c.beta0 ^ 2 = g at h1
    positivity

theorem C64_qgaussian_symplectic_violated (w : ℝ → ℝ → Res (ℝ × ℝ)) (sc : SCQGauss ℝ) (c : Coord ℝ) (hc : Consistent c)
    (hb : c.beta0 < 1) (hp : c.p0c ≠ 0) {sb d : ℝ} (hsb : sqrtBetaOf sc.bunchlengthRms = .ok sb)
    (hd : ∀ x, ∃ d, qGauss x sc.qParam sb sc.cq = .ok d) (hd0 : qGauss (c.zeta / c.rvv) sc.qParam sb sc.cq = .ok d)
    (hdd : d ≠ 0) (hs : RoundBeside sc.minSigmaDiff sc.sigmaX sc.sigmaY (c.x - sc.xCo) (c.y - sc.yCo))
    (hk : c.chi * c.chargeRatio * sc.length * sc.nPart * c.q0 ≠ 0) : ¬ CanonSymplectic (scQGauss w sc) c := by
  obtain ⟨E, hE, hE0⟩ := round_field (w := w) hs.size hs.diff
  have hb0 := hc.beta0_pos
  have hv : 0 < rvvOf c.beta0 c.psigma := by rw [rvvOf_eq hc]; exact Consistent.rvv_pos hc
  have hr := hasDerivAt_rvv hc
  choose ρ hρ using hd
  have hρ0 : ρ (c.zeta / c.rvv) = d := Res.ok.inj ((hρ _).symm.trans hd0)
  set C := c.chi * c.chargeRatio * sc.length * sc.nPart * charge0 * c.q0 ^ 2 / (c.p0c * c.beta0) with hC
  have hC0 : C ≠ 0 := by
    have hq : c.q0 ≠ 0 := fun h => hk (by rw [h, mul_zero])
    have := charge0_pos
    have : C = (c.chi * c.chargeRatio * sc.length * sc.nPart * c.q0) * (charge0 * c.q0 / (c.p0c * c.beta0)) := by
      rw [hC]; ring
    rw [this]
    exact mul_ne_zero hk (by positivity)
  have hd1 := hr.inv (by simpa using hv.ne') |>.sub_const (c.beta0 ^ 2) |>.const_mul (C * d)
  refine not_canonSymplectic hc (k := fun s p => C * ρ s * ((rvvOf c.beta0 p)⁻¹ - c.beta0 ^ 2)) (d1 := 0) (d2 := 0)
    (x0 := sc.xCo) (y0 := sc.yCo) (E := E) ?_ (by simp only [hρ0]; exact hd1) ?_ (hE0 _ _ hs.off)
  · filter_upwards [eventually_away hs.away, (toCanon_dom hc).eventually] with v h1 h2
    have h3 := Consistent.rvv_pos (ofCanon_consistent hb0 h2)
    have hz : (ofCanon c v).zeta / (ofCanon c v).rvv = v.2.2.2.2.1 :=
      congrArg (fun v : V => v.2.2.2.2.1) (toCanon_ofCanon h2)
    rw [scQGauss_eq (c := ofCanon c v) h3.ne' hp hb0.ne' hsb (by rw [hz]; exact hρ _) (hE _ _ h1)]
    have : kSC sc.nPart sc.length (ofCanon c v) ((ofCanon c v).beta0 * (ofCanon c v).rvv)
        (1 - (ofCanon c v).beta0 * ((ofCanon c v).beta0 * (ofCanon c v).rvv)) (ρ v.2.2.2.2.1)
        = C * ρ v.2.2.2.2.1 * ((rvvOf c.beta0 v.2.2.2.2.2)⁻¹ - c.beta0 ^ 2) := by
      rw [hC]
      unfold kSC
      have e : (ofCanon c v).rvv = rvvOf c.beta0 v.2.2.2.2.2 := rfl
      rw [e] at h3 ⊢
      show c.chi * c.chargeRatio * sc.length * sc.nPart * charge0 * c.q0 ^ 2 *
        (1 - c.beta0 * (c.beta0 * rvvOf c.beta0 v.2.2.2.2.2)) * ρ v.2.2.2.2.1 /
        (c.p0c * (c.beta0 * rvvOf c.beta0 v.2.2.2.2.2)) = _
      generalize rvvOf c.beta0 v.2.2.2.2.2 = r at h3
      field_simp
    rw [this]
    simp only [sub_zero]
    rfl
  · have ho : 0 < opd c.beta0 c.psigma := (toCanon_dom hc).opd_pos
    have he := hc.energy_pos
    have h1 : 0 < 1 - c.beta0 ^ 2 := by nlinarith
    simp only [add_zero]
    refine mul_ne_zero (mul_ne_zero hC0 hdd) (div_ne_zero (neg_ne_zero.mpr ?_) (by positivity))
    generalize 1 - c.beta0 ^ 2 = g at h1
    positivity

theorem C64_beam_beam_symplectic_violated (w : ℝ → ℝ → Res (ℝ × ℝ)) (bb : BB4D ℝ) (c : Coord ℝ) (hc : Consistent c)
    (hb : c.beta0 < 1) (hp : c.p0c ≠ 0) (he : 0 < bb.enabled) (hbs : 0 ≤ bb.betaS) (hb1 : bb.betaS < 1)
    (hs : RoundBeside bb.minSigmaDiff bb.sigmaX bb.sigmaY (c.x - bb.deltaX) (c.y - bb.deltaY))
    (hk : c.chi * bb.nPart * bb.qPart * c.q0 ≠ 0) : ¬ CanonSymplectic (beamBeam4D w bb) c := by
  obtain ⟨E, hE, hE0⟩ := round_field (w := w) hs.size hs.diff
  have hb0 := hc.beta0_pos
  have hv : 0 < rvvOf c.beta0 c.psigma := by rw [rvvOf_eq hc]; exact Consistent.rvv_pos hc
  have hr := hasDerivAt_rvv hc
  set C := c.chi * bb.nPart * bb.qPart * c.q0 / c.p0c with hC
  have hC0 : C ≠ 0 := div_ne_zero hk hp
  have hden : 0 < c.beta0 + rvvOf c.beta0 c.psigma * bb.betaS := by positivity
  have hd := ((hr.add_const (c.beta0 * bb.betaS)).div ((hr.mul_const bb.betaS).const_add c.beta0)
    (by simpa using hden.ne')).const_mul C
  refine not_canonSymplectic hc
    (k := fun _ p => C * ((rvvOf c.beta0 p + c.beta0 * bb.betaS) / (c.beta0 + rvvOf c.beta0 p * bb.betaS)))
    (d1 := bb.dpxSub) (d2 := bb.dpySub) (x0 := bb.deltaX) (y0 := bb.deltaY) (E := E) ?_ hd ?_ (hE0 _ _ hs.off)
  · filter_upwards [eventually_away hs.away, (toCanon_dom hc).eventually] with v h1 h2
    have h3 := Consistent.rvv_pos (ofCanon_consistent hb0 h2)
    have h4 : 0 < c.beta0 / (ofCanon c v).rvv + bb.betaS := by positivity
    rw [beamBeam4D_eq (c := ofCanon c v) he h3.ne' hp h4.ne' (hE _ _ h1)]
    have : kBB bb (ofCanon c v) ((ofCanon c v).beta0 / (ofCanon c v).rvv)
        = C * ((rvvOf c.beta0 v.2.2.2.2.2 + c.beta0 * bb.betaS) / (c.beta0 + rvvOf c.beta0 v.2.2.2.2.2 * bb.betaS)) := by
      rw [hC]
      unfold kBB
      have e : (ofCanon c v).rvv = rvvOf c.beta0 v.2.2.2.2.2 := rfl
      rw [e] at h3 h4 ⊢
      show c.chi * bb.nPart * bb.qPart * c.q0 * (1 + c.beta0 / rvvOf c.beta0 v.2.2.2.2.2 * bb.betaS) /
        (c.p0c * (c.beta0 / rvvOf c.beta0 v.2.2.2.2.2 + bb.betaS)) = _
      generalize rvvOf c.beta0 v.2.2.2.2.2 = r at h3 h4
      have h5 : c.beta0 + r * bb.betaS ≠ 0 := by positivity
      field_simp
    rw [this]
    rfl
  · have ho : 0 < opd c.beta0 c.psigma := (toCanon_dom hc).opd_pos
    have he := hc.energy_pos
    have h1 : 0 < 1 - c.beta0 ^ 2 := by nlinarith
    have h2 : 0 < 1 - bb.betaS ^ 2 := by nlinarith
    simp only [add_zero]
    refine mul_ne_zero hC0 (div_ne_zero ?_ (by positivity))
    have hd0 : 0 < (1 - c.beta0 ^ 2) / (opd c.beta0 c.psigma * (1 + c.beta0 ^ 2 * c.psigma) ^ 2) :=
      div_pos h1 (by positivity)
    generalize (1 - c.beta0 ^ 2) / (opd c.beta0 c.psigma * (1 + c.beta0 ^ 2 * c.psigma) ^ 2) = D at hd0
    have : D * (c.beta0 + rvvOf c.beta0 c.psigma * bb.betaS) - (rvvOf c.beta0 c.psigma + c.beta0 * bb.betaS) *
        (D * bb.betaS) = D * c.beta0 * (1 - bb.betaS ^ 2) := by ring
    rw [this]
    generalize 1 - bb.betaS ^ 2 = g at h2
    positivity

/-- A particle, 1 mm beside the axis, with 5/2 of the momentum and 25/17 of the velocity of the reference. -/
noncomputable def sampleParticle : Coord ℝ :=
  { q0 := 1, mass0 := 1, beta0 := 3 / 5, gamma0 := 5 / 4, p0c := 1, s := 0, x := 1 / 1000, y := 0, px := 0, py := 0
    zeta := 1 / 10, psigma := 35 / 18, delta := 3 / 2, rpp := 2 / 5, rvv := 25 / 17, chi := 1, chargeRatio := 1 }

theorem Beam.sample_consistent : Consistent sampleParticle := by
  constructor <;> norm_num [sampleParticle]

/-- A round beam of 1 mm and an elliptic beam of 1 mm by 2 mm. -/
noncomputable def sampleBeam (sy : ℝ) : SCCoasting ℝ :=
  { nPart := 10 ^ 11, circumference := 1000, sigmaX := 1 / 1000, sigmaY := sy, length := 1, xCo := 0, yCo := 0
    minSigmaDiff := 1 / 10 ^ 8, enabled := 1 }

theorem Beam.sample_moving : Moving sampleParticle :=
  ⟨by norm_num [sampleParticle], Consistent.rvv_pos sample_consistent, by norm_num [sampleParticle]⟩

example : Elliptic (sampleBeam (2 / 1000)).minSigmaDiff (sampleBeam (2 / 1000)).sigmaX (sampleBeam (2 / 1000)).sigmaY := by
  constructor <;> norm_num [sampleBeam, abs_of_neg]

/-- The hypotheses of the theorems about the kicks and about the transverse coordinates are met. -/
example : ∃ w, IsFaddeeva w ∧ TransverseSymplectic (scCoasting (wRes w) (sampleBeam (2 / 1000))) sampleParticle ∧
    TransverseSymplectic (beamBeam4D (wRes w) ⟨1, 10 ^ 11, 1 / 1000, 2 / 1000, 1, 1 / 10 ^ 8, 0, 0, 0, 0, 1⟩)
      sampleParticle ∧
    TransverseSymplectic (scQGauss (wRes w) ⟨10 ^ 11, 1 / 10, 1 / 1000, 2 / 1000, 1, 0, 0, 1 / 10 ^ 8, 1,
      Real.sqrt Real.pi, 1⟩) sampleParticle := by
  obtain ⟨w, hw⟩ := exists_faddeeva
  have hs : Elliptic (1 / 10 ^ 8) (1 / 1000) (2 / 1000) := by constructor <;> norm_num [abs_of_neg]
  refine ⟨w, hw, C64_transverse_coasting hw _ _ sample_moving hs (by norm_num [sampleBeam]),
    C64_transverse_beam_beam hw _ _ sample_moving hs (by norm_num) (by norm_num),
    C64_transverse_qgaussian hw _ _ sample_moving hs (by norm_num) (QG.cqOf_near (by norm_num)) (by norm_num)⟩

/-- The hypotheses of the theorems about all six coordinates are met. -/
example (w : ℝ → ℝ → Res (ℝ × ℝ)) : ¬ CanonSymplectic (scCoasting w (sampleBeam (1 / 1000))) sampleParticle :=
  C64_coasting_symplectic_violated w _ _ sample_consistent (by norm_num [sampleParticle]) (by norm_num [sampleParticle])
    (by norm_num [sampleBeam]) (by constructor <;> norm_num [sampleBeam, sampleParticle])
    (by norm_num [sampleBeam, sampleParticle])

example (w : ℝ → ℝ → Res (ℝ × ℝ)) :
    ¬ CanonSymplectic (beamBeam4D w ⟨1, 10 ^ 11, 1 / 1000, 1 / 1000, 1 / 2, 1 / 10 ^ 8, 0, 0, 0, 0, 1⟩) sampleParticle :=
  C64_beam_beam_symplectic_violated w _ _ sample_consistent (by norm_num [sampleParticle])
    (by norm_num [sampleParticle]) (by norm_num) (by norm_num) (by norm_num)
    (by constructor <;> norm_num [sampleParticle]) (by norm_num [sampleParticle])

end SixTrack
