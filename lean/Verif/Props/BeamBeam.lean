import Verif.BeamBeamMap
import Verif.Props.Boost
import Verif.Props.GaussField

/-!
# Property C60: the six-dimensional beam-beam interaction

Boost, kicks of the slices at their collision points, and boost back: the map preserves the symplectic
form in the canonical variables `(x, px, y, py, sigma, psigma)` wherever no branch of the code changes.
-/

namespace SixTrack
open Beam Elem
open scoped Topology

/-- The strong beam as seen by `v` at the collision point with the slice `sl` is inside one branch of the
code: the beam is elliptic, with the size of the two principal axes apart by more than
`min_sigma_diff`, and tilted by more than the threshold or not at all at any distance; or it is round at
any distance, and the particle is not on its axis. -/
def RegularSlice (bb : BB6D ℝ) (sl : Slice ℝ) (v : Beam.Star ℝ) : Prop :=
  let d := bb.sigmas
  let S := (v.sigma - sl.sigma) / 2
  let hi := (sA d S + sB d S + Real.sqrt (sT d S)) / 2
  let lo := (sA d S + sB d S - Real.sqrt (sT d S)) / 2
  0 < bb.threshold ∧ bb.threshold ≤ 1 / 2 ∧
  ((bb.threshold < sT d S ∧ 0 ≤ bb.minSigmaDiff ∧ 0 < lo ∧ bb.minSigmaDiff < Real.sqrt hi - Real.sqrt lo ∧
      (Uncoupled d ∨ (sA d S ≠ sB d S ∧
        bb.threshold ^ 2 < (1 - |sA d S - sB d S| / Real.sqrt (sT d S)) / 2))) ∨
    (AlwaysRound d ∧ 0 < sA d S ∧ 0 < bb.minSigmaDiff ∧
      1 / 10 ^ 20 < (v.x + v.px * S - sl.x) ^ 2 + (v.y + v.py * S - sl.y) ^ 2))

/-- Every slice is regular for the particle which reaches it. -/
def RegularSlices (w : ℝ → ℝ → Res (ℝ × ℝ)) (bb : BB6D ℝ) (q0 P0 : ℝ) : List (Slice ℝ) → Beam.Star ℝ → Prop
  | [], _ => True
  | sl :: l, v => RegularSlice bb sl v ∧ ∀ u, sliceKick w bb q0 P0 v sl = .ok u → RegularSlices w bb q0 P0 l u

theorem mysign_abs (a : ℝ) : mysign a = 1 ∨ mysign a = -1 := by
  have := mysign_sq a
  have h : (mysign a - 1) * (mysign a + 1) = 0 := by linear_combination this
  rcases mul_eq_zero.mp h with h | h
  · left; linarith
  · right; linarith

/-- The kick of a slice preserves the symplectic form. -/
theorem C60_slice {w : ℂ → ℂ} (hw : IsFaddeeva w) {bb : BB6D ℝ} {q0 P0 : ℝ} (hP : P0 ≠ 0) {sl : Slice ℝ} {v : V}
    (h : RegularSlice bb sl (starOf v)) :
    ∃ G : V → V, (∀ᶠ u in 𝓝 v, sliceKick (wRes w) bb q0 P0 (starOf u) sl = .ok (starOf (G u))) ∧ SymplecticAt G v := by
  have hPc : P0 * cLight ≠ 0 := mul_ne_zero hP (by norm_num [cLight])
  obtain ⟨t0, t1, h⟩ := h
  rw [show ((starOf v).sigma - sl.sigma) / 2 = (v.2.2.2.2.1 - sl.sigma) / 2 from rfl] at h
  generalize hS : (v.2.2.2.2.1 - sl.sigma) / 2 = S at h
  rcases h with ⟨hT, h0, hlo, hd, hu | ⟨hR, hs⟩⟩ | ⟨hr, ha, h0, hx⟩
  · have hsh := shape_uncoupled (S := S) t0 t1 hT hu
    have hC := (hu.sC S).1
    have hroot : Real.sqrt (sT bb.sigmas S) = |sA bb.sigmas S - sB bb.sigmas S| := by
      rw [sT, hC, show ∀ a : ℝ, a ^ 2 + 4 * 0 ^ 2 = a ^ 2 from fun a => by ring, Real.sqrt_sq_eq_abs]
    rw [hroot] at hlo hd
    have hh : (hatOf (fun _ => 1) (fun _ => 0) sl v).2.2 = S := hS
    have key : 0 < sA bb.sigmas S ∧ 0 < sB bb.sigmas S ∧
        bb.minSigmaDiff < |Real.sqrt (sA bb.sigmas S) - Real.sqrt (sB bb.sigmas S)| := by
      rcases le_total (sB bb.sigmas S) (sA bb.sigmas S) with hl | hl
      · rw [abs_of_nonneg (by linarith)] at hlo hd
        rw [show (sA bb.sigmas S + sB bb.sigmas S + (sA bb.sigmas S - sB bb.sigmas S)) / 2 = sA bb.sigmas S by ring,
          show (sA bb.sigmas S + sB bb.sigmas S - (sA bb.sigmas S - sB bb.sigmas S)) / 2 = sB bb.sigmas S by ring] at hd
        exact ⟨by linarith, by linarith, hd.trans_le (le_abs_self _)⟩
      · rw [abs_of_nonpos (by linarith)] at hlo hd
        rw [show (sA bb.sigmas S + sB bb.sigmas S + -(sA bb.sigmas S - sB bb.sigmas S)) / 2 = sB bb.sigmas S by ring,
          show (sA bb.sigmas S + sB bb.sigmas S - -(sA bb.sigmas S - sB bb.sigmas S)) / 2 = sA bb.sigmas S by ring] at hd
        refine ⟨by linarith, by linarith, hd.trans_le ?_⟩
        rw [abs_sub_comm]
        exact le_abs_self _
    rw [← hh] at hsh key
    exact slice_gauss hw hPc hsh key.1 key.2.1 h0 key.2.2
  · have hT0 : 0 < sT bb.sigmas S := t0.trans hT
    have hroot : 0 < Real.sqrt (sT bb.sigmas S) := Real.sqrt_pos.mpr hT0
    have hR' : sR bb.sigmas S ≠ 0 := sub_ne_zero.mpr hR
    have hσ := mysign_sq (sR bb.sigmas S)
    have hk : kOf (mysign (sR bb.sigmas S)) (sR bb.sigmas S) (sC bb.sigmas S) =
        |sA bb.sigmas S - sB bb.sigmas S| / Real.sqrt (sT bb.sigmas S) := by
      unfold kOf
      rw [mysign_mul]
      rfl
    have hk1 : -1 < kOf (mysign (sR bb.sigmas S)) (sR bb.sigmas S) (sC bb.sigmas S) := by
      have : 0 ≤ |sA bb.sigmas S - sB bb.sigmas S| / Real.sqrt (sT bb.sigmas S) := by positivity
      rw [hk]; linarith
    obtain ⟨g1, g2, -, -⟩ := axes_alg hσ (show 0 < sR bb.sigmas S ^ 2 + 4 * sC bb.sigmas S ^ 2 from hT0) hk1
    have hsin : bb.threshold < |sS bb.sigmas (mysign (sR bb.sigmas S)) S| := by
      refine lt_of_pow_lt_pow_left₀ 2 (abs_nonneg _) ?_
      rw [sq_abs, sS]
      have : sinOf (mysign (sR bb.sigmas S)) (sR bb.sigmas S) (sC bb.sigmas S) ^ 2 =
          (1 - kOf (mysign (sR bb.sigmas S)) (sR bb.sigmas S) (sC bb.sigmas S)) / 2 := by linarith
      rw [this, hk]
      exact hs
    have hsh := shape_regular t0 t1 hT hR' hsin
    have hh : (hatOf (cS bb.sigmas (mysign (sR bb.sigmas S))) (sS bb.sigmas (mysign (sR bb.sigmas S))) sl v).2.2 = S := hS
    have key : 0 < pS bb.sigmas (mysign (sR bb.sigmas S)) S ∧ 0 < qS bb.sigmas (mysign (sR bb.sigmas S)) S ∧
        bb.minSigmaDiff < |Real.sqrt (pS bb.sigmas (mysign (sR bb.sigmas S)) S) -
          Real.sqrt (qS bb.sigmas (mysign (sR bb.sigmas S)) S)| := by
      unfold pS qS
      rcases mysign_abs (sR bb.sigmas S) with h | h
      · rw [h, one_mul]
        exact ⟨by linarith, hlo, hd.trans_le (le_abs_self _)⟩
      · rw [h, neg_one_mul, sub_neg_eq_add, ← sub_eq_add_neg]
        refine ⟨hlo, by linarith, hd.trans_le ?_⟩
        rw [abs_sub_comm]
        exact le_abs_self _
    generalize mysign (sR bb.sigmas S) = σ at *
    rw [← hh] at hsh key
    exact slice_gauss hw hPc hsh key.1 key.2.1 h0 key.2.2
  · have hsh := shape_round (d := bb.sigmas) (S := S) t0 hr
    have hh : (hatOf (fun _ => 1) (fun _ => 0) sl v).2.2 = S := hS
    rw [← hh] at hsh ha
    refine slice_round hPc hsh ha h0 ?_
    simp only [hatOf, hS, mul_one, mul_zero, add_zero, zero_add]
    exact hx

/-- What a slice does: the forces per particle do not depend on the number of particles of the slice. -/
theorem slice_form {w : ℝ → ℝ → Res (ℝ × ℝ)} {bb : BB6D ℝ} {q0 P0 : ℝ} {sl : Slice ℝ} {v u : Beam.Star ℝ}
    (h : sliceKick w bb q0 P0 v sl = .ok u) :
    ∃ a b e : ℝ, ∀ n : ℝ, sliceKick w bb q0 P0 v { sl with nPart := n } =
      .ok ⟨v.x - (v.sigma - sl.sigma) / 2 * (n * bb.qPart * a), v.px + n * bb.qPart * a,
        v.y - (v.sigma - sl.sigma) / 2 * (n * bb.qPart * b), v.py + n * bb.qPart * b, v.sigma,
        v.delta + n * bb.qPart * e + (n * bb.qPart * a * (v.px + n * bb.qPart * a / 2) +
          n * bb.qPart * b * (v.py + n * bb.qPart * b / 2)) / 2⟩ := by
  unfold sliceKick at h
  obtain ⟨k, hk, h⟩ := Res.bind_eq_ok.mp h
  obtain ⟨sh, hsh, h⟩ := Res.bind_eq_ok.mp h
  obtain ⟨sx, hsx, h⟩ := Res.bind_eq_ok.mp h
  obtain ⟨sy, hsy, h⟩ := Res.bind_eq_ok.mp h
  obtain ⟨f, hf, -⟩ := Res.bind_eq_ok.mp h
  have hP : P0 * cLight ≠ 0 := by
    intro h
    rw [h, cdiv_zero] at hk
    cases hk
  refine ⟨q0 / (P0 * cLight) * (f.ex * sh.cosT - f.ey * sh.sinT), q0 / (P0 * cLight) * (f.ex * sh.sinT + f.ey * sh.cosT),
    q0 / (P0 * cLight) * ((f.ex * ((v.x + v.px * ((v.sigma - sl.sigma) / 2) - sl.x) * sh.dCos +
      (v.y + v.py * ((v.sigma - sl.sigma) / 2) - sl.y) * sh.dSin) +
      f.ey * (-(v.x + v.px * ((v.sigma - sl.sigma) / 2) - sl.x) * sh.dSin +
      (v.y + v.py * ((v.sigma - sl.sigma) / 2) - sl.y) * sh.dCos) + f.gx * sh.dS11 + f.gy * sh.dS33) / 2), fun n => ?_⟩
  unfold sliceKick
  simp only [half_eq] at hsh hf ⊢
  simp only [cdiv_ok hP, Res.ok_bind, hsh, hsx, hsy, hf, Res.pure_eq, Res.ok_inj, Beam.Star.mk.injEq]
  refine ⟨?_, ?_, ?_, ?_, trivial, ?_⟩ <;> ring

/-- A slice moves the particle only at the collision point: the transverse position there does not
change, nor does the longitudinal one. -/
theorem C60_collision_point {w : ℝ → ℝ → Res (ℝ × ℝ)} {bb : BB6D ℝ} {q0 P0 : ℝ} {sl : Slice ℝ} {v u : Beam.Star ℝ}
    (h : sliceKick w bb q0 P0 v sl = .ok u) :
    u.sigma = v.sigma ∧
    u.x + u.px * ((u.sigma - sl.sigma) / 2) = v.x + v.px * ((v.sigma - sl.sigma) / 2) ∧
    u.y + u.py * ((u.sigma - sl.sigma) / 2) = v.y + v.py * ((v.sigma - sl.sigma) / 2) := by
  obtain ⟨a, b, e, hn⟩ := slice_form h
  have := hn sl.nPart
  rw [show { sl with nPart := sl.nPart } = sl from rfl, h, Res.ok_inj] at this
  rw [this]
  refine ⟨rfl, ?_, ?_⟩ <;> ring

/-- All slices, one after the other. -/
theorem slices_maps {w : ℂ → ℂ} (hw : IsFaddeeva w) {bb : BB6D ℝ} {q0 P0 : ℝ} (hP : P0 ≠ 0) (l : List (Slice ℝ)) :
    ∀ {v : V}, RegularSlices (wRes w) bb q0 P0 l (starOf v) →
      MapsAt (fun s => l.foldlM (sliceKick (wRes w) bb q0 P0) s) 1 v := by
  induction l with
  | nil =>
    intro v _
    refine ⟨id, Filter.Eventually.of_forall fun u => rfl, ContinuousLinearMap.id ℝ V, hasFDerivAt_id v, fun a b => ?_⟩
    simp
  | cons sl l ih =>
    intro v h
    obtain ⟨G, hG, hs⟩ := C60_slice hw hP h.1
    have e := hG.self_of_nhds
    have h2 := ih (h.2 _ e)
    have := MapsAt.comp (F := fun s => sliceKick (wRes w) bb q0 P0 s sl) ⟨G, hG, symplecticAt_iff.mp hs⟩ e h2
    rw [one_mul] at this
    exact this

/-- The particle relative to the closed orbit and the slices, before the boost. -/
def relative (bb : BB6D ℝ) (c : Coord ℝ) : Beam.Star ℝ :=
  ⟨c.x - bb.xCO - bb.deltaX, c.px - bb.pxCO, c.y - bb.yCO - bb.deltaY, c.py - bb.pyCO, c.zeta - bb.sigmaCO,
    c.delta - bb.deltaCO⟩

/-- The particle back in the coordinates of the lattice, with the dipolar kick subtracted. -/
noncomputable def absolute (bb : BB6D ℝ) (c : Coord ℝ) (r : Beam.Star ℝ) : Coord ℝ :=
  updateDelta
    { c with
      x := r.x + bb.xCO + bb.deltaX - bb.dxSub
      px := r.px + bb.pxCO - bb.dpxSub
      y := r.y + bb.yCO + bb.deltaY - bb.dySub
      py := r.py + bb.pyCO - bb.dpySub
      zeta := r.sigma + bb.sigmaCO - bb.dsigmaSub }
    (r.delta + bb.deltaCO - bb.ddeltaSub)

theorem beamBeam6D_eq {w : ℝ → ℝ → Res (ℝ × ℝ)} {bb : BB6D ℝ} {c : Coord ℝ} {s t r : Beam.Star ℝ} (hen : bb.enabled > 0)
    (k1 : boost bb.parboost (relative bb c) = .ok s)
    (k2 : bb.slices.foldlM (sliceKick w bb (qElem * c.q0) (c.p0c / cLight * qElem)) s = .ok t)
    (k3 : invBoost bb.parboost t = .ok r) : beamBeam6D w bb c = .ok (absolute bb c r) := by
  unfold beamBeam6D
  rw [if_pos hen]
  unfold relative at k1
  simp only [k1, k2, k3, Res.ok_bind]
  rfl

/-- The interaction is inside the branches of the code for `c`: the particle flies forward in both frames
before and after the kicks, and every slice is regular. -/
def Regular (w : ℝ → ℝ → Res (ℝ × ℝ)) (bb : BB6D ℝ) (c : Coord ℝ) : Prop :=
  bb.parboost.Ok ∧ Forward (relative bb c) ∧ ForwardAfter bb.parboost (relative bb c) ∧
  ∀ s, boost bb.parboost (relative bb c) = .ok s →
    RegularSlices w bb (qElem * c.q0) (c.p0c / cLight * qElem) bb.slices s ∧
    ∀ t, bb.slices.foldlM (sliceKick w bb (qElem * c.q0) (c.p0c / cLight * qElem)) s = .ok t →
      Forward t ∧ ForwardBefore bb.parboost t ∧
      ∀ r, invBoost bb.parboost t = .ok r → 0 < 1 + (r.delta + bb.deltaCO - bb.ddeltaSub)

/-- The six-dimensional beam-beam interaction preserves the symplectic form. -/
theorem C60_symplectic {w : ℂ → ℂ} (hw : IsFaddeeva w) {bb : BB6D ℝ} {c0 : Coord ℝ} {v : V}
    (hb0 : 0 < c0.beta0) (hb1 : c0.beta0 ≤ 1) (hp : c0.p0c ≠ 0) (hv : Dom c0.beta0 v)
    (h : Regular (wRes w) bb (ofCanon c0 v)) :
    ∃ G : V → V, (∀ᶠ u in 𝓝 v, ∃ c, beamBeam6D (wRes w) bb (ofCanon c0 u) = .ok c ∧ toCanon c = G u) ∧
      SymplecticAt G v := by
  by_cases hen : bb.enabled > 0
  swap
  · refine ⟨fun u => u, ?_, ContinuousLinearMap.id ℝ V, hasFDerivAt_id v, fun a b => rfl⟩
    filter_upwards [hv.eventually] with u hu
    refine ⟨ofCanon c0 u, ?_, toCanon_ofCanon hu⟩
    unfold beamBeam6D
    rw [if_neg hen]
    rfl
  obtain ⟨hok, hf, hfa, h⟩ := h
  have hP : c0.p0c / cLight * qElem ≠ 0 := by
    have : (cLight : ℝ) ≠ 0 := by norm_num [cLight]
    have : (qElem : ℝ) ≠ 0 := by norm_num [qElem, dec]
    positivity
  -- the shift before the boost
  let a : V := (-bb.xCO - bb.deltaX, -bb.pxCO, -bb.yCO - bb.deltaY, -bb.pyCO, -bb.sigmaCO, -bb.deltaCO)
  let a' : V := (bb.xCO + bb.deltaX - bb.dxSub, bb.pxCO - bb.dpxSub, bb.yCO + bb.deltaY - bb.dySub, bb.pyCO - bb.dpySub,
    bb.sigmaCO - bb.dsigmaSub, bb.deltaCO - bb.ddeltaSub)
  have hrel : ∀ u : V, relative bb (ofCanon c0 u) = starOf (chart c0.beta0 u + a) := by
    intro u
    simp only [relative, ofCanon, chart, starOf, a, Prod.fst_add, Prod.snd_add, Beam.Star.mk.injEq]
    refine ⟨?_, ?_, ?_, ?_, ?_, ?_⟩ <;> ring
  rw [hrel] at hf hfa h
  obtain ⟨G1, hG1, hc1⟩ := C56_conformal hok hf hfa
  have e1 := hG1.self_of_nhds
  obtain ⟨hrs, h⟩ := h _ e1
  have m2 := slices_maps hw hP bb.slices hrs
  have hb := m2
  obtain ⟨G2, hG2, hc2⟩ := m2
  have e2 := hG2.self_of_nhds
  obtain ⟨hf2, hfb, h⟩ := h _ e2
  obtain ⟨G3, hG3, hc3⟩ := C56_inverse_conformal hok hf2 hfb
  have e3 := hG3.self_of_nhds
  have hdel := h _ e3
  have hm := (MapsAt.comp (MapsAt.comp ⟨G1, hG1, hc1⟩ e1 hb) (u := G2 (G1 (chart c0.beta0 v + a)))
    (by rw [e1, Res.ok_bind]; exact e2) ⟨G3, hG3, hc3⟩)
  obtain ⟨G, hG, hc⟩ := hm
  have hone : bb.parboost.cphi * (1 * (1 / bb.parboost.cphi)) = 1 := by
    have := hok.pos.ne'
    field_simp
  rw [hone, ← symplecticAt_iff] at hc
  have eG : G (chart c0.beta0 v + a) = G3 (G2 (G1 (chart c0.beta0 v + a))) := by
    have := hG.self_of_nhds
    beta_reduce at this e2
    rw [e1, Res.ok_bind, e2, Res.ok_bind, e3, Res.ok_inj] at this
    exact (starOf_inj this).symm
  have s1 := (chart_symplectic hv).comp (shift_symplectic a _)
  have s2 := (s1.comp hc).comp (shift_symplectic a' _)
  have hd : 0 < 1 + (G (chart c0.beta0 v + a) + a').2.2.2.2.2 := by
    rw [eG]
    have : (starOf (G3 (G2 (G1 (chart c0.beta0 v + a))))).delta + bb.deltaCO - bb.ddeltaSub =
      (G3 (G2 (G1 (chart c0.beta0 v + a))) + a').2.2.2.2.2 := by
      simp only [starOf, a', Prod.snd_add]; ring
    rw [← this]; exact hdel
  refine ⟨_, ?_, s2.comp (back_symplectic hb0 hb1 hd)⟩
  obtain ⟨D, hD, -⟩ := s1
  filter_upwards [hD.continuousAt.eventually hG] with u hu
  obtain ⟨t1, hu, k3⟩ := Res.bind_eq_ok.mp hu
  obtain ⟨t0, k1, k2⟩ := Res.bind_eq_ok.mp hu
  refine ⟨_, beamBeam6D_eq hen (by rw [hrel]; exact k1) k2 k3, ?_⟩
  generalize G (chart c0.beta0 u + a) = g
  have r1 : g.2.2.2.2.2 + bb.deltaCO - bb.ddeltaSub = g.2.2.2.2.2 + (bb.deltaCO - bb.ddeltaSub) := by ring
  have r2 : g.2.2.2.2.1 + bb.sigmaCO - bb.dsigmaSub = g.2.2.2.2.1 + (bb.sigmaCO - bb.dsigmaSub) := by ring
  simp only [toCanon, absolute, updateDelta, back, starOf, a', Prod.fst_add, Prod.snd_add, rOf, ofCanon, Prod.mk.injEq, r1, r2,
      Nat.cast_ofNat, add_sub_cancel]
  exact ⟨by ring, by ring, by ring, by ring, rfl, rfl⟩

/-- Strong beams without charge do nothing. -/
theorem slices_zero {w : ℝ → ℝ → Res (ℝ × ℝ)} {bb : BB6D ℝ} {q0 P0 : ℝ} (hq : bb.qPart = 0) (l : List (Slice ℝ)) :
    ∀ {v u : Beam.Star ℝ}, l.foldlM (sliceKick w bb q0 P0) v = .ok u → u = v := by
  induction l with
  | nil =>
    intro v u h
    rw [List.foldlM_nil, Res.pure_eq, Res.ok_inj] at h
    exact h.symm
  | cons sl l ih =>
    intro v u h
    rw [List.foldlM_cons] at h
    obtain ⟨t, ht, h⟩ := Res.bind_eq_ok.mp h
    obtain ⟨a, b, e, hn⟩ := slice_form ht
    have := hn sl.nPart
    rw [show { sl with nPart := sl.nPart } = sl from rfl, ht, Res.ok_inj, hq] at this
    rw [ih h, this]
    simp

/-- A strong beam of neutral particles, or no slices at all: only the subtraction of the dipolar kick
remains. -/
theorem C60_zero_charge {w : ℝ → ℝ → Res (ℝ × ℝ)} {bb : BB6D ℝ} {c c' : Coord ℝ} (hen : bb.enabled > 0)
    (hok : bb.parboost.Ok) (hf : Forward (relative bb c)) (hfa : ForwardAfter bb.parboost (relative bb c))
    (hq : bb.qPart = 0 ∨ bb.slices = []) (h : beamBeam6D w bb c = .ok c') :
    c' = updateDelta { c with
      x := c.x - bb.dxSub, px := c.px - bb.dpxSub, y := c.y - bb.dySub, py := c.py - bb.dpySub
      zeta := c.zeta - bb.dsigmaSub } (c.delta - bb.ddeltaSub) := by
  obtain ⟨s, h1, h2⟩ := C56_inverse hok hf hfa
  have key : ∀ t, bb.slices.foldlM (sliceKick w bb (qElem * c.q0) (c.p0c / cLight * qElem)) s = .ok t → t = s := by
    intro t ht
    rcases hq with hq | hq
    · exact slices_zero hq _ ht
    · rw [hq, List.foldlM_nil, Res.pure_eq, Res.ok_inj] at ht
      exact ht.symm
  unfold beamBeam6D at h
  rw [if_pos hen] at h
  obtain ⟨s', k1, h⟩ := Res.bind_eq_ok.mp h
  have k1' : boost bb.parboost (relative bb c) = .ok s' := k1
  rw [h1, Res.ok_inj] at k1'
  subst k1'
  obtain ⟨t, k2, g⟩ := Res.bind_eq_ok.mp h
  obtain ⟨r, k3, g'⟩ := Res.bind_eq_ok.mp g
  rw [key t k2, h2, Res.ok_inj] at k3
  rw [Res.pure_eq, Res.ok_inj] at g'
  rw [← g', ← k3]
  simp only [relative]
  congr 2 <;> ring

/-- A disabled element does nothing. -/
theorem C60_disabled {w : ℝ → ℝ → Res (ℝ × ℝ)} {bb : BB6D ℝ} (hen : bb.enabled ≤ 0) (c : Coord ℝ) :
    beamBeam6D w bb c = .ok c := by
  unfold beamBeam6D
  rw [if_neg (not_lt.mpr hen)]
  rfl

/-- A particle which meets a round strong beam on its axis: the code divides by zero. -/
theorem C60_on_axis_violated {w : ℝ → ℝ → Res (ℝ × ℝ)} {bb : BB6D ℝ} {q0 P0 : ℝ} {sl : Slice ℝ} {v : Beam.Star ℝ}
    (hd : AlwaysRound bb.sigmas) (h0 : 0 < bb.threshold) (hm : 0 < bb.minSigmaDiff)
    (hx : v.x + v.px * ((v.sigma - sl.sigma) / 2) = sl.x) (hy : v.y + v.py * ((v.sigma - sl.sigma) / 2) = sl.y) :
    sliceKick w bb q0 P0 v sl = .ub := by
  have hsh := (shape_round (S := (v.sigma - sl.sigma) / 2) h0 hd).ev.self_of_nhds
  unfold sliceKick
  rcases eq_or_ne (P0 * cLight) 0 with hP | hP
  · rw [hP, cdiv_zero]; rfl
  · simp only [half_eq, cdiv_ok hP, Res.ok_bind, hsh, hx, hy, sub_self, neg_zero, zero_mul, add_zero]
    cases csqrt (sA bb.sigmas ((v.sigma - sl.sigma) / 2)) with
    | ok s =>
      simp only [Res.ok_bind, C58_axis_division_violated w hm]
      rfl
    | ub => rfl

/-! ### A case which meets the hypotheses -/

private noncomputable def bbEx (n σ δ : ℝ) : BB6D ℝ :=
  { qPart := 1, parboost := ⟨3 / 5, 4 / 5, 3 / 4, 5 / 13, 12 / 13⟩, sigmas := ⟨4, 1, 1, 1 / 2, 3, 1 / 3, 1, 1, 1 / 5, 2⟩
    minSigmaDiff := 1 / 10, threshold := 1 / 100, deltaX := 0, deltaY := 0, xCO := 0, pxCO := 0, yCO := 0, pyCO := 0
    sigmaCO := 0, deltaCO := 0, dxSub := 0, dpxSub := 0, dySub := 0, dpySub := 0, dsigmaSub := 0, ddeltaSub := δ
    enabled := 1, slices := [⟨n, 1, 2, σ⟩] }

private noncomputable def c0Ex : Coord ℝ :=
  { q0 := 1, mass0 := 1, beta0 := 4 / 5, gamma0 := 5 / 3, p0c := 4 / 3, s := 0, x := 0, y := 0, px := 0, py := 0, zeta := 0
    psigma := 0, delta := 0, rpp := 1, rvv := 1, chi := 1, chargeRatio := 1 }

private noncomputable def vEx : V := (1, 2 / 7, 2, 3 / 7, 3, 0)

private theorem regularEx (n δ : ℝ) {v : Beam.Star ℝ} : RegularSlice (bbEx n v.sigma δ) ⟨n, 1, 2, v.sigma⟩ v := by
  have h1 : Real.sqrt 13 < 4 := by rw [Real.sqrt_lt' (by norm_num)]; norm_num
  have h2 : 3.6 < Real.sqrt 13 := by rw [Real.lt_sqrt (by norm_num)]; norm_num
  have eA : sA (bbEx n v.sigma δ).sigmas 0 = 4 := by norm_num [sA, bbEx]
  have eB : sB (bbEx n v.sigma δ).sigmas 0 = 1 := by norm_num [sB, bbEx]
  have eC : sC (bbEx n v.sigma δ).sigmas 0 = 1 := by norm_num [sC, bbEx]
  have eT : sT (bbEx n v.sigma δ).sigmas 0 = 13 := by rw [sT, eA, eB, eC]; norm_num
  unfold RegularSlice
  simp only [sub_self, zero_div, eA, eB, eT]
  refine ⟨by norm_num [bbEx], by norm_num [bbEx], Or.inl ⟨by norm_num [bbEx], by norm_num [bbEx], by linarith, ?_,
    Or.inr ⟨by norm_num, ?_⟩⟩⟩
  · have a1 : 2 ≤ Real.sqrt ((4 + 1 + Real.sqrt 13) / 2) := by
      rw [Real.le_sqrt' (by norm_num)]; linarith
    have a2 : Real.sqrt ((4 + 1 - Real.sqrt 13) / 2) ≤ 1 := by
      rw [Real.sqrt_le_left (by norm_num)]; linarith
    have a3 : (bbEx n v.sigma δ).minSigmaDiff = 1 / 10 := rfl
    rw [a3]
    linarith
  · have : |(4 : ℝ) - 1| / Real.sqrt 13 < 3 / 3.6 := by
      rw [show |(4 : ℝ) - 1| = 3 by norm_num]
      exact div_lt_div_of_pos_left (by norm_num) (by norm_num) h2
    norm_num [bbEx] at this ⊢
    linarith

example : ∃ (w : ℂ → ℂ) (n σ δ : ℝ), IsFaddeeva w ∧ 0 < n ∧ 0 < c0Ex.beta0 ∧ c0Ex.beta0 ≤ 1 ∧ c0Ex.p0c ≠ 0 ∧
    Dom c0Ex.beta0 vEx ∧ Regular (wRes w) (bbEx n σ δ) (ofCanon c0Ex vEx) := by
  obtain ⟨w, hw⟩ := exists_faddeeva
  have hok : (⟨3 / 5, 4 / 5, 3 / 4, 5 / 13, 12 / 13⟩ : Boost ℝ).Ok := by constructor <;> norm_num
  have ho : opd (4 / 5) 0 = 1 := by norm_num [opd]
  have hrel : ∀ n σ δ, relative (bbEx n σ δ) (ofCanon c0Ex vEx) = ⟨1, 2 / 7, 2, 3 / 7, 3, 0⟩ := by
    intro n σ δ
    norm_num [relative, bbEx, ofCanon, c0Ex, vEx, ho]
  have hz : Real.sqrt ((1 + (0 : ℝ)) ^ 2 - (2 / 7) ^ 2 - (3 / 7) ^ 2) = 6 / 7 := by
    rw [show (1 + (0 : ℝ)) ^ 2 - (2 / 7) ^ 2 - (3 / 7) ^ 2 = (6 / 7 : ℝ) ^ 2 by norm_num]
    exact Real.sqrt_sq (by norm_num)
  have hf : Forward ⟨1, 2 / 7, 2, 3 / 7, 3, 0⟩ := by norm_num [Forward]
  have hfa : ForwardAfter ⟨3 / 5, 4 / 5, 3 / 4, 5 / 13, 12 / 13⟩ ⟨1, 2 / 7, 2, 3 / 7, 3, 0⟩ := by
    unfold ForwardAfter; simp only [hz]; norm_num
  obtain ⟨s, hs, -⟩ := C56_inverse hok hf hfa
  obtain ⟨g1, g2⟩ := C56_forward_after hok hf hfa hs
  have hP : (4 / 3 : ℝ) / cLight * qElem ≠ 0 := by
    have : (cLight : ℝ) ≠ 0 := by norm_num [cLight]
    have : (qElem : ℝ) ≠ 0 := by norm_num [qElem, dec]
    positivity
  obtain ⟨G, hG, -⟩ := C60_slice hw (q0 := qElem * 1) hP (v := ofStar s) (regularEx 1 0 (v := s))
  obtain ⟨a, b, e, hn⟩ := slice_form hG.self_of_nhds
  have hn : ∀ n δ : ℝ, sliceKick (wRes w) (bbEx n s.sigma δ) (qElem * 1) (4 / 3 / cLight * qElem) s ⟨n, 1, 2, s.sigma⟩ =
      .ok ⟨s.x, s.px + n * a, s.y, s.py + n * b, s.sigma,
        s.delta + n * e + (n * a * (s.px + n * a / 2) + n * b * (s.py + n * b / 2)) / 2⟩ := by
    intro n δ
    have := hn n
    simp only [starOf_surj, show (bbEx 1 s.sigma 0).qPart = 1 from rfl, mul_one, sub_self, zero_div, zero_mul, sub_zero] at this ⊢
    exact this
  -- small enough charges
  have ev : ∀ᶠ n : ℝ in 𝓝 0, Forward ⟨s.x, s.px + n * a, s.y, s.py + n * b, s.sigma,
        s.delta + n * e + (n * a * (s.px + n * a / 2) + n * b * (s.py + n * b / 2)) / 2⟩ ∧
      ForwardBefore ⟨3 / 5, 4 / 5, 3 / 4, 5 / 13, 12 / 13⟩ ⟨s.x, s.px + n * a, s.y, s.py + n * b, s.sigma,
        s.delta + n * e + (n * a * (s.px + n * a / 2) + n * b * (s.py + n * b / 2)) / 2⟩ := by
    unfold Forward ForwardBefore at *
    refine Filter.Eventually.and ?_ ?_
    · refine ContinuousAt.eventually_lt (f := fun _ => (0 : ℝ)) (by fun_prop) (by fun_prop) ?_
      simpa using g1
    · refine ContinuousAt.eventually_lt (f := fun _ => (0 : ℝ)) (by fun_prop) (by fun_prop) ?_
      simpa using g2
  obtain ⟨n, hn0, k1, k2⟩ : ∃ n : ℝ, 0 < n ∧ _ := by
    obtain ⟨n, h1, h2⟩ := ((ev.filter_mono nhdsWithin_le_nhds).and (self_mem_nhdsWithin (a := (0 : ℝ)) (s := Set.Ioi 0))).exists
    exact ⟨n, h2, h1⟩
  obtain ⟨r, hr, -⟩ := C56_inverse_then_boost hok k1 k2
  refine ⟨w, n, s.sigma, r.delta, hw, hn0, by norm_num [c0Ex], by norm_num [c0Ex], by norm_num [c0Ex],
    ⟨by norm_num [vEx, c0Ex], by norm_num [vEx, c0Ex]⟩, hok, ?_, ?_, ?_⟩
  · rw [hrel]; exact hf
  · rw [hrel]; exact hfa
  · rw [hrel]
    intro s' hs'
    have e1 : s' = s := by
      have : boost ⟨3 / 5, 4 / 5, 3 / 4, 5 / 13, 12 / 13⟩ ⟨1, 2 / 7, 2, 3 / 7, 3, 0⟩ = .ok s' := hs'
      rw [hs, Res.ok_inj] at this
      exact this.symm
    subst e1
    refine ⟨⟨regularEx n r.delta, fun u _ => trivial⟩, fun t ht => ?_⟩
    have e2 : t = ⟨s'.x, s'.px + n * a, s'.y, s'.py + n * b, s'.sigma,
        s'.delta + n * e + (n * a * (s'.px + n * a / 2) + n * b * (s'.py + n * b / 2)) / 2⟩ := by
      rw [show (bbEx n s'.sigma r.delta).slices = [(⟨n, 1, 2, s'.sigma⟩ : Slice ℝ)] from rfl] at ht
      rw [List.foldlM_cons] at ht
      have := hn n r.delta
      change (sliceKick (wRes w) (bbEx n s'.sigma r.delta) (qElem * 1) (4 / 3 / cLight * qElem) s' ⟨n, 1, 2, s'.sigma⟩ >>= _) = _ at ht
      rw [this, Res.ok_bind, List.foldlM_nil, Res.pure_eq, Res.ok_inj] at ht
      exact ht.symm
    subst e2
    refine ⟨k1, k2, fun r' hr' => ?_⟩
    have : invBoost ⟨3 / 5, 4 / 5, 3 / 4, 5 / 13, 12 / 13⟩ _ = .ok r' := hr'
    rw [hr, Res.ok_inj] at this
    subst this
    norm_num [bbEx]

/-- A round beam without tilt. -/
example : AlwaysRound ⟨2, 1, 0, 0, 3, 0, 0, 2, 1, 3⟩ := ⟨⟨rfl, rfl, rfl, rfl⟩, rfl, rfl, rfl⟩

end SixTrack
