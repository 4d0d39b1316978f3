import Verif.BoostSymplectic

/-!
# Property C56: the boost of the six-dimensional beam-beam interaction

The boost and the inverse boost are inverse to each other as long as the particle flies forward in
both frames, and the boost multiplies the symplectic form by `1 / cos phi`.
-/

namespace SixTrack
open Beam Elem

/-- `v` flies forward: its longitudinal momentum is positive. -/
def Forward (v : Beam.Star ℝ) : Prop := 0 < (1 + v.delta) ^ 2 - v.px ^ 2 - v.py ^ 2

/-- `v` flies forward in the boosted frame. -/
def ForwardAfter (b : Boost ℝ) (v : Beam.Star ℝ) : Prop :=
  (v.px * b.calpha + v.py * b.salpha) * b.tphi < Real.sqrt ((1 + v.delta) ^ 2 - v.px ^ 2 - v.py ^ 2)

/-- `v`, a particle of the boosted frame, flies forward in the original frame. -/
def ForwardBefore (b : Boost ℝ) (v : Beam.Star ℝ) : Prop :=
  0 < b.cphi ^ 2 * Real.sqrt ((1 + v.delta) ^ 2 - v.px ^ 2 - v.py ^ 2) +
    b.sphi * (v.px * b.calpha + v.py * b.salpha) + b.sphi ^ 2 * (1 + v.delta)

/-- The boost is defined, and the inverse boost undoes it. -/
theorem C56_inverse {b : Boost ℝ} (hb : b.Ok) {v : Beam.Star ℝ} (h : Forward v) (hs : ForwardAfter b v) :
    ∃ s, boost b v = .ok s ∧ invBoost b s = .ok v := by
  have h1 : 0 < pz v := Real.sqrt_pos.mpr h
  have h2 : 0 < pzStar b v := sub_pos.mpr hs
  exact ⟨_, boost_eq hb h1 h2, invBoost_boost hb h1 h2⟩

/-- The inverse boost is defined, and the boost undoes it. -/
theorem C56_inverse_then_boost {b : Boost ℝ} (hb : b.Ok) {v : Beam.Star ℝ} (h : Forward v)
    (hs : ForwardBefore b v) : ∃ s, invBoost b v = .ok s ∧ boost b s = .ok v := by
  have h1 : 0 < pz v := Real.sqrt_pos.mpr h
  have h2 : 0 < pzBack b v := hs
  obtain ⟨m1, m2, -⟩ := boost_momenta hb h1 h2
  refine ⟨_, invBoost_eq hb h1 h2, ?_⟩
  rw [boost_eq hb (by rw [m1]; exact h2) (by rw [m2]; exact h1), boost_invBoost hb h1 h2]

/-- A particle which flies forward in both frames does so seen from either side. -/
theorem C56_forward_after {b : Boost ℝ} (hb : b.Ok) {v s : Beam.Star ℝ} (h : Forward v)
    (hs : ForwardAfter b v) (e : boost b v = .ok s) : Forward s ∧ ForwardBefore b s := by
  have h1 : 0 < pz v := Real.sqrt_pos.mpr h
  have h2 : 0 < pzStar b v := sub_pos.mpr hs
  rw [boost_eq hb h1 h2, Res.ok_inj] at e
  obtain ⟨g1, g2⟩ := pz_boost hb h1 h2
  subst e
  constructor
  · exact Real.sqrt_pos.mp (by change 0 < pz _; rw [g1]; exact h2)
  · change 0 < pzBack b _
    rw [g2]; exact h1

/-- The boost multiplies the symplectic form by `1 / cos phi`. -/
theorem C56_conformal {b : Boost ℝ} (hb : b.Ok) {v : V} (h : Forward (starOf v))
    (hs : ForwardAfter b (starOf v)) :
    ∃ G : V → V, (∀ᶠ w in nhds v, boost b (starOf w) = .ok (starOf (G w))) ∧
      ConformalAt (1 / b.cphi) G v := by
  have h1 : 0 < pz (starOf v) := Real.sqrt_pos.mpr h
  have h2 : 0 < pzStar b (starOf v) := sub_pos.mpr hs
  refine ⟨_, ?_, by rw [one_div]; exact boost_conformal hb h1 h2⟩
  have c1 : Continuous fun w : V => pz (starOf w) := by
    unfold pz starOf; fun_prop
  have c2 : Continuous fun w : V => pzStar b (starOf w) := by
    unfold pzStar along pz starOf; fun_prop
  refine ((c1.continuousAt.eventually (lt_mem_nhds h1)).and
    (c2.continuousAt.eventually (lt_mem_nhds h2))).mono fun w hw => ?_
  rw [boost_eq hb hw.1 hw.2]
  rfl

/-- The inverse boost multiplies the symplectic form by `cos phi`. -/
theorem C56_inverse_conformal {b : Boost ℝ} (hb : b.Ok) {v : V} (h : Forward (starOf v))
    (hs : ForwardBefore b (starOf v)) :
    ∃ G : V → V, (∀ᶠ w in nhds v, invBoost b (starOf w) = .ok (starOf (G w))) ∧
      ConformalAt b.cphi G v := by
  have h1 : 0 < pz (starOf v) := Real.sqrt_pos.mpr h
  have h2 : 0 < pzBack b (starOf v) := hs
  refine ⟨_, ?_, invBoost_conformal hb h1 h2⟩
  have c1 : Continuous fun w : V => pz (starOf w) := by
    unfold pz starOf; fun_prop
  have c2 : Continuous fun w : V => pzBack b (starOf w) := by
    unfold pzBack along pz starOf; fun_prop
  refine ((c1.continuousAt.eventually (lt_mem_nhds h1)).and
    (c2.continuousAt.eventually (lt_mem_nhds h2))).mono fun w hw => ?_
  rw [invBoost_eq hb hw.1 hw.2]
  rfl

/-- Without a crossing angle the boost changes nothing. -/
theorem C56_no_crossing {b : Boost ℝ} (h0 : b.sphi = 0) (h1 : b.cphi = 1) (h2 : b.tphi = 0)
    {v : Beam.Star ℝ} (h : Forward v) : boost b v = .ok v := by
  have hp : 0 < Real.sqrt ((1 + v.delta) ^ 2 - v.px ^ 2 - v.py ^ 2) := Real.sqrt_pos.mpr h
  unfold boost
  unfold Forward at h
  have e0 : (1 + v.delta) * (1 + v.delta) - v.px * v.px - v.py * v.py =
    (1 + v.delta) ^ 2 - v.px ^ 2 - v.py ^ 2 := by ring
  simp only [h0, h1, h2, cdiv_ok one_ne_zero, Res.ok_bind, Res.pure_eq, mul_zero, zero_div, sub_zero,
    div_one, add_zero, zero_mul, e0, csqrt_ok h.le, zero_add, one_mul, cdiv_ok hp.ne']

/-- A boost with both angles and a particle with both transverse momenta. -/
private noncomputable def bEx : Boost ℝ := ⟨3 / 5, 4 / 5, 3 / 4, 5 / 13, 12 / 13⟩
private noncomputable def vEx : Beam.Star ℝ := ⟨1, 2 / 7, 2, 3 / 7, 3, 0⟩

private theorem bEx_ok : bEx.Ok := by
  constructor <;> norm_num [bEx]

private theorem vEx_pz : Real.sqrt ((1 + vEx.delta) ^ 2 - vEx.px ^ 2 - vEx.py ^ 2) = 6 / 7 := by
  rw [show (1 + vEx.delta) ^ 2 - vEx.px ^ 2 - vEx.py ^ 2 = (6 / 7 : ℝ) ^ 2 by norm_num [vEx]]
  exact Real.sqrt_sq (by norm_num)

example : bEx.Ok ∧ Forward vEx ∧ ForwardAfter bEx vEx ∧ ForwardBefore bEx vEx := by
  refine ⟨bEx_ok, ?_, ?_, ?_⟩
  · norm_num [Forward, vEx]
  · unfold ForwardAfter; rw [vEx_pz]; norm_num [vEx, bEx]
  · unfold ForwardBefore; rw [vEx_pz]; norm_num [vEx, bEx]

/-- A particle which flies backward after the boost comes back with other momenta: the boosted
longitudinal momentum is `-7/15`, and its root is taken as `7/15`. -/
theorem C56_backward_violated : ∃ (b : Boost ℝ) (v s u : Beam.Star ℝ), b.Ok ∧ Forward v ∧
    ¬ ForwardAfter b v ∧ boost b v = .ok s ∧ invBoost b s = .ok u ∧ u.px ≠ v.px := by
  have q1 : Real.sqrt (9 / 25) = 3 / 5 := by
    rw [show (9 / 25 : ℝ) = (3 / 5) ^ 2 by norm_num]; exact Real.sqrt_sq (by norm_num)
  have q2 : Real.sqrt (49 / 225) = 7 / 15 := by
    rw [show (49 / 225 : ℝ) = (7 / 15) ^ 2 by norm_num]; exact Real.sqrt_sq (by norm_num)
  refine ⟨⟨4 / 5, 3 / 5, 4 / 3, 0, 1⟩, ⟨0, 4 / 5, 0, 0, 0, 0⟩,
    ⟨0, 4 / 9, 0, 0, 0, -16 / 45⟩, ⟨0, 44 / 125, 0, 0, 0, -(16 / 45) + 44 / 125 * (4 / 3) - 8 / 125 * (16 / 9)⟩, ?_, ?_, ?_, ?_, ?_, ?_⟩
  · constructor <;> norm_num
  · norm_num [Forward]
  · unfold ForwardAfter; norm_num [q1]
  · have a1 : csqrt ((9 : ℝ) / 25) = .ok (3 / 5) := by rw [csqrt_ok (by norm_num), q1]
    have a2 : csqrt ((49 : ℝ) / 225) = .ok (7 / 15) := by rw [csqrt_ok (by norm_num), q2]
    unfold boost
    norm_num [a1, a2, cdiv]
  · have a2 : csqrt ((49 : ℝ) / 225) = .ok (7 / 15) := by rw [csqrt_ok (by norm_num), q2]
    unfold invBoost
    norm_num [a2, cdiv]
  · norm_num

end SixTrack
