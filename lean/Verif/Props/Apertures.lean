import Verif.Nan
import Mathlib.Tactic.FieldSimp
import Mathlib.Tactic.Linarith
import Mathlib.Tactic.Positivity

/-!
# C35: apertures keep exactly the particles inside
-/

namespace SixTrack
open Elem Track

/-- The particle comes out unchanged, with success and nothing recorded; it is alive exactly if it was
alive and `inside` holds, and otherwise it is marked as lost. -/
def KeepsExactly {K : Type} (o : Outcome (Coord K) (Record K)) (p : Particle K) (inside : Prop) : Prop :=
  o.status = 0 ∧ o.coord = p.coord ∧ o.write = none ∧
    (o.state = 1 ↔ p.state = 1 ∧ inside) ∧ (o.state ≠ 1 → o.state = 0)

namespace Elem

theorem maskState_spec {s : Int} (hs : s = 0 ∨ s = 1) (b : Prop) [Decidable b] :
    (maskState s b = 1 ↔ s = 1 ∧ b) ∧ (maskState s b ≠ 1 → maskState s b = 0) := by
  unfold maskState
  rcases hs with rfl | rfl <;> by_cases hb : b <;> simp [hb]

theorem limited_keeps {K : Type} (p : Particle K) (hp : p.state = 0 ∨ p.state = 1) (b c : Prop)
    [Decidable b] (h : b ↔ c) : KeepsExactly (limited p b) p c := by
  have := maskState_spec hp b
  refine ⟨rfl, rfl, rfl, ?_, this.2⟩
  rw [← h]
  exact this.1

theorem sign_mul_self (x : ℝ) : sign x * x = |x| := by
  unfold sign
  rcases lt_trichotomy x 0 with h | h | h
  · rw [if_neg (not_lt.mpr h.le), if_pos h, abs_of_neg h]; ring
  · subst h; simp
  · rw [if_pos h, if_neg (not_lt.mpr h.le), abs_of_pos h]; ring

end Elem

/-! ### Rectangle -/

theorem C35_rect (cfg : Config ℝ) (l : LimitRect ℝ) (p : Particle ℝ)
    (hp : p.state = 0 ∨ p.state = 1) :
    ∃ o, dispatch cfg (.limitRect l) p = .ok o ∧
      KeepsExactly o p (p.coord.x ∈ Set.Icc l.minX l.maxX ∧ p.coord.y ∈ Set.Icc l.minY l.maxY) := by
  refine ⟨_, rfl, limited_keeps p hp _ _ ?_⟩
  unfold insideRect
  simp only [Set.mem_Icc, ge_iff_le, and_assoc]

example : ∃ p : Particle ℝ, p.state = 1 ∧
    p.coord.x ∈ Set.Icc (-1 : ℝ) 1 ∧ p.coord.y ∈ Set.Icc (0 : ℝ) 1 :=
  ⟨⟨sample, 0, 0, 0, 1⟩, rfl, by simp only [sample, Set.mem_Icc]; norm_num,
    by simp only [sample, Set.mem_Icc]; norm_num⟩

/-! ### Ellipse -/

/-- An ellipse set by its half axes keeps the particles with `(x/a)² + (y/b)² ≤ 1`.  (Both half axes
must be different from zero: see `C35_degenerate_ellipse_violated`.) -/
theorem C35_ellipse_partial (cfg : Config ℝ) (l l' : LimitEllipse ℝ) (a b : ℝ) (ha : a ≠ 0)
    (hb : b ≠ 0) (hset : l.setHalfAxes a b = (0, l')) (p : Particle ℝ)
    (hp : p.state = 0 ∨ p.state = 1) :
    ∃ o, dispatch cfg (.limitEllipse l') p = .ok o ∧
      KeepsExactly o p ((p.coord.x / a) ^ 2 + (p.coord.y / b) ^ 2 ≤ 1) := by
  refine ⟨_, rfl, limited_keeps p hp _ _ ?_⟩
  unfold LimitEllipse.setHalfAxes LimitEllipse.setHalfAxesSqu at hset
  rw [if_pos ⟨mul_self_nonneg a, mul_self_nonneg b⟩] at hset
  cases hset
  unfold insideEllipse
  have h : 0 < a ^ 2 * b ^ 2 := by positivity
  constructor
  · intro hle
    have e : (p.coord.x / a) ^ 2 + (p.coord.y / b) ^ 2 =
        (p.coord.x * p.coord.x * (b * b) + p.coord.y * p.coord.y * (a * a)) / (a ^ 2 * b ^ 2) := by
      field_simp
    rw [e, div_le_one h]
    calc _ ≤ a * a * (b * b) := hle
      _ = _ := by ring
  · intro hle
    have e : p.coord.x * p.coord.x * (b * b) + p.coord.y * p.coord.y * (a * a) =
        ((p.coord.x / a) ^ 2 + (p.coord.y / b) ^ 2) * (a ^ 2 * b ^ 2) := by
      field_simp
    show p.coord.x * p.coord.x * (b * b) + p.coord.y * p.coord.y * (a * a) ≤ a * a * (b * b)
    rw [e]
    calc _ ≤ 1 * (a ^ 2 * b ^ 2) := mul_le_mul_of_nonneg_right hle h.le
      _ = _ := by ring

/-- The setter accepts every pair of half axes. -/
theorem C35_set_half_axes (l : LimitEllipse ℝ) (a b : ℝ) :
    l.setHalfAxes a b = (0, ⟨a ^ 2, b ^ 2, a ^ 2 * b ^ 2⟩) := by
  unfold LimitEllipse.setHalfAxes LimitEllipse.setHalfAxesSqu
  rw [if_pos ⟨mul_self_nonneg a, mul_self_nonneg b⟩]
  simp only [pow_two]

example : ((sample.x / (1 / 2)) ^ 2 + (sample.y / 1) ^ 2 ≤ 1) ∧
    ¬ ((sample.x / (1 / 10)) ^ 2 + (sample.y / 1) ^ 2 ≤ 1) := by
  simp only [sample]; norm_num

/-- With a half axis of length zero in `x` the ellipse is a segment of the `y` axis, but the code keeps
every particle on the `y` axis, however far out. -/
theorem C35_degenerate_ellipse_violated (cfg : Config ℝ) (l : LimitEllipse ℝ) (b y : ℝ) :
    ∃ l' o, l.setHalfAxes 0 b = (0, l') ∧
      dispatch cfg (.limitEllipse l') ⟨{ sample with x := 0, y := y }, 0, 0, 0, 1⟩ = .ok o ∧
      o.state = 1 := by
  refine ⟨_, _, C35_set_half_axes l 0 b, rfl, ?_⟩
  show maskState 1 _ = 1
  unfold maskState
  rw [if_pos]
  · rfl
  · unfold insideEllipse
    simp

/-! ### Rectangle and ellipse -/

/-- A rectangle-ellipse as it is added to a buffer: both conditions hold for the particles it keeps. -/
theorem C35_rect_ellipse_partial (cfg : Config ℝ) (l : LimitRectEllipse ℝ) (maxX maxY a2 b2 : ℝ)
    (ha : 0 < a2) (hb : 0 < b2) (hadd : LimitRectEllipse.added maxX maxY a2 b2 = some l)
    (p : Particle ℝ) (hp : p.state = 0 ∨ p.state = 1) :
    ∃ o, dispatch cfg (.limitRectEllipse l) p = .ok o ∧
      KeepsExactly o p (|p.coord.x| ≤ maxX ∧ |p.coord.y| ≤ maxY ∧
        p.coord.x ^ 2 / a2 + p.coord.y ^ 2 / b2 ≤ 1) := by
  refine ⟨_, rfl, limited_keeps p hp _ _ ?_⟩
  unfold LimitRectEllipse.added at hadd
  split at hadd
  · cases hadd
    unfold insideRectEllipse
    have e : p.coord.x ^ 2 / a2 + p.coord.y ^ 2 / b2 =
        (p.coord.x * p.coord.x * b2 + p.coord.y * p.coord.y * a2) / (a2 * b2) := by
      field_simp
    rw [e, div_le_one (by positivity), abs_le, abs_le]
    constructor
    · rintro ⟨h1, h2, h3, h4, h5⟩
      exact ⟨⟨h2, h1⟩, ⟨h4, h3⟩, h5⟩
    · rintro ⟨⟨h2, h1⟩, ⟨h4, h3⟩, h5⟩
      exact ⟨h1, h2, h3, h4, h5⟩
  · cases hadd

/-- A cleared rectangle-ellipse keeps the ellipse with the default limits as half axes. -/
theorem C35_rect_ellipse_cleared (cfg : Config ℝ) {xl yl : ℝ} (hx : 0 < xl) (hy : 0 < yl) (p : Particle ℝ)
    (hp : p.state = 0 ∨ p.state = 1) :
    ∃ o, dispatch cfg (.limitRectEllipse (LimitRectEllipse.cleared xl yl)) p = .ok o ∧
      KeepsExactly o p ((p.coord.x / xl) ^ 2 + (p.coord.y / yl) ^ 2 ≤ 1) := by
  refine ⟨_, rfl, limited_keeps p hp _ _ ?_⟩
  unfold insideRectEllipse LimitRectEllipse.cleared
  have e : (p.coord.x / xl) ^ 2 + (p.coord.y / yl) ^ 2 =
      (p.coord.x * p.coord.x * (yl * yl) + p.coord.y * p.coord.y * (xl * xl)) / (xl * xl * (yl * yl)) := by
    field_simp
  constructor
  · rintro ⟨-, -, -, -, h5⟩
    rw [e, div_le_one (by positivity)]
    exact h5
  · intro h
    have h1 : (p.coord.x / xl) ^ 2 ≤ 1 := by nlinarith [sq_nonneg (p.coord.y / yl)]
    have h2 : (p.coord.y / yl) ^ 2 ≤ 1 := by nlinarith [sq_nonneg (p.coord.x / xl)]
    rw [sq_le_one_iff_abs_le_one, abs_div, abs_of_pos hx, div_le_one hx, abs_le] at h1
    rw [sq_le_one_iff_abs_le_one, abs_div, abs_of_pos hy, div_le_one hy, abs_le] at h2
    rw [e, div_le_one (by positivity)] at h
    exact ⟨h1.2, h1.1, h2.2, h2.1, h⟩

example : (1 / 2 / 1 : ℝ) ^ 2 + (1 / 2) ^ 2 ≤ 1 := by norm_num

example : ∃ l, LimitRectEllipse.added (1 : ℝ) 1 2 2 = some l := by
  unfold LimitRectEllipse.added
  rw [if_pos (by norm_num)]
  exact ⟨_, rfl⟩

/-- Changing the half axes of a rectangle-ellipse with its setters does not give the ellipse with the
new half axes: the stored product of the squares is not updated.  Here half axes 1 and 1 are replaced by
2 and 2, and the particle at (3/2, 0), inside the new ellipse and inside the rectangle, is lost. -/
theorem C35_set_axes_violated (cfg : Config ℝ) :
    ∃ l : LimitRectEllipse ℝ, LimitRectEllipse.added 10 10 1 1 = some l ∧
      ((l.setA 2).setB 2).aSqu = 2 ^ 2 ∧ ((l.setA 2).setB 2).bSqu = 2 ^ 2 ∧
      ∃ o, dispatch cfg (.limitRectEllipse ((l.setA 2).setB 2))
          ⟨{ sample with x := 3 / 2, y := 0 }, 0, 0, 0, 1⟩ = .ok o ∧
        (|(3 / 2 : ℝ)| ≤ 10 ∧ (3 / 2 : ℝ) ^ 2 / 2 ^ 2 + (0 : ℝ) ^ 2 / 2 ^ 2 ≤ 1) ∧ o.state = 0 := by
  unfold LimitRectEllipse.added
  rw [if_pos (by norm_num)]
  refine ⟨_, rfl, ?_, ?_, _, rfl, ⟨by rw [abs_of_pos] <;> norm_num, by norm_num⟩, ?_⟩
  · simp only [LimitRectEllipse.setA, LimitRectEllipse.setB]; norm_num
  · simp only [LimitRectEllipse.setA, LimitRectEllipse.setB]; norm_num
  · show maskState 1 _ = 0
    unfold maskState
    rw [if_neg]
    rintro ⟨_, _, _, _, h⟩
    simp only [LimitRectEllipse.setA, LimitRectEllipse.setB] at h
    norm_num at h

/-! ### The global aperture check at drifts -/

/-- With the check switched on, a drift keeps exactly the particles that end inside `|x| < X`,
`|y| < Y`; the coordinates are those of the drift. -/
theorem C35_global (cfg : Config ℝ) (hc : cfg.check = .always) (length : ℝ) (exact : Bool)
    (p : Particle ℝ) (hp : p.state = 0 ∨ p.state = 1) :
    ∃ o, dispatch cfg (if exact then .driftExact length else .drift length) p = .ok o ∧
      o.status = 0 ∧
      o.coord = (if exact then driftExact length p.coord else drift length p.coord) ∧
      (o.state = 1 ↔ p.state = 1 ∧ |o.coord.x| < cfg.xLimit ∧ |o.coord.y| < cfg.yLimit) ∧
      (o.state ≠ 1 → o.state = 0) := by
  have key : ∀ c : Coord ℝ, (drifted cfg p length c).status = 0 ∧
      (drifted cfg p length c).coord = c ∧
      ((drifted cfg p length c).state = 1 ↔ p.state = 1 ∧ |c.x| < cfg.xLimit ∧ |c.y| < cfg.yLimit) ∧
      ((drifted cfg p length c).state ≠ 1 → (drifted cfg p length c).state = 0) := by
    intro c
    have hck : checksDrift cfg length := by unfold checksDrift; rw [hc]; trivial
    have hm := maskState_spec hp (insideGlobal cfg.xLimit cfg.yLimit c)
    unfold drifted
    rw [if_pos hck]
    refine ⟨rfl, rfl, ?_, hm.2⟩
    rw [hm.1]
    unfold insideGlobal
    rw [sign_mul_self, sign_mul_self]
  cases exact
  · obtain ⟨h1, h2, h3, h4⟩ := key (drift length p.coord)
    refine ⟨_, rfl, h1, h2, ?_, h4⟩
    rw [h2]; exact h3
  · obtain ⟨h1, h2, h3, h4⟩ := key (driftExact length p.coord)
    refine ⟨_, rfl, h1, h2, ?_, h4⟩
    rw [h2]; exact h3

example : ∃ p : Particle ℝ, p.state = 1 ∧ |(drift 1 p.coord).x| < 1 ∧ ¬ |(drift 3 p.coord).x| < 1 := by
  refine ⟨⟨sample, 0, 0, 0, 1⟩, rfl, ?_, ?_⟩ <;> simp only [drift, sample] <;> rw [abs_of_pos] <;> norm_num

/-- Where the configuration does not ask for the check, a drift loses no particle: always with the setting `never`,
and with the conditional setting for drifts shorter than one metre. -/
theorem C35_global_off (cfg : Config ℝ) (length : ℝ) (hc : cfg.check = .never ∨ cfg.check = .conditional ∧ length < 1)
    (exact : Bool) (p : Particle ℝ) :
    ∃ o, dispatch cfg (if exact then .driftExact length else .drift length) p = .ok o ∧
      o.status = 0 ∧ o.state = p.state ∧
      o.coord = (if exact then driftExact length p.coord else drift length p.coord) := by
  have hck : ¬ checksDrift cfg length := by
    unfold checksDrift
    rcases hc with hc | ⟨hc, hl⟩
    · rw [hc]; exact id
    · rw [hc]; simpa using hl
  have key : ∀ c : Coord ℝ, drifted cfg p length c = moved p c := by
    intro c
    unfold drifted
    rw [if_neg hck]
  cases exact
  · exact ⟨_, rfl, by rw [key]; exact ⟨rfl, rfl, rfl⟩⟩
  · exact ⟨_, rfl, by rw [key]; exact ⟨rfl, rfl, rfl⟩⟩

/-- With the conditional setting drifts of one metre or more are checked. -/
theorem C35_global_conditional (cfg : Config ℝ) (hc : cfg.check = .conditional) (length : ℝ) (hl : 1 ≤ length)
    (exact : Bool) (p : Particle ℝ) (hp : p.state = 0 ∨ p.state = 1) :
    ∃ o, dispatch cfg (if exact then .driftExact length else .drift length) p = .ok o ∧
      (o.state = 1 ↔ p.state = 1 ∧ |o.coord.x| < cfg.xLimit ∧ |o.coord.y| < cfg.yLimit) := by
  have hck : checksDrift cfg length := by
    unfold checksDrift
    rw [hc]
    simpa using hl
  have key : ∀ c : Coord ℝ, (drifted cfg p length c).state = 1 ↔
      p.state = 1 ∧ |(drifted cfg p length c).coord.x| < cfg.xLimit ∧ |(drifted cfg p length c).coord.y| < cfg.yLimit := by
    intro c
    have hm := maskState_spec hp (insideGlobal cfg.xLimit cfg.yLimit c)
    unfold drifted
    rw [if_pos hck]
    refine hm.1.trans ?_
    show p.state = 1 ∧ insideGlobal cfg.xLimit cfg.yLimit c ↔ p.state = 1 ∧ |c.x| < cfg.xLimit ∧ |c.y| < cfg.yLimit
    unfold insideGlobal
    rw [sign_mul_self, sign_mul_self]
  cases exact
  · exact ⟨_, rfl, key _⟩
  · exact ⟨_, rfl, key _⟩

example : ∃ cfg : Config ℝ, cfg.check = .never ∧ cfg.xLimit = 1 :=
  ⟨⟨.never, 0, 1, 1, .enabled, .enabled, .enabled, .enabled⟩, rfl, rfl⟩

/-- With the conditional setting the configured minimal drift length has no effect: a drift of half a
metre is not checked even if the minimal length is zero, so a particle far outside stays alive. -/
theorem C35_min_drift_length_violated (minLength : ℝ) :
    ∃ cfg : Config ℝ, cfg.check = .conditional ∧ cfg.minDriftLength = minLength ∧ cfg.xLimit = 1 ∧
      ∃ o, dispatch cfg (.drift (1 / 2)) ⟨{ sample with x := 100 }, 0, 0, 0, 1⟩ = .ok o ∧
        o.state = 1 ∧ 1 < |o.coord.x| := by
  refine ⟨⟨.conditional, minLength, 1, 1, .enabled, .enabled, .enabled, .enabled⟩, rfl, rfl, rfl,
    _, rfl, ?_⟩
  unfold drifted
  rw [if_neg (by
    intro h
    have h' : ((1 : Nat) : ℝ) ≤ 1 / 2 := h
    norm_num at h')]
  refine ⟨rfl, ?_⟩
  simp only [moved, drift, sample]
  rw [abs_of_pos] <;> norm_num

/-! ### Coordinates that are not numbers -/

/-- A particle whose position is not a number is not kept by any aperture. -/
theorem C35_nan_is_lost (cfg : Config Fl) (p : Particle Fl)
    (hn : p.coord.x = .nan ∨ p.coord.y = .nan) (e : Element Fl)
    (he : (∃ l, e = .limitRect l) ∨ (∃ l, e = .limitEllipse l) ∨ (∃ l, e = .limitRectEllipse l)) :
    ∃ o, dispatch cfg e p = .ok o ∧ o.status = 0 ∧ o.coord = p.coord ∧ o.state = 0 := by
  have key : ∀ (b : Prop) [Decidable b], ¬ b → maskState p.state b = 0 := by
    intro b _ hb
    unfold maskState
    rw [if_neg hb]
  rcases he with ⟨l, rfl⟩ | ⟨l, rfl⟩ | ⟨l, rfl⟩
  · refine ⟨_, rfl, rfl, rfl, key _ ?_⟩
    unfold insideRect
    rcases hn with h | h <;> rw [h] <;> simp
  · refine ⟨_, rfl, rfl, rfl, key _ ?_⟩
    unfold insideEllipse
    rcases hn with h | h <;> rw [h] <;> simp
  · refine ⟨_, rfl, rfl, rfl, key _ ?_⟩
    unfold insideRectEllipse
    rcases hn with h | h <;> rw [h] <;> simp

/-- An exact drift of a particle that has too much transverse momentum to move forward (the argument of
the root is negative) gives a NaN, and the global aperture check loses the particle at that drift. -/
theorem C35_exact_drift_beyond_horizon_is_lost (cfg : Config Fl) (hc : cfg.check = .always)
    (length delta px py : ℝ) (h : (delta + 1) ^ 2 < px ^ 2 + py ^ 2) (p : Particle Fl)
    (hd : p.coord.delta = .num delta) (hx : p.coord.px = .num px) (hy : p.coord.py = .num py) :
    ∃ o, dispatch cfg (.driftExact (.num length)) p = .ok o ∧ o.status = 0 ∧
      o.coord.x = .nan ∧ o.state = 0 := by
  have hck : checksDrift cfg (.num length) := by unfold checksDrift; rw [hc]; trivial
  have hx' : (driftExact (.num length) p.coord).x = .nan := by
    simp only [driftExact, hd, hx, hy, Fl.one_eq, Fl.num_add, Fl.num_mul, Fl.num_sub]
    rw [show sqrt (Fl.num ((delta + 1) * (delta + 1) - (px * px + py * py))) = Fl.nan from
      Fl.sqrt_neg _ (by nlinarith)]
    simp
  refine ⟨_, rfl, ?_⟩
  unfold drifted
  rw [if_pos hck]
  refine ⟨rfl, hx', ?_⟩
  show maskState _ _ = 0
  unfold maskState
  rw [if_neg]
  unfold insideGlobal
  rw [hx']
  simp

example : ((0 : ℝ) + 1) ^ 2 < 1 ^ 2 + (1 / 10) ^ 2 := by norm_num

end SixTrack
