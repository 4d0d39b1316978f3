import Verif.Props.Elements
import Mathlib.Analysis.Calculus.FDeriv.Prod
import Mathlib.Analysis.Calculus.FDeriv.Pow
import Mathlib.Analysis.Calculus.Deriv.Prod
import Mathlib.Analysis.Calculus.Deriv.Inv
import Mathlib.Analysis.Calculus.Deriv.Pow
import Mathlib.Analysis.Calculus.FDeriv.Comp
import Mathlib.Analysis.Calculus.FDeriv.RestrictScalars
import Mathlib.Analysis.SpecialFunctions.Sqrt
import Mathlib.Analysis.SpecialFunctions.Trigonometric.Deriv

/-!
# Canonical variables and the symplectic form

The canonical pairs of the tracking variables are `(x, px)`, `(y, py)` and `(sigma, psigma)` with
`sigma = zeta/rvv = s - beta0·c·t`.
-/

namespace SixTrack
namespace Elem

/-- Phase space: `(x, px, y, py, sigma, psigma)`. -/
abbrev V := ℝ × ℝ × ℝ × ℝ × ℝ × ℝ

/-- The symplectic form `dx∧dpx + dy∧dpy + dsigma∧dpsigma`. -/
def omega (a b : V) : ℝ :=
  (a.1 * b.2.1 - a.2.1 * b.1) + (a.2.2.1 * b.2.2.2.1 - a.2.2.2.1 * b.2.2.1) +
    (a.2.2.2.2.1 * b.2.2.2.2.2 - a.2.2.2.2.2 * b.2.2.2.2.1)

/-- `G` is differentiable at `v` and its derivative preserves the symplectic form. -/
def SymplecticAt (G : V → V) (v : V) : Prop :=
  ∃ D : V →L[ℝ] V, HasFDerivAt G D v ∧ ∀ a b, omega (D a) (D b) = omega a b

/-- `1 + delta` as a function of `psigma`. -/
noncomputable def opd (beta0 p : ℝ) : ℝ := Real.sqrt (1 + 2 * p + beta0 ^ 2 * p ^ 2)

/-- Canonical variables of a particle. -/
noncomputable def toCanon (c : Coord ℝ) : V := (c.x, c.px, c.y, c.py, c.zeta / c.rvv, c.psigma)

/-- The consistent particle with the given canonical variables; reference quantities from `c0`. -/
noncomputable def ofCanon (c0 : Coord ℝ) (v : V) : Coord ℝ :=
  { c0 with
    x := v.1, px := v.2.1, y := v.2.2.1, py := v.2.2.2.1
    zeta := v.2.2.2.2.1 * (opd c0.beta0 v.2.2.2.2.2 / (1 + c0.beta0 ^ 2 * v.2.2.2.2.2))
    psigma := v.2.2.2.2.2
    delta := opd c0.beta0 v.2.2.2.2.2 - 1
    rpp := 1 / opd c0.beta0 v.2.2.2.2.2
    rvv := opd c0.beta0 v.2.2.2.2.2 / (1 + c0.beta0 ^ 2 * v.2.2.2.2.2) }

/-- The particle moves. -/
def Dom (beta0 : ℝ) (v : V) : Prop :=
  0 < 1 + 2 * v.2.2.2.2.2 + beta0 ^ 2 * v.2.2.2.2.2 ^ 2 ∧ 0 < 1 + beta0 ^ 2 * v.2.2.2.2.2

/-- A map in canonical variables. -/
noncomputable def inCanon (F : Coord ℝ → Coord ℝ) (c0 : Coord ℝ) (v : V) : V := toCanon (F (ofCanon c0 v))

theorem Dom.opd_pos {b : ℝ} {v : V} (h : Dom b v) : 0 < opd b v.2.2.2.2.2 := Real.sqrt_pos.mpr h.1

theorem Dom.eventually {b : ℝ} {v : V} (h : Dom b v) : ∀ᶠ w in nhds v, Dom b w := by
  apply Filter.Eventually.and
  · have hc : Continuous (fun w : V => 1 + 2 * w.2.2.2.2.2 + b ^ 2 * w.2.2.2.2.2 ^ 2) := by fun_prop
    exact hc.continuousAt.eventually (lt_mem_nhds h.1)
  · have hc : Continuous (fun w : V => 1 + b ^ 2 * w.2.2.2.2.2) := by fun_prop
    exact hc.continuousAt.eventually (lt_mem_nhds h.2)

theorem SymplecticAt.congr {G H : V → V} {v : V} (h : SymplecticAt G v)
    (e : ∀ᶠ w in nhds v, H w = G w) : SymplecticAt H v := by
  obtain ⟨D, hD, hw⟩ := h
  exact ⟨D, hD.congr_of_eventuallyEq e, hw⟩

theorem SymplecticAt.comp {G H : V → V} {v : V} (h : SymplecticAt G v) (h' : SymplecticAt H (G v)) :
    SymplecticAt (fun w => H (G w)) v := by
  obtain ⟨D, hD, hw⟩ := h
  obtain ⟨D', hD', hw'⟩ := h'
  refine ⟨D'.comp D, hD'.comp v hD, fun a b => ?_⟩
  rw [ContinuousLinearMap.comp_apply, ContinuousLinearMap.comp_apply, hw', hw]

/-- It is enough to know the derivatives along lines of a differentiable map. -/
theorem symplecticAt_of_lines {G : V → V} {v : V} (hd : DifferentiableAt ℝ G v) (D : V → V)
    (hl : ∀ w, HasDerivAt (fun t : ℝ => G (v + t • w)) (D w) 0)
    (hw : ∀ a b, omega (D a) (D b) = omega a b) : SymplecticAt G v := by
  obtain ⟨L, hL⟩ := hd
  refine ⟨L, hL, fun a b => ?_⟩
  have key : ∀ w, L w = D w := by
    intro w
    have h1 : HasDerivAt (fun t : ℝ => v + t • w) w 0 := by
      have := ((hasDerivAt_id (0 : ℝ)).smul_const w).const_add v
      simpa using this
    have h2 : HasFDerivAt G L (v + (0 : ℝ) • w) := by simpa using hL
    exact (h2.comp_hasDerivAt 0 h1).unique (hl w)
  rw [key, key]; exact hw a b

theorem toCanon_ofCanon {c0 : Coord ℝ} {v : V} (h : Dom c0.beta0 v) : toCanon (ofCanon c0 v) = v := by
  have h1 := h.opd_pos
  have h2 := h.2
  unfold toCanon ofCanon
  dsimp only
  rw [mul_div_assoc, div_self (by positivity), mul_one]

theorem opd_sq {b : ℝ} {v : V} (h : Dom b v) :
    opd b v.2.2.2.2.2 ^ 2 = 1 + 2 * v.2.2.2.2.2 + b ^ 2 * v.2.2.2.2.2 ^ 2 := Real.sq_sqrt h.1.le

theorem ofCanon_consistent {c0 : Coord ℝ} {v : V} (hb : 0 < c0.beta0) (h : Dom c0.beta0 v) :
    Consistent (ofCanon c0 v) := by
  have h1 := h.opd_pos
  have h2 := h.2
  constructor <;> simp only [ofCanon]
  · exact hb
  · linarith
  · exact h2
  · rw [add_sub_cancel, opd_sq h]; ring
  · rw [add_sub_cancel]; field_simp
  · rw [add_sub_cancel]; field_simp

/-- A consistent particle is determined by its canonical variables. -/
theorem ofCanon_toCanon {c : Coord ℝ} (h : Consistent c) : ofCanon c (toCanon c) = c := by
  obtain ⟨hb, hd, he, hdisp, hrpp, hrvv⟩ := h
  have ho : opd c.beta0 c.psigma = 1 + c.delta := by
    unfold opd
    rw [show 1 + 2 * c.psigma + c.beta0 ^ 2 * c.psigma ^ 2 = (1 + c.delta) ^ 2 by rw [hdisp]; ring]
    exact Real.sqrt_sq hd.le
  have hv : c.rvv = (1 + c.delta) / (1 + c.beta0 ^ 2 * c.psigma) := by
    field_simp; linear_combination hrvv
  have hp : c.rpp = 1 / (1 + c.delta) := by field_simp; linear_combination hrpp
  have hv' : c.rvv ≠ 0 := by rw [hv]; positivity
  unfold ofCanon toCanon
  dsimp only
  rw [ho, ← hv]
  ext <;> dsimp only
  · field_simp
  · ring
  · exact hp.symm

theorem toCanon_dom {c : Coord ℝ} (h : Consistent c) : Dom c.beta0 (toCanon c) := by
  obtain ⟨hb, hd, he, hdisp, hrpp, hrvv⟩ := h
  refine ⟨?_, he⟩
  show 0 < 1 + 2 * c.psigma + c.beta0 ^ 2 * c.psigma ^ 2
  have : 1 + 2 * c.psigma + c.beta0 ^ 2 * c.psigma ^ 2 = (1 + c.delta) ^ 2 := by rw [hdisp]; ring
  rw [this]; positivity

theorem differentiableAt_opd {b p : ℝ} (h : 0 < 1 + 2 * p + b ^ 2 * p ^ 2) :
    DifferentiableAt ℝ (opd b) p := by
  unfold opd
  exact DifferentiableAt.sqrt (by fun_prop) h.ne'

theorem hasDerivAt_opd {b p w : ℝ} (h : 0 < 1 + 2 * p + b ^ 2 * p ^ 2) :
    HasDerivAt (fun t : ℝ => opd b (p + t * w)) ((1 + b ^ 2 * p) * w / opd b p) 0 := by
  have hr : 0 < opd b p := Real.sqrt_pos.mpr h
  have h0 : HasDerivAt (fun t : ℝ => p + t * w) w 0 := by
    have := ((hasDerivAt_id (0 : ℝ)).mul_const w).const_add p
    simpa using this
  have h1 : HasDerivAt (fun t : ℝ => 1 + 2 * (p + t * w) + b ^ 2 * (p + t * w) ^ 2)
      (2 * w + b ^ 2 * (2 * p * w)) 0 := by
    have := ((h0.const_mul 2).const_add 1).add ((h0.pow 2).const_mul (b ^ 2))
    refine HasDerivAt.congr_deriv (f := fun t : ℝ => 1 + 2 * (p + t * w) + b ^ 2 * (p + t * w) ^ 2) this ?_
    norm_num
  have h2 := h1.sqrt (by simpa using h.ne')
  unfold opd at hr ⊢
  refine h2.congr_deriv ?_
  simp only [zero_mul, add_zero]
  field_simp

end Elem
end SixTrack
