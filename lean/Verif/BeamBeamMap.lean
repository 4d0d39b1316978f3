import Verif.SliceSymplectic
import Verif.ElementsReal

/-!
# The beam-beam interaction in canonical variables
-/

namespace SixTrack
namespace Beam

open Elem
open scoped Topology

/-- `(zeta, delta)` from `(sigma, psigma)`. -/
noncomputable def chart (b : ℝ) (v : V) : V :=
  (v.1, v.2.1, v.2.2.1, v.2.2.2.1, v.2.2.2.2.1 * (opd b v.2.2.2.2.2 / (1 + b ^ 2 * v.2.2.2.2.2)), opd b v.2.2.2.2.2 - 1)

theorem chart_symplectic {b : ℝ} {v : V} (h : Dom b v) : SymplecticAt (chart b) v := by
  have h1 := h.opd_pos
  have h2 := h.2
  have n1 : 1 + b ^ 2 * v.2.2.2.2.2 ≠ 0 := h2.ne'
  have hq := opd_sq h
  have ho : DifferentiableAt ℝ (fun v : V => opd b v.2.2.2.2.2) v :=
    DifferentiableAt.comp (f := fun v : V => v.2.2.2.2.2) v (differentiableAt_opd h.1) (by fun_prop)
  have hd : DifferentiableAt ℝ (chart b) v := by
    unfold chart
    fun_prop (disch := assumption)
  refine symplecticAt_of_lines hd (fun a => (a.1, a.2.1, a.2.2.1, a.2.2.2.1,
    a.2.2.2.2.1 * (opd b v.2.2.2.2.2 / (1 + b ^ 2 * v.2.2.2.2.2)) + v.2.2.2.2.1 *
      (((1 + b ^ 2 * v.2.2.2.2.2) * a.2.2.2.2.2 / opd b v.2.2.2.2.2 * (1 + b ^ 2 * v.2.2.2.2.2) -
        opd b v.2.2.2.2.2 * (b ^ 2 * a.2.2.2.2.2)) / (1 + b ^ 2 * v.2.2.2.2.2) ^ 2),
    (1 + b ^ 2 * v.2.2.2.2.2) * a.2.2.2.2.2 / opd b v.2.2.2.2.2)) (fun a => ?_) (fun a a' => ?_)
  · have l : ∀ x y : ℝ, HasDerivAt (fun t : ℝ => x + t * y) y 0 := fun x y => by
      have := ((hasDerivAt_id (0 : ℝ)).mul_const y).const_add x
      simpa using this
    have ho := hasDerivAt_opd (w := a.2.2.2.2.2) h.1
    have hl := ((l v.2.2.2.2.2 a.2.2.2.2.2).const_mul (b ^ 2)).const_add 1
    refine ((l v.1 a.1).prodMk ((l v.2.1 a.2.1).prodMk ((l v.2.2.1 a.2.2.1).prodMk ((l v.2.2.2.1 a.2.2.2.1).prodMk
      (((l v.2.2.2.2.1 a.2.2.2.2.1).mul (ho.div hl ?_)).prodMk (ho.sub_const 1)))))).congr_deriv ?_
    · simpa using n1
    · simp only [zero_mul, add_zero, Pi.div_apply]
  · simp only [omega]
    field_simp
    ring

/-- `(sigma, psigma)` from `(zeta, delta)`. -/
noncomputable def rOf (b δ : ℝ) : ℝ := Real.sqrt (δ * b * (δ * b) + 2 * (δ * b) * b + 1)
noncomputable def back (b : ℝ) (v : V) : V :=
  (v.1, v.2.1, v.2.2.1, v.2.2.2.1, v.2.2.2.2.1 / ((1 + v.2.2.2.2.2) / rOf b v.2.2.2.2.2),
    (rOf b v.2.2.2.2.2 - 1) / (b * b))

theorem rad_pos {b δ : ℝ} (h0 : 0 < b) (h1 : b ≤ 1) (hd : 0 < 1 + δ) : 0 < δ * b * (δ * b) + 2 * (δ * b) * b + 1 := by
  have : 0 ≤ 1 - b ^ 2 := by nlinarith
  have : 0 < b ^ 2 * (1 + δ) ^ 2 := by positivity
  nlinarith

theorem back_symplectic {b : ℝ} {v : V} (h0 : 0 < b) (h1 : b ≤ 1) (hd : 0 < 1 + v.2.2.2.2.2) :
    SymplecticAt (back b) v := by
  have hr := rad_pos h0 h1 hd
  have hr1 : 0 < rOf b v.2.2.2.2.2 := Real.sqrt_pos.mpr hr
  have n1 : rOf b v.2.2.2.2.2 ≠ 0 := hr1.ne'
  have n2 : (1 + v.2.2.2.2.2) / rOf b v.2.2.2.2.2 ≠ 0 := (div_pos hd hr1).ne'
  have n3 : b * b ≠ 0 := by positivity
  have ho : DifferentiableAt ℝ (fun v : V => rOf b v.2.2.2.2.2) v := by
    unfold rOf
    exact DifferentiableAt.sqrt (by fun_prop) hr.ne'
  have hd' : DifferentiableAt ℝ (back b) v := by
    unfold back
    fun_prop (disch := assumption)
  refine symplecticAt_of_lines hd' (fun a => (a.1, a.2.1, a.2.2.1, a.2.2.2.1,
    a.2.2.2.2.1 * rOf b v.2.2.2.2.2 / (1 + v.2.2.2.2.2) + v.2.2.2.2.1 *
      (b ^ 2 * (1 + v.2.2.2.2.2) * a.2.2.2.2.2 / rOf b v.2.2.2.2.2 * (1 + v.2.2.2.2.2) -
        rOf b v.2.2.2.2.2 * a.2.2.2.2.2) / (1 + v.2.2.2.2.2) ^ 2,
    (1 + v.2.2.2.2.2) * a.2.2.2.2.2 / rOf b v.2.2.2.2.2)) (fun a => ?_) (fun a a' => ?_)
  · have l : ∀ x y : ℝ, HasDerivAt (fun t : ℝ => x + t * y) y 0 := fun x y => by
      have := ((hasDerivAt_id (0 : ℝ)).mul_const y).const_add x
      simpa using this
    have l6 := l v.2.2.2.2.2 a.2.2.2.2.2
    have lb := l6.mul_const b
    have hrd : HasDerivAt (fun t : ℝ => rOf b (v.2.2.2.2.2 + t * a.2.2.2.2.2))
        (b ^ 2 * (1 + v.2.2.2.2.2) * a.2.2.2.2.2 / rOf b v.2.2.2.2.2) 0 := by
      have := (((lb.mul lb).add ((lb.const_mul 2).mul_const b)).add_const 1).sqrt (by simpa using hr.ne')
      refine this.congr_deriv ?_
      simp only [Pi.add_apply, Pi.mul_apply, zero_mul, add_zero]
      rw [show Real.sqrt (v.2.2.2.2.2 * b * (v.2.2.2.2.2 * b) + 2 * (v.2.2.2.2.2 * b) * b + 1) = rOf b v.2.2.2.2.2 from rfl]
      field_simp
      ring
    refine ((l v.1 a.1).prodMk ((l v.2.1 a.2.1).prodMk ((l v.2.2.1 a.2.2.1).prodMk ((l v.2.2.2.1 a.2.2.2.1).prodMk
      (((l v.2.2.2.2.1 a.2.2.2.2.1).div ((l6.const_add 1).div hrd ?_) ?_).prodMk
        ((hrd.sub_const 1).div_const (b * b))))))).congr_deriv ?_
    · simpa using n1
    · simpa using n2
    · simp only [zero_mul, add_zero, Pi.div_apply, Prod.mk.injEq, true_and]
      refine ⟨?_, ?_⟩
      · field_simp
        ring
      · field_simp
  · simp only [omega]
    field_simp
    ring

theorem shift_symplectic (a v : V) : SymplecticAt (fun w => w + a) v := by
  refine ⟨ContinuousLinearMap.id ℝ V, (hasFDerivAt_id v).add_const a, fun x y => rfl⟩

/-- Near `v` the map is defined and multiplies the symplectic form by `k`. -/
def MapsAt (F : Beam.Star ℝ → Res (Beam.Star ℝ)) (k : ℝ) (v : V) : Prop :=
  ∃ G : V → V, (∀ᶠ u in 𝓝 v, F (starOf u) = .ok (starOf (G u))) ∧ ConformalAt k G v

theorem starOf_inj {u v : V} (h : starOf u = starOf v) : u = v := by
  unfold starOf at h
  injection h with h1 h2 h3 h4 h5 h6
  ext <;> assumption

theorem MapsAt.comp {F H : Beam.Star ℝ → Res (Beam.Star ℝ)} {k l : ℝ} {v u : V} (h : MapsAt F k v)
    (e : F (starOf v) = .ok (starOf u)) (h' : MapsAt H l u) : MapsAt (fun s => F s >>= H) (l * k) v := by
  obtain ⟨G, hG, hc⟩ := h
  obtain ⟨G', hG', hc'⟩ := h'
  have e0 := hG.self_of_nhds
  rw [e, Res.ok_inj] at e0
  have eu := starOf_inj e0
  subst eu
  refine ⟨fun w => G' (G w), ?_, hc.comp hc'⟩
  obtain ⟨D, hD, -⟩ := hc
  filter_upwards [hG, hD.continuousAt.eventually hG'] with w h1 h2
  rw [h1, Res.ok_bind, h2]

theorem starOf_surj (s : Beam.Star ℝ) : starOf (ofStar s) = s := rfl

end Beam
end SixTrack
