import Verif.Canon
import Mathlib.Analysis.Calculus.FDeriv.Symmetric
import Mathlib.Analysis.Calculus.ContDiff.FTaylorSeries
import Mathlib.Analysis.Calculus.ContDiff.Operations

/-!
# Maps of the momenta and their lift to phase space
-/

namespace SixTrack
namespace Elem

/-- `G` is differentiable at `v` and multiplies the symplectic form by `k`. -/
def ConformalAt (k : ℝ) (G : V → V) (v : V) : Prop :=
  ∃ D : V →L[ℝ] V, HasFDerivAt G D v ∧ ∀ a b, omega (D a) (D b) = k * omega a b

theorem symplecticAt_iff {G : V → V} {v : V} : SymplecticAt G v ↔ ConformalAt 1 G v := by
  unfold SymplecticAt ConformalAt
  simp only [one_mul]

theorem ConformalAt.comp {k l : ℝ} {G H : V → V} {v : V} (h : ConformalAt k G v)
    (h' : ConformalAt l H (G v)) : ConformalAt (l * k) (fun w => H (G w)) v := by
  obtain ⟨D, hD, hw⟩ := h
  obtain ⟨D', hD', hw'⟩ := h'
  refine ⟨D'.comp D, hD'.comp v hD, fun a b => ?_⟩
  rw [ContinuousLinearMap.comp_apply, ContinuousLinearMap.comp_apply, hw', hw, mul_assoc]

theorem ConformalAt.congr {k : ℝ} {G H : V → V} {v : V} (h : ConformalAt k G v)
    (e : ∀ᶠ w in nhds v, H w = G w) : ConformalAt k H v := by
  obtain ⟨D, hD, hw⟩ := h
  exact ⟨D, hD.congr_of_eventuallyEq e, hw⟩

/-- The inverse of a conformal map. -/
theorem ConformalAt.inverse {k : ℝ} (hk : k ≠ 0) {G H : V → V} {v : V} (hH : DifferentiableAt ℝ H v)
    (h : ConformalAt k G (H v)) (e : ∀ᶠ w in nhds v, G (H w) = w) : ConformalAt k⁻¹ H v := by
  obtain ⟨D, hD, hw⟩ := h
  obtain ⟨B, hB⟩ := hH
  refine ⟨B, hB, fun a b => ?_⟩
  have h1 : HasFDerivAt (fun w => G (H w)) (D.comp B) v := hD.comp v hB
  have h2 : HasFDerivAt (fun w => G (H w)) (ContinuousLinearMap.id ℝ V) v :=
    (hasFDerivAt_id v).congr_of_eventuallyEq e
  have h3 : D.comp B = ContinuousLinearMap.id ℝ V := h1.unique h2
  have h4 : ∀ x, D (B x) = x := fun x => by
    have := congrArg (fun L : V →L[ℝ] V => L x) h3
    simpa using this
  have h5 := hw (B a) (B b)
  rw [h4, h4] at h5
  rw [h5]
  field_simp

/-- Three coordinates. -/
abbrev E3 := ℝ × ℝ × ℝ

/-- The positions. -/
def qOf (v : V) : E3 := (v.1, v.2.2.1, v.2.2.2.2.1)

/-- The momenta. -/
def pOf (v : V) : E3 := (v.2.1, v.2.2.2.1, v.2.2.2.2.2)

/-- The scalar product. -/
def dot (a b : E3) : ℝ := a.1 * b.1 + a.2.1 * b.2.1 + a.2.2 * b.2.2

theorem omega_eq (a b : V) : omega a b = dot (qOf a) (pOf b) - dot (qOf b) (pOf a) := by
  simp only [omega, dot, qOf, pOf]; ring

/-- `qOf` as a linear map. -/
noncomputable def qL : V →L[ℝ] E3 :=
  { toFun := qOf, map_add' := fun _ _ => rfl, map_smul' := fun _ _ => rfl
    cont := by unfold qOf; fun_prop }

/-- `pOf` as a linear map. -/
noncomputable def pL : V →L[ℝ] E3 :=
  { toFun := pOf, map_add' := fun _ _ => rfl, map_smul' := fun _ _ => rfl
    cont := by unfold pOf; fun_prop }

theorem hasDerivAt_dot {f g : ℝ → E3} {f' g' : E3} {t : ℝ} (hf : HasDerivAt f f' t)
    (hg : HasDerivAt g g' t) :
    HasDerivAt (fun s => dot (f s) (g s)) (dot f' (g t) + dot (f t) g') t := by
  have f1 : HasDerivAt (fun s => (f s).1) f'.1 t :=
    (ContinuousLinearMap.fst ℝ ℝ (ℝ × ℝ)).hasFDerivAt.comp_hasDerivAt t hf
  have f0 : HasDerivAt (fun s => (f s).2) f'.2 t :=
    (ContinuousLinearMap.snd ℝ ℝ (ℝ × ℝ)).hasFDerivAt.comp_hasDerivAt t hf
  have f2 : HasDerivAt (fun s => (f s).2.1) f'.2.1 t :=
    (ContinuousLinearMap.fst ℝ ℝ ℝ).hasFDerivAt.comp_hasDerivAt t f0
  have f3 : HasDerivAt (fun s => (f s).2.2) f'.2.2 t :=
    (ContinuousLinearMap.snd ℝ ℝ ℝ).hasFDerivAt.comp_hasDerivAt t f0
  have g1 : HasDerivAt (fun s => (g s).1) g'.1 t :=
    (ContinuousLinearMap.fst ℝ ℝ (ℝ × ℝ)).hasFDerivAt.comp_hasDerivAt t hg
  have g0 : HasDerivAt (fun s => (g s).2) g'.2 t :=
    (ContinuousLinearMap.snd ℝ ℝ (ℝ × ℝ)).hasFDerivAt.comp_hasDerivAt t hg
  have g2 : HasDerivAt (fun s => (g s).2.1) g'.2.1 t :=
    (ContinuousLinearMap.fst ℝ ℝ ℝ).hasFDerivAt.comp_hasDerivAt t g0
  have g3 : HasDerivAt (fun s => (g s).2.2) g'.2.2 t :=
    (ContinuousLinearMap.snd ℝ ℝ ℝ).hasFDerivAt.comp_hasDerivAt t g0
  refine (((f1.mul g1).add (f2.mul g2)).add (f3.mul g3)).congr_deriv ?_
  simp only [dot]
  ring

/-- A map which changes the momenta by `f` and the positions such that `q · dp` is multiplied by `k`
multiplies the symplectic form by `k`. -/
theorem conformal_of_lift {k : ℝ} {G : V → V} {v : V} {f : E3 → E3} (hG : DifferentiableAt ℝ G v)
    (hf : ContDiffAt ℝ 2 f (pOf v)) (hp : ∀ᶠ w in nhds v, pOf (G w) = f (pOf w))
    (hq : ∀ᶠ w in nhds v, ∀ b, dot (qOf (G w)) (fderiv ℝ f (pOf w) b) = k * dot (qOf w) b) :
    ConformalAt k G v := by
  obtain ⟨D, hD⟩ := hG
  refine ⟨D, hD, ?_⟩
  have hpv : HasFDerivAt pOf pL v := pL.hasFDerivAt
  have hf1 : DifferentiableAt ℝ f (pOf v) := hf.differentiableAt (by norm_num)
  have hf2 : DifferentiableAt ℝ (fderiv ℝ f) (pOf v) :=
    (hf.fderiv_right (m := 1) (by norm_num)).differentiableAt (by norm_num)
  have hsymm : IsSymmSndFDerivAt ℝ f (pOf v) := hf.isSymmSndFDerivAt (by simp)
  have hDp : ∀ a, pOf (D a) = fderiv ℝ f (pOf v) (pOf a) := by
    intro a
    have h1 : HasFDerivAt (fun w => pOf (G w)) (pL.comp D) v := pL.hasFDerivAt.comp v hD
    have h2 : HasFDerivAt (fun w => f (pOf w)) ((fderiv ℝ f (pOf v)).comp pL) v :=
      hf1.hasFDerivAt.comp v hpv
    have h3 := h1.unique (h2.congr_of_eventuallyEq hp)
    exact congrArg (fun L : V →L[ℝ] E3 => L a) h3
  have key : ∀ a b : V, dot (qOf (D a)) (fderiv ℝ f (pOf v) (pOf b)) +
      dot (qOf (G v)) (fderiv ℝ (fderiv ℝ f) (pOf v) (pOf a) (pOf b)) = k * dot (qOf a) (pOf b) := by
    intro a b
    have hl : HasDerivAt (fun t : ℝ => v + t • a) a 0 := by
      have := ((hasDerivAt_id (0 : ℝ)).smul_const a).const_add v
      simpa using this
    have h0 : v + (0 : ℝ) • a = v := by simp
    have e1 : HasDerivAt (fun t : ℝ => qOf (G (v + t • a))) (qOf (D a)) 0 := by
      have hD0 : HasFDerivAt G D (v + (0 : ℝ) • a) := by rw [h0]; exact hD
      exact (qL.hasFDerivAt.comp _ hD0).comp_hasDerivAt 0 hl
    have e2 : HasDerivAt (fun t : ℝ => fderiv ℝ f (pOf (v + t • a)) (pOf b))
        (fderiv ℝ (fderiv ℝ f) (pOf v) (pOf a) (pOf b)) 0 := by
      have hp0 : HasDerivAt (fun t : ℝ => pOf (v + t • a)) (pOf a) 0 :=
        pL.hasFDerivAt.comp_hasDerivAt 0 hl
      have hf0 : HasFDerivAt (fderiv ℝ f) (fderiv ℝ (fderiv ℝ f) (pOf v)) (pOf (v + (0 : ℝ) • a)) := by
        rw [h0]; exact hf2.hasFDerivAt
      have := hf0.comp_hasDerivAt 0 hp0
      exact this.clm_apply (hasDerivAt_const 0 (pOf b)) |>.congr_deriv (by simp)
    have e3 := hasDerivAt_dot e1 e2
    have hev : ∀ᶠ t in nhds (0 : ℝ), dot (qOf (G (v + t • a))) (fderiv ℝ f (pOf (v + t • a)) (pOf b)) =
        k * dot (qOf (v + t • a)) (pOf b) := by
      have hc : Filter.Tendsto (fun t : ℝ => v + t • a) (nhds 0) (nhds v) := by
        have := hl.continuousAt
        unfold ContinuousAt at this
        simpa using this
      exact (hc.eventually hq).mono fun t ht => ht _
    have e4 : HasDerivAt (fun t : ℝ => k * dot (qOf (v + t • a)) (pOf b)) (k * dot (qOf a) (pOf b)) 0 := by
      have hq0 : HasDerivAt (fun t : ℝ => qOf (v + t • a)) (qOf a) 0 :=
        qL.hasFDerivAt.comp_hasDerivAt 0 hl
      have := (hasDerivAt_dot hq0 (hasDerivAt_const 0 (pOf b))).const_mul k
      refine this.congr_deriv ?_
      simp [dot]
    have e5 := e3.unique (e4.congr_of_eventuallyEq hev)
    simpa using e5
  intro a b
  have h1 := key a b
  have h2 := key b a
  have h3 : fderiv ℝ (fderiv ℝ f) (pOf v) (pOf a) (pOf b) = fderiv ℝ (fderiv ℝ f) (pOf v) (pOf b) (pOf a) :=
    hsymm (pOf a) (pOf b)
  rw [omega_eq, omega_eq, hDp, hDp]
  rw [h3] at h1
  linear_combination h1 - h2

end Elem
end SixTrack
