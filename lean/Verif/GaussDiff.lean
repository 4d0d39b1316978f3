import Verif.GaussUnified
import Verif.SliceForm

/-!
# The field of an elliptic beam as a differentiable function of four variables
-/

namespace SixTrack
namespace Beam

open Complex Elem

abbrev R4 := ℝ × ℝ × ℝ × ℝ

theorem fdiv {𝕂 : Type} [NontriviallyNormedField 𝕂] [NormedAlgebra ℝ 𝕂] {f g : R4 → 𝕂} {z : R4}
    (hf : DifferentiableAt ℝ f z) (hg : DifferentiableAt ℝ g z) (h : g z ≠ 0) :
    DifferentiableAt ℝ (fun z => f z / g z) z := by
  simp only [div_eq_mul_inv]
  exact hf.fun_mul (hg.inv h)

section
variable {w : ℂ → ℂ} (hw : IsFaddeeva w) {z : R4} (hB : 0 < z.2.2.2) (hAB : z.2.2.2 < z.2.2.1)
include hB hAB

omit hB in
theorem diff_sOf : DifferentiableAt ℝ (fun z : R4 => sOf z.2.2.1 z.2.2.2) z := by
  unfold sOf
  have : 2 * (z.2.2.1 - z.2.2.2) ≠ 0 := by linarith
  fun_prop (disch := assumption)

theorem diff_kRatio : DifferentiableAt ℝ (fun z : R4 => kRatio z.2.2.1 z.2.2.2) z := by
  unfold kRatio
  have h1 : z.2.2.1 ≠ 0 := by linarith
  have h2 : z.2.2.2 ≠ 0 := by linarith
  have h3 : Real.sqrt z.2.2.1 ≠ 0 := (Real.sqrt_pos.mpr (by linarith)).ne'
  fun_prop (disch := assumption)

omit hB in
theorem diff_fact : DifferentiableAt ℝ (fun z : R4 => fact z.2.2.1 z.2.2.2) z := by
  have h := diff_sOf hAB
  have hs : 0 < sOf z.2.2.1 z.2.2.2 := Real.sqrt_pos.mpr (by linarith)
  have he := eps0_pos
  have hp : 0 < Real.sqrt Real.pi := Real.sqrt_pos.mpr Real.pi_pos
  have hn : 2 * eps0 * Real.sqrt Real.pi * sOf z.2.2.1 z.2.2.2 ≠ 0 := by positivity
  unfold fact
  have hd : DifferentiableAt ℝ (fun z : R4 => 2 * eps0 * Real.sqrt Real.pi * sOf z.2.2.1 z.2.2.2) z := by fun_prop
  exact fdiv (g := fun z : R4 => 2 * eps0 * Real.sqrt Real.pi * sOf z.2.2.1 z.2.2.2) (differentiableAt_const (1 : ℝ)) hd hn

theorem diff_xExp : DifferentiableAt ℝ (fun z : R4 => xExp z.1 z.2.1 z.2.2.1 z.2.2.2) z := by
  unfold xExp
  have h1 : 2 * z.2.2.1 ≠ 0 := by linarith
  have h2 : 2 * z.2.2.2 ≠ 0 := by linarith
  fun_prop (disch := assumption)

omit hB hAB in
theorem diff_ofReal {f : R4 → ℝ} {z : R4} (h : DifferentiableAt ℝ f z) : DifferentiableAt ℝ (fun z => (f z : ℂ)) z :=
  Complex.ofRealCLM.differentiableAt.comp z h

omit hB in
theorem diff_zeta : DifferentiableAt ℝ (fun z : R4 => zetaC z.1 z.2.1 z.2.2.1 z.2.2.2) z := by
  have hs : 0 < sOf z.2.2.1 z.2.2.2 := Real.sqrt_pos.mpr (by linarith)
  have h := diff_ofReal (diff_sOf hAB)
  have h1 : DifferentiableAt ℝ (fun z : R4 => (z.1 : ℂ)) z := diff_ofReal (by fun_prop)
  have h2 : DifferentiableAt ℝ (fun z : R4 => (z.2.1 : ℂ)) z := diff_ofReal (by fun_prop)
  have hn : ((sOf z.2.2.1 z.2.2.2 : ℝ) : ℂ) ≠ 0 := by exact_mod_cast hs.ne'
  unfold zetaC
  exact fdiv (g := fun z : R4 => (sOf z.2.2.1 z.2.2.2 : ℂ)) (h1.fun_add (h2.mul_const I)) h hn

theorem diff_eta : DifferentiableAt ℝ (fun z : R4 => etaC z.1 z.2.1 z.2.2.1 z.2.2.2) z := by
  have hs : 0 < sOf z.2.2.1 z.2.2.2 := Real.sqrt_pos.mpr (by linarith)
  have hk : 0 < kRatio z.2.2.1 z.2.2.2 := div_pos (Real.sqrt_pos.mpr hB) (Real.sqrt_pos.mpr (by linarith))
  have h := diff_ofReal (diff_sOf hAB)
  have h' := diff_ofReal (diff_kRatio hB hAB)
  have h1 : DifferentiableAt ℝ (fun z : R4 => (z.1 : ℂ)) z := diff_ofReal (by fun_prop)
  have h2 : DifferentiableAt ℝ (fun z : R4 => (z.2.1 : ℂ)) z := diff_ofReal (by fun_prop)
  have hn : ((sOf z.2.2.1 z.2.2.2 : ℝ) : ℂ) ≠ 0 := by exact_mod_cast hs.ne'
  have hn' : ((kRatio z.2.2.1 z.2.2.2 : ℝ) : ℂ) ≠ 0 := by exact_mod_cast hk.ne'
  unfold etaC
  exact fdiv (g := fun z : R4 => (sOf z.2.2.1 z.2.2.2 : ℂ)) ((h'.fun_mul h1).fun_add ((fdiv
    (g := fun z : R4 => (kRatio z.2.2.1 z.2.2.2 : ℂ)) h2 h' hn').mul_const I)) h hn

include hw

theorem diff_fieldC : DifferentiableAt ℝ (fun z : R4 => fieldC w z.1 z.2.1 z.2.2.1 z.2.2.2) z := by
  have hwd : ∀ v, DifferentiableAt ℝ w v := fun v => (hw.deriv v).differentiableAt.restrictScalars ℝ
  have h1 : DifferentiableAt ℝ (fun z : R4 => w (zetaC z.1 z.2.1 z.2.2.1 z.2.2.2)) z :=
    DifferentiableAt.comp z (hwd _) (diff_zeta hAB)
  have h2 : DifferentiableAt ℝ (fun z : R4 => w (etaC z.1 z.2.1 z.2.2.1 z.2.2.2)) z :=
    DifferentiableAt.comp z (hwd _) (diff_eta hB hAB)
  have h3 := diff_ofReal (diff_fact hAB)
  have h4 := diff_ofReal (diff_xExp hB hAB)
  unfold fieldC
  exact h3.fun_mul (h1.fun_sub (h4.fun_mul h2))

theorem diff_eA : DifferentiableAt ℝ (fun z : R4 => eA w z.1 z.2.1 z.2.2.1 z.2.2.2) z :=
  Complex.imCLM.differentiableAt.comp z (diff_fieldC hw hB hAB)

theorem diff_eB : DifferentiableAt ℝ (fun z : R4 => eB w z.1 z.2.1 z.2.2.1 z.2.2.2) z :=
  Complex.reCLM.differentiableAt.comp z (diff_fieldC hw hB hAB)

theorem diff_gA : DifferentiableAt ℝ (fun z : R4 => gA w z.1 z.2.1 z.2.2.1 z.2.2.2) z := by
  have h1 := diff_eA hw hB hAB
  have h2 := diff_eB hw hB hAB
  have h3 := diff_sOf hAB
  have h4 := diff_kRatio hB hAB
  have h5 := diff_xExp hB hAB
  have hs : 0 < sOf z.2.2.1 z.2.2.2 := Real.sqrt_pos.mpr (by linarith)
  have hn : sOf z.2.2.1 z.2.2.2 ^ 2 ≠ 0 := by positivity
  have h6 : DifferentiableAt ℝ (fun z : R4 => 1 / sOf z.2.2.1 z.2.2.2 ^ 2) z :=
    fdiv (g := fun z : R4 => sOf z.2.2.1 z.2.2.2 ^ 2) (differentiableAt_const (1 : ℝ)) (h3.fun_pow 2) hn
  unfold gA
  fun_prop

theorem diff_gB : DifferentiableAt ℝ (fun z : R4 => gB w z.1 z.2.1 z.2.2.1 z.2.2.2) z := by
  have h1 := diff_eA hw hB hAB
  have h2 := diff_eB hw hB hAB
  have h3 := diff_sOf hAB
  have h4 := diff_kRatio hB hAB
  have h5 := diff_xExp hB hAB
  have hk : 0 < kRatio z.2.2.1 z.2.2.2 := div_pos (Real.sqrt_pos.mpr hB) (Real.sqrt_pos.mpr (by linarith))
  have hs : 0 < sOf z.2.2.1 z.2.2.2 := Real.sqrt_pos.mpr (by linarith)
  have hn : sOf z.2.2.1 z.2.2.2 ^ 2 ≠ 0 := by positivity
  have h6 : DifferentiableAt ℝ (fun z : R4 => 1 / sOf z.2.2.1 z.2.2.2 ^ 2) z :=
    fdiv (g := fun z : R4 => sOf z.2.2.1 z.2.2.2 ^ 2) (differentiableAt_const (1 : ℝ)) (h3.fun_pow 2) hn
  have h7 : DifferentiableAt ℝ (fun z : R4 => xExp z.1 z.2.1 z.2.2.1 z.2.2.2 / kRatio z.2.2.1 z.2.2.2) z :=
    fdiv (g := fun z : R4 => kRatio z.2.2.1 z.2.2.2) h5 h4 hk.ne'
  unfold gB
  fun_prop

end

/-- The exchange of the axes. -/
def swap4 (z : R4) : R4 := (z.2.1, z.1, z.2.2.2, z.2.2.1)

theorem diff_swap (z : R4) : DifferentiableAt ℝ swap4 z := by
  unfold swap4
  fun_prop

section
variable {w : ℂ → ℂ} (hw : IsFaddeeva w) {z : R4} (hP : 0 < z.2.2.1) (hQ : 0 < z.2.2.2) (hne : z.2.2.1 ≠ z.2.2.2)
include hP hQ hne

omit hP hQ in
theorem diff_cases {f g : Fun4}
    (hf : z.2.2.2 < z.2.2.1 → DifferentiableAt ℝ (fun z : R4 => f z.1 z.2.1 z.2.2.1 z.2.2.2) z)
    (hg : z.2.2.1 < z.2.2.2 → DifferentiableAt ℝ (fun z : R4 => g z.1 z.2.1 z.2.2.1 z.2.2.2) (swap4 z)) :
    DifferentiableAt ℝ (fun z : R4 => if z.2.2.2 < z.2.2.1 then f z.1 z.2.1 z.2.2.1 z.2.2.2 else
      g z.2.1 z.1 z.2.2.2 z.2.2.1) z := by
  have c1 : Continuous fun z : R4 => z.2.2.1 := by fun_prop
  have c2 : Continuous fun z : R4 => z.2.2.2 := by fun_prop
  rcases lt_or_gt_of_ne hne with h | h
  · have hev : ∀ᶠ s in nhds z, s.2.2.1 < s.2.2.2 := (isOpen_lt c1 c2).mem_nhds h
    refine ((hg h).comp z (diff_swap z)).congr_of_eventuallyEq ?_
    filter_upwards [hev] with s hs
    rw [if_neg (not_lt.mpr hs.le)]
    rfl
  · have hev : ∀ᶠ s in nhds z, s.2.2.2 < s.2.2.1 := (isOpen_lt c2 c1).mem_nhds h
    refine (hf h).congr_of_eventuallyEq ?_
    filter_upwards [hev] with s hs
    rw [if_pos hs]

include hw

theorem diff_gauss :
    DifferentiableAt ℝ (fun z : R4 => exG w z.1 z.2.1 z.2.2.1 z.2.2.2) z ∧
    DifferentiableAt ℝ (fun z : R4 => eyG w z.1 z.2.1 z.2.2.1 z.2.2.2) z ∧
    DifferentiableAt ℝ (fun z : R4 => gxG w z.1 z.2.1 z.2.2.1 z.2.2.2) z ∧
    DifferentiableAt ℝ (fun z : R4 => gyG w z.1 z.2.1 z.2.2.1 z.2.2.2) z := by
  unfold exG eyG gxG gyG
  exact ⟨diff_cases hne (f := eA w) (g := eB w) (diff_eA hw hQ) (fun h => diff_eB hw (z := swap4 z) hP h),
    diff_cases hne (f := eB w) (g := eA w) (diff_eB hw hQ) (fun h => diff_eA hw (z := swap4 z) hP h),
    diff_cases hne (f := gA w) (g := gB w) (diff_gA hw hQ) (fun h => diff_gB hw (z := swap4 z) hP h),
    diff_cases hne (f := gB w) (g := gA w) (diff_gB hw hQ) (fun h => diff_gA hw (z := swap4 z) hP h)⟩

end

/-- The rows of derivatives. -/
theorem row_gauss {w : ℂ → ℂ} (hw : IsFaddeeva w) {x y p q : ℝ} (hp : 0 < p) (hq : 0 < q) (hne : p ≠ q) :
    Row (exG w) x y p q (2 * gxG w x y p q) (mXY w x y p q) (mXP w x y p q) (mXQ w x y p q) ∧
    Row (eyG w) x y p q (mXY w x y p q) (2 * gyG w x y p q) (mYP w x y p q) (mYQ w x y p q) ∧
    Row (gxG w) x y p q (mXP w x y p q) (mYP w x y p q) (mPP w x y p q) (mPQ w x y p q) ∧
    Row (gyG w) x y p q (mXQ w x y p q) (mYQ w x y p q) (mPQ w x y p q) (mQQ w x y p q) := by
  refine ⟨?_, ?_, ?_, ?_⟩ <;> intro cx cy cp cq x' y' p' q' hx hy hp' hq' dx dy dp dq <;> subst hx hy hp' hq'
  · exact (hasDerivAt_gauss hw dx dy dp dq hp hq hne).1
  · exact (hasDerivAt_gauss hw dx dy dp dq hp hq hne).2.1
  · exact (hasDerivAt_gauss hw dx dy dp dq hp hq hne).2.2.1
  · exact (hasDerivAt_gauss hw dx dy dp dq hp hq hne).2.2.2

end Beam
end SixTrack
