import Verif.BeamFieldsReal
import Mathlib.Analysis.SpecialFunctions.Sqrt
import Mathlib.Tactic.LinearCombination
import Mathlib.Tactic.Positivity

/-!
# The principal axes of the transverse beam size: lemmas
-/

namespace SixTrack
namespace Beam

open Elem Filter Topology

theorem mysign_sq (a : ℝ) : mysign a ^ 2 = 1 := by
  unfold mysign
  by_cases h : 0 ≤ a
  · rw [if_pos h, if_neg (not_lt.mpr h)]; norm_num
  · rw [if_neg h, if_pos (not_le.mp h)]; norm_num

theorem mysign_mul (a : ℝ) : mysign a * a = |a| := by
  unfold mysign
  by_cases h : 0 ≤ a
  · rw [if_pos h, if_neg (not_lt.mpr h), abs_of_nonneg h]; ring
  · rw [if_neg h, if_pos (not_le.mp h), abs_of_neg (not_le.mp h)]; ring

theorem mysign_zero : mysign (0 : ℝ) = 1 := by
  unfold mysign; rw [if_pos (le_refl _), if_neg (lt_irrefl _)]; ring

/-- The cosine and the sine of the principal axes of a symmetric matrix with difference `R` of the
diagonal entries and entry `C` beside the diagonal. -/
noncomputable def kOf (σ R C : ℝ) : ℝ := σ * R / Real.sqrt (R ^ 2 + 4 * C ^ 2)
noncomputable def cosOf (σ R C : ℝ) : ℝ := Real.sqrt ((1 + kOf σ R C) / 2)
noncomputable def sinOf (σ R C : ℝ) : ℝ := σ * C / (Real.sqrt (R ^ 2 + 4 * C ^ 2) * cosOf σ R C)

section
variable {σ R C : ℝ} (hσ : σ ^ 2 = 1) (hT : 0 < R ^ 2 + 4 * C ^ 2)
include hσ hT

theorem kOf_sq : kOf σ R C ^ 2 = 1 - 4 * C ^ 2 / (R ^ 2 + 4 * C ^ 2) := by
  unfold kOf
  rw [div_pow, mul_pow, hσ, Real.sq_sqrt hT.le]
  field_simp
  ring

theorem kOf_mem : -1 ≤ kOf σ R C ∧ kOf σ R C ≤ 1 := by
  have h := kOf_sq hσ hT
  have h2 : 0 ≤ 4 * C ^ 2 / (R ^ 2 + 4 * C ^ 2) := by positivity
  exact abs_le.mp ((sq_le_one_iff_abs_le_one _).mp (by linarith))

theorem axes_alg (hk : -1 < kOf σ R C) :
    cosOf σ R C ^ 2 + sinOf σ R C ^ 2 = 1 ∧
    cosOf σ R C ^ 2 - sinOf σ R C ^ 2 = kOf σ R C ∧
    cosOf σ R C * sinOf σ R C = σ * C / Real.sqrt (R ^ 2 + 4 * C ^ 2) ∧ 0 < cosOf σ R C := by
  have h1 : 0 < (1 + kOf σ R C) / 2 := by linarith
  have hc : 0 < cosOf σ R C := Real.sqrt_pos.mpr h1
  have hc2 : cosOf σ R C ^ 2 = (1 + kOf σ R C) / 2 := Real.sq_sqrt h1.le
  have hr : 0 < Real.sqrt (R ^ 2 + 4 * C ^ 2) := Real.sqrt_pos.mpr hT
  have hr2 : Real.sqrt (R ^ 2 + 4 * C ^ 2) ^ 2 = R ^ 2 + 4 * C ^ 2 := Real.sq_sqrt hT.le
  have hk2 := kOf_sq hσ hT
  have hs2 : sinOf σ R C ^ 2 = (1 - kOf σ R C) / 2 := by
    unfold sinOf
    rw [div_pow, mul_pow, mul_pow, hσ, hr2, hc2]
    have h3 : (1 + kOf σ R C) ≠ 0 := by linarith
    have h4 : (1 - kOf σ R C) * (1 + kOf σ R C) = 4 * C ^ 2 / (R ^ 2 + 4 * C ^ 2) := by
      linear_combination -hk2
    field_simp at h4 ⊢
    linear_combination -h4
  refine ⟨by rw [hc2, hs2]; ring, by rw [hc2, hs2]; ring, ?_, hc⟩
  unfold sinOf
  field_simp

/-- The sine as the code computes it. -/
theorem sinOf_eq (hk : -1 < kOf σ R C) :
    sinOf σ R C = σ * mysign C * Real.sqrt ((1 - kOf σ R C) / 2) := by
  obtain ⟨h1, h2, h3, hc⟩ := axes_alg hσ hT hk
  have hs2 : sinOf σ R C ^ 2 = (1 - kOf σ R C) / 2 := by linarith
  rw [← hs2, Real.sqrt_sq_eq_abs]
  have hr : 0 < Real.sqrt (R ^ 2 + 4 * C ^ 2) := Real.sqrt_pos.mpr hT
  unfold sinOf
  have hσ1 : |σ| = 1 := by
    have : |σ| ^ 2 = 1 := by rw [sq_abs, hσ]
    rcases (sq_eq_sq_iff_eq_or_eq_neg.mp (this.trans (one_pow 2).symm)) with h | h
    · exact h
    · have := abs_nonneg σ; linarith
  rw [abs_div, abs_mul, hσ1, abs_of_pos (mul_pos hr hc), ← mysign_mul C]
  have := mysign_sq C
  simp only [div_eq_mul_inv]
  linear_combination -(σ * C * (Real.sqrt (R ^ 2 + 4 * C ^ 2) * cosOf σ R C)⁻¹) * this
end

theorem axes {R C : ℝ → ℝ} {R' C' S σ : ℝ} (hR : HasDerivAt R R' S) (hC : HasDerivAt C C' S)
    (hσ : σ ^ 2 = 1) (hp : 0 ≤ σ * R S) (hT : 0 < R S ^ 2 + 4 * C S ^ 2) :
    let k' := σ * (R' / Real.sqrt (R S ^ 2 + 4 * C S ^ 2) - R S / (2 * Real.sqrt (R S ^ 2 + 4 * C S ^ 2) ^ 3) *
      (2 * R S * R' + 8 * C S * C'))
    (∀ᶠ t in 𝓝 S, 0 < R t ^ 2 + 4 * C t ^ 2 ∧ -1 < kOf σ (R t) (C t)) ∧
    HasDerivAt (fun t => cosOf σ (R t) (C t)) (k' / (4 * cosOf σ (R S) (C S))) S ∧
    (sinOf σ (R S) (C S) ≠ 0 →
      HasDerivAt (fun t => sinOf σ (R t) (C t)) (-k' / (4 * sinOf σ (R S) (C S))) S) ∧
    (C S = 0 → HasDerivAt (fun t => sinOf σ (R t) (C t)) (C' / R S) S) := by
  intro k'
  have hr : 0 < Real.sqrt (R S ^ 2 + 4 * C S ^ 2) := Real.sqrt_pos.mpr hT
  have hr2 : Real.sqrt (R S ^ 2 + 4 * C S ^ 2) ^ 2 = R S ^ 2 + 4 * C S ^ 2 := Real.sq_sqrt hT.le
  have hk0 : 0 ≤ kOf σ (R S) (C S) := div_nonneg hp hr.le
  have dT : HasDerivAt (fun t => R t ^ 2 + 4 * C t ^ 2) (2 * R S * R' + 8 * C S * C') S := by
    have := (hR.pow 2).add ((hC.pow 2).const_mul 4)
    refine this.congr_deriv ?_
    simp only [Nat.cast_ofNat]; ring
  have dr := dT.sqrt hT.ne'
  have dk : HasDerivAt (fun t => kOf σ (R t) (C t)) k' S := by
    have := (hR.const_mul σ).div dr hr.ne'
    refine this.congr_deriv ?_
    simp only [k']
    generalize Real.sqrt (R S ^ 2 + 4 * C S ^ 2) = r at *
    field_simp
  have hk1 : 0 < (1 + kOf σ (R S) (C S)) / 2 := by linarith
  have dc : HasDerivAt (fun t => cosOf σ (R t) (C t)) (k' / (4 * cosOf σ (R S) (C S))) S := by
    have := ((dk.const_add 1).div_const 2).sqrt hk1.ne'
    refine this.congr_deriv ?_
    show _ / (2 * cosOf σ (R S) (C S)) = _
    rw [div_div]; congr 1; ring
  have hc : 0 < cosOf σ (R S) (C S) := Real.sqrt_pos.mpr hk1
  have hev : ∀ᶠ t in 𝓝 S, 0 < R t ^ 2 + 4 * C t ^ 2 ∧ -1 < kOf σ (R t) (C t) :=
    (dT.continuousAt.eventually (lt_mem_nhds hT)).and
      (dk.continuousAt.eventually (lt_mem_nhds (by linarith)))
  have ds := (hC.const_mul σ).div (dr.mul dc) (mul_pos hr hc).ne'
  refine ⟨hev, dc, fun h => ?_, fun h => ?_⟩
  · obtain ⟨D, ds⟩ : ∃ D, HasDerivAt (fun t => sinOf σ (R t) (C t)) D S := ⟨_, ds⟩
    have e : (fun t => sinOf σ (R t) (C t) ^ 2) =ᶠ[𝓝 S] fun t => (1 - kOf σ (R t) (C t)) / 2 := by
      refine hev.mono fun t ht => ?_
      obtain ⟨h1, h2, -⟩ := axes_alg hσ ht.1 ht.2
      show sinOf σ (R t) (C t) ^ 2 = _
      linarith
    have d1 := ds.pow 2
    have d2 := ((dk.const_sub 1).div_const 2).congr_of_eventuallyEq e
    have := d1.unique d2
    refine ds.congr_deriv ?_
    simp only [Nat.cast_ofNat] at this
    field_simp
    linear_combination 2 * this
  · refine ds.congr_deriv ?_
    have hR0 : R S ≠ 0 := by
      intro h0; rw [h, h0] at hT; norm_num at hT
    have hrR : Real.sqrt (R S ^ 2 + 4 * C S ^ 2) = σ * R S := by
      rw [h, show R S ^ 2 + 4 * 0 ^ 2 = (σ * R S) ^ 2 by rw [mul_pow, hσ]; ring]
      exact Real.sqrt_sq hp
    have hc1 : cosOf σ (R S) (C S) = 1 := by
      unfold cosOf kOf
      rw [hrR, div_self (by rw [← hrR]; exact hr.ne')]
      norm_num
    simp only [Pi.mul_apply] at *
    rw [hc1, hrR, h]
    have hσ0 : σ ≠ 0 := by rintro rfl; norm_num at hσ
    field_simp
    ring

/-- The entries of the matrix of the transverse beam size at `S`. -/
def sA (d : Sigmas ℝ) (S : ℝ) : ℝ := d.s11 + 2 * d.s12 * S + d.s22 * S ^ 2
def sB (d : Sigmas ℝ) (S : ℝ) : ℝ := d.s33 + 2 * d.s34 * S + d.s44 * S ^ 2
def sC (d : Sigmas ℝ) (S : ℝ) : ℝ := d.s13 + (d.s14 + d.s23) * S + d.s24 * S ^ 2

/-- The square of the difference of the two principal values. -/
def sT (d : Sigmas ℝ) (S : ℝ) : ℝ := (sA d S - sB d S) ^ 2 + 4 * sC d S ^ 2

/-- The rotation with cosine `c` and sine `s` makes the matrix of the beam size at `S` diagonal with
entries `s1`, `s3`. -/
def Principal (d : Sigmas ℝ) (S s1 s3 c s : ℝ) : Prop :=
  c ^ 2 + s ^ 2 = 1 ∧ sA d S * c ^ 2 + 2 * sC d S * c * s + sB d S * s ^ 2 = s1 ∧
    sA d S * s ^ 2 - 2 * sC d S * c * s + sB d S * c ^ 2 = s3 ∧
    (sB d S - sA d S) * (c * s) + sC d S * (c ^ 2 - s ^ 2) = 0

/-- Derivatives of the entries. -/
def dA (d : Sigmas ℝ) (S : ℝ) : ℝ := 2 * d.s12 + 2 * d.s22 * S
def dB (d : Sigmas ℝ) (S : ℝ) : ℝ := 2 * d.s34 + 2 * d.s44 * S
def dC (d : Sigmas ℝ) (S : ℝ) : ℝ := d.s14 + d.s23 + 2 * d.s24 * S

theorem hasDerivAt_sA (d : Sigmas ℝ) (S : ℝ) : HasDerivAt (sA d) (dA d S) S := by
  have := ((((hasDerivAt_id S).const_mul (2 * d.s12)).const_add d.s11).add
    (((hasDerivAt_id S).pow 2).const_mul d.s22))
  refine this.congr_deriv ?_
  simp only [dA, Nat.cast_ofNat, id]; ring

theorem hasDerivAt_sB (d : Sigmas ℝ) (S : ℝ) : HasDerivAt (sB d) (dB d S) S := by
  have := ((((hasDerivAt_id S).const_mul (2 * d.s34)).const_add d.s33).add
    (((hasDerivAt_id S).pow 2).const_mul d.s44))
  refine this.congr_deriv ?_
  simp only [dB, Nat.cast_ofNat, id]; ring

theorem hasDerivAt_sC (d : Sigmas ℝ) (S : ℝ) : HasDerivAt (sC d) (dC d S) S := by
  have := ((((hasDerivAt_id S).const_mul (d.s14 + d.s23)).const_add d.s13).add
    (((hasDerivAt_id S).pow 2).const_mul d.s24))
  refine this.congr_deriv ?_
  simp only [dC, Nat.cast_ofNat, id]; ring

/-- The derivative of the cosine of twice the angle. -/
noncomputable def dK (σ R C R' C' : ℝ) : ℝ :=
  σ * (R' / Real.sqrt (R ^ 2 + 4 * C ^ 2) - R / (2 * Real.sqrt (R ^ 2 + 4 * C ^ 2) ^ 3) *
      (2 * R * R' + 8 * C * C'))

/-- The regular branch. -/
theorem propagate_regular {d : Sigmas ℝ} {S thr : ℝ} (h0 : 0 < thr) (h1 : thr ≤ 1 / 2) (hT : thr ≤ sT d S) :
    let R := sA d S - sB d S
    let C := sC d S
    let σ := mysign R
    let k' := dK σ R C (dA d S - dB d S) (dC d S)
    let r := Real.sqrt (sT d S)
    let dT := 2 * R * (dA d S - dB d S) + 8 * C * dC d S
    propagate d S thr = .ok
      ⟨(sA d S + sB d S + σ * r) / 2, (sA d S + sB d S - σ * r) / 2, cosOf σ R C, sinOf σ R C,
       (dA d S + dB d S + σ * dT / (2 * r)) / 2, (dA d S + dB d S - σ * dT / (2 * r)) / 2,
       k' / (4 * cosOf σ R C),
       if |sinOf σ R C| < thr then dC d S / R else -k' / (4 * sinOf σ R C)⟩ := by
  intro R C σ k' r dT
  have hT0 : 0 < sT d S := lt_of_lt_of_le h0 hT
  have hT' : 0 < R ^ 2 + 4 * C ^ 2 := hT0
  have hr : 0 < r := Real.sqrt_pos.mpr hT0
  have hσ : σ ^ 2 = 1 := mysign_sq R
  have hk0 : 0 ≤ kOf σ R C := div_nonneg (by rw [mysign_mul]; exact abs_nonneg _) hr.le
  have hk : -1 < kOf σ R C := by linarith
  obtain ⟨g1, g2, g3, hc⟩ := axes_alg hσ hT' hk
  have hs := sinOf_eq hσ hT' hk
  have hk1 := (kOf_mem hσ hT').2
  have er : d.s11 + (2 : ℝ) * d.s12 * S + d.s22 * S * S - (d.s33 + (2 : ℝ) * d.s34 * S + d.s44 * S * S) = R := by
    simp only [R, sA, sB]; ring
  have ew : d.s11 + (2 : ℝ) * d.s12 * S + d.s22 * S * S + (d.s33 + (2 : ℝ) * d.s34 * S + d.s44 * S * S) = sA d S + sB d S := by
    simp only [sA, sB]; ring
  have ec : d.s13 + (d.s14 + d.s23) * S + d.s24 * S * S = C := by
    simp only [C, sC]; ring
  have et : R * R + 4 * C * C = sT d S := by simp only [sT, R, C]; ring
  have edr : 2 * (d.s12 - d.s34) + 2 * S * (d.s22 - d.s44) = dA d S - dB d S := by
    simp only [dA, dB]; ring
  have edw : 2 * (d.s12 + d.s34) + 2 * S * (d.s22 + d.s44) = dA d S + dB d S := by
    simp only [dA, dB]; ring
  have edc : d.s14 + d.s23 + 2 * d.s24 * S = dC d S := rfl
  have edc' : d.s14 + d.s24 * S + (d.s23 + d.s24 * S) = dC d S := by
    simp only [dC]; ring
  unfold propagate
  simp only [Nat.cast_ofNat, er, ew, ec, et, edr, edw, edc, edc', if_neg (not_lt.mpr hT), csqrt_ok hT0.le, Res.ok_bind]
  have e1 : mysign R * R / Real.sqrt (sT d S) = kOf σ R C := rfl
  rw [show Real.sqrt (sT d S) = r from rfl] at e1 ⊢
  have h2r : 2 * r * r * r ≠ 0 := by positivity
  have h4c : 4 * cosOf σ R C ≠ 0 := by positivity
  simp only [cdiv_ok hr.ne', cdiv_ok h2r, Res.ok_bind, e1, half_eq,
    csqrt_ok (show 0 ≤ (1 + kOf σ R C) / 2 by linarith), csqrt_ok (show 0 ≤ (1 - kOf σ R C) / 2 by linarith),
    show Real.sqrt ((1 + kOf σ R C) / 2) = cosOf σ R C from rfl, cdiv_ok h4c, fabs_eq]
  rw [show mysign R = σ from rfl, ← hs]
  have ek : σ * ((dA d S - dB d S) / r - R / (2 * r * r * r) * (2 * R * (dA d S - dB d S) + 8 * C * dC d S)) = k' := by
    simp only [k', dK, show Real.sqrt (R ^ 2 + 4 * C ^ 2) = r from rfl]
    ring
  rw [ek]
  have e5 : (dec 5 1 : ℝ) = 1 / 2 := by norm_num [dec]
  have fin : ∀ D : ℝ, (Res.ok ⟨(sA d S + sB d S + σ * r) / 2, (sA d S + sB d S - σ * r) / 2, cosOf σ R C, sinOf σ R C,
      (dA d S + dB d S + σ * (dec 5 1 / r) * dT) / 2, (dA d S + dB d S - σ * (dec 5 1 / r) * dT) / 2,
      1 / (4 * cosOf σ R C) * k', D⟩ : Res (Shape ℝ)) = .ok
      ⟨(sA d S + sB d S + σ * r) / 2, (sA d S + sB d S - σ * r) / 2, cosOf σ R C, sinOf σ R C,
       (dA d S + dB d S + σ * dT / (2 * r)) / 2, (dA d S + dB d S - σ * dT / (2 * r)) / 2,
       k' / (4 * cosOf σ R C), D⟩ := by
    intro D
    rw [Res.ok_inj, Shape.mk.injEq, e5]
    refine ⟨rfl, rfl, rfl, rfl, ?_, ?_, ?_, rfl⟩ <;> ring
  split
  · rename_i hlt
    have hR : R ≠ 0 := by
      intro hR
      have hk00 : kOf σ R C = 0 := by unfold kOf; rw [hR]; ring
      rw [hk00] at g2
      have : sinOf σ R C ^ 2 = 1 / 2 := by linarith
      have h3 : |sinOf σ R C| ^ 2 < (1 / 2) ^ 2 := by
        apply pow_lt_pow_left₀ (lt_of_lt_of_le hlt h1) (abs_nonneg _) (by norm_num)
      rw [sq_abs, this] at h3
      norm_num at h3
    rw [cdiv_ok hR, Res.ok_bind, Res.pure_eq]
    exact fin _
  · rename_i hlt
    have hs0 : 4 * sinOf σ R C ≠ 0 := by
      intro h
      have : sinOf σ R C = 0 := by linarith
      rw [this, abs_zero] at hlt
      exact hlt h0
    rw [cdiv_ok hs0]
    simp only [Res.ok_bind, Res.pure_eq]
    rw [show -1 / (4 * sinOf σ R C) * k' = -k' / (4 * sinOf σ R C) by ring]
    exact fin _

/-- The coefficients of the expansion around a point where the two principal values agree. -/
noncomputable def cA (d : Sigmas ℝ) (S : ℝ) : ℝ := (dA d S - dB d S) / 2
def cB (d : Sigmas ℝ) : ℝ := d.s22 - d.s44

theorem four_mul_sq (a c : ℝ) : Real.sqrt ((2 * a) ^ 2 + 4 * c ^ 2) = 2 * Real.sqrt (a ^ 2 + c ^ 2) := by
  rw [show (2 * a) ^ 2 + 4 * c ^ 2 = 2 ^ 2 * (a ^ 2 + c ^ 2) by ring, Real.sqrt_mul (by norm_num),
    Real.sqrt_sq (by norm_num)]

theorem mysign_two (a : ℝ) : mysign (2 * a) = mysign a := by
  unfold mysign
  congr 1
  · by_cases h : 0 ≤ a
    · rw [if_pos (by linarith), if_pos h]
    · rw [if_neg (by intro h'; apply h; linarith), if_neg h]
  · by_cases h : a < 0
    · rw [if_pos (by linarith), if_pos h]
    · rw [if_neg (by intro h'; apply h; linarith), if_neg h]

/-- The branch for equal principal values which separate at first order. -/
theorem propagate_singular {d : Sigmas ℝ} {S thr : ℝ} (h0 : 0 < thr) (h1 : thr ≤ 1 / 2) (hT : sT d S < thr)
    (hr : thr ≤ Real.sqrt (cA d S ^ 2 + dC d S ^ 2) ^ 3) :
    let a := cA d S
    let c := dC d S
    let σ := mysign a
    let k' := dK σ (2 * a) c (cB d) d.s24
    let rt := Real.sqrt (a ^ 2 + c ^ 2)
    propagate d S thr = .ok
      ⟨(sA d S + sB d S) / 2, (sA d S + sB d S) / 2, cosOf σ (2 * a) c, sinOf σ (2 * a) c,
       (dA d S + dB d S) / 2 + σ * rt, (dA d S + dB d S) / 2 - σ * rt,
       k' / (4 * cosOf σ (2 * a) c),
       if thr < |sinOf σ (2 * a) c| then -k' / (4 * sinOf σ (2 * a) c) else d.s24 / (2 * a)⟩ := by
  intro a c σ k' rt
  have hrt : 0 < rt := by
    by_contra h
    have : rt = 0 := le_antisymm (not_lt.mp h) (Real.sqrt_nonneg _)
    change thr ≤ rt ^ 3 at hr
    rw [this] at hr
    norm_num at hr
    linarith
  have h4 := four_mul_sq a c
  have hT' : 0 < (2 * a) ^ 2 + 4 * c ^ 2 := by
    have := Real.sqrt_pos.mp hrt
    linarith
  have hσ : σ ^ 2 = 1 := mysign_sq a
  have hk0 : 0 ≤ kOf σ (2 * a) c := by
    unfold kOf
    rw [show σ * (2 * a) = 2 * |a| by rw [← mysign_mul]; ring]
    positivity
  have hk : -1 < kOf σ (2 * a) c := by linarith
  obtain ⟨g1, g2, g3, hc⟩ := axes_alg hσ hT' hk
  have hs := sinOf_eq hσ hT' hk
  have hk1 := (kOf_mem hσ hT').2
  have er : d.s11 + (2 : ℝ) * d.s12 * S + d.s22 * S * S - (d.s33 + (2 : ℝ) * d.s34 * S + d.s44 * S * S) = sA d S - sB d S := by
    simp only [sA, sB]; ring
  have ew : d.s11 + (2 : ℝ) * d.s12 * S + d.s22 * S * S + (d.s33 + (2 : ℝ) * d.s34 * S + d.s44 * S * S) = sA d S + sB d S := by
    simp only [sA, sB]; ring
  have ec : d.s13 + (d.s14 + d.s23) * S + d.s24 * S * S = sC d S := by
    simp only [sC]; ring
  have et : (sA d S - sB d S) * (sA d S - sB d S) + 4 * sC d S * sC d S = sT d S := by simp only [sT]; ring
  have edw : 2 * (d.s12 + d.s34) + 2 * S * (d.s22 + d.s44) = dA d S + dB d S := by
    simp only [dA, dB]; ring
  have ea : d.s12 + d.s22 * S - (d.s34 + d.s44 * S) = a := by
    simp only [a, cA, dA, dB]; ring
  have edc' : d.s14 + d.s24 * S + (d.s23 + d.s24 * S) = c := by
    simp only [c, dC]; ring
  have ert : a * a + c * c = a ^ 2 + c ^ 2 := by ring
  have eb : d.s22 + 0 * S - (d.s44 + 0 * S) = cB d := by simp only [cB]; ring
  have ee : d.s24 + 0 * S = d.s24 := by ring
  unfold propagate
  simp only [Nat.cast_ofNat, er, ew, ec, et, edw, if_pos hT, ea, edc', ert, eb, ee,
    csqrt_ok (show 0 ≤ a ^ 2 + c ^ 2 by positivity), Res.ok_bind]
  rw [show Real.sqrt (a ^ 2 + c ^ 2) = rt from rfl]
  have h3 : ¬ rt * rt * rt < thr := by
    rw [show rt * rt * rt = rt ^ 3 by ring]; exact not_lt.mpr hr
  have h2r : 2 * rt ≠ 0 := by positivity
  have h2r3 : 2 * rt * rt * rt ≠ 0 := by positivity
  have h4c : 4 * cosOf σ (2 * a) c ≠ 0 := by positivity
  have e1 : |2 * a| / (2 * rt) = kOf σ (2 * a) c := by
    unfold kOf; rw [h4, ← mysign_mul, mysign_two]
  simp only [if_neg h3, cdiv_ok h2r, Res.ok_bind, fabs_eq, e1, half_eq,
    csqrt_ok (show 0 ≤ (1 + kOf σ (2 * a) c) / 2 by linarith), csqrt_ok (show 0 ≤ (1 - kOf σ (2 * a) c) / 2 by linarith),
    show Real.sqrt ((1 + kOf σ (2 * a) c) / 2) = cosOf σ (2 * a) c from rfl, cdiv_ok hrt.ne', cdiv_ok h2r3, cdiv_ok h4c]
  rw [show mysign a = σ from rfl, ← hs]
  have ek : σ * (cB d / 2 / rt - a * (a * cB d + 2 * c * d.s24) / (2 * rt * rt * rt)) = k' := by
    simp only [k', dK, h4, show Real.sqrt (a ^ 2 + c ^ 2) = rt from rfl]
    field_simp
    ring
  rw [ek]
  split
  · rename_i hlt
    have hs0 : 4 * sinOf σ (2 * a) c ≠ 0 := by
      intro h
      have : sinOf σ (2 * a) c = 0 := by linarith
      rw [this, abs_zero] at hlt
      linarith
    rw [cdiv_ok hs0]
    simp only [Res.ok_bind, Res.pure_eq, Res.ok_inj]
    rw [Shape.mk.injEq]
    refine ⟨rfl, rfl, rfl, rfl, rfl, rfl, ?_, ?_⟩ <;> ring
  · rename_i hlt
    have ha : 2 * a ≠ 0 := by
      intro ha
      have hk00 : kOf σ (2 * a) c = 0 := by unfold kOf; rw [ha]; ring
      rw [hk00] at g2
      have : sinOf σ (2 * a) c ^ 2 = 1 / 2 := by linarith
      have h3 : |sinOf σ (2 * a) c| ^ 2 ≤ (1 / 2) ^ 2 := by
        apply pow_le_pow_left₀ (abs_nonneg _)
        linarith
      rw [sq_abs, this] at h3
      norm_num at h3
    simp only [cdiv_ok ha, Res.ok_bind, Res.pure_eq, Res.ok_inj]
    rw [Shape.mk.injEq]
    refine ⟨rfl, rfl, rfl, rfl, rfl, rfl, ?_, rfl⟩
    ring

/-- The branch for equal principal values which separate at second order. -/
theorem propagate_degenerate {d : Sigmas ℝ} {S thr : ℝ} (h0 : 0 < thr) (hT : sT d S < thr)
    (hr : Real.sqrt (cA d S ^ 2 + dC d S ^ 2) ^ 3 < thr) :
    let b := cB d
    let e := d.s24
    let σ := mysign b
    let c := if thr < |e| then cosOf σ b e else 1
    let s := if thr < |e| then sinOf σ b e else 0
    propagate d S thr = .ok
      ⟨(sA d S + sB d S) / 2, (sA d S + sB d S) / 2, c, s,
       (dA d S + dB d S) / 2, (dA d S + dB d S) / 2, 0, 0⟩ := by
  intro b e σ c s
  have er : d.s11 + (2 : ℝ) * d.s12 * S + d.s22 * S * S - (d.s33 + (2 : ℝ) * d.s34 * S + d.s44 * S * S) = sA d S - sB d S := by
    simp only [sA, sB]; ring
  have ew : d.s11 + (2 : ℝ) * d.s12 * S + d.s22 * S * S + (d.s33 + (2 : ℝ) * d.s34 * S + d.s44 * S * S) = sA d S + sB d S := by
    simp only [sA, sB]; ring
  have ec : d.s13 + (d.s14 + d.s23) * S + d.s24 * S * S = sC d S := by
    simp only [sC]; ring
  have et : (sA d S - sB d S) * (sA d S - sB d S) + 4 * sC d S * sC d S = sT d S := by simp only [sT]; ring
  have edw : 2 * (d.s12 + d.s34) + 2 * S * (d.s22 + d.s44) = dA d S + dB d S := by
    simp only [dA, dB]; ring
  have ea : d.s12 + d.s22 * S - (d.s34 + d.s44 * S) = cA d S := by
    simp only [cA, dA, dB]; ring
  have edc' : d.s14 + d.s24 * S + (d.s23 + d.s24 * S) = dC d S := by
    simp only [dC]; ring
  have ert : cA d S * cA d S + dC d S * dC d S = cA d S ^ 2 + dC d S ^ 2 := by ring
  have eb : d.s22 + 0 * S - (d.s44 + 0 * S) = b := by simp only [b, cB]; ring
  have ee : d.s24 + 0 * S = e := by simp only [e]; ring
  have e3 : ∀ x : ℝ, x * x * x = x ^ 3 := fun x => by ring
  unfold propagate
  simp only [Nat.cast_ofNat, er, ew, ec, et, edw, if_pos hT, ea, edc', ert, eb, ee, e3,
    csqrt_ok (show 0 ≤ cA d S ^ 2 + dC d S ^ 2 by positivity), Res.ok_bind, if_pos hr, fabs_eq, half_eq]
  by_cases he : thr < |e|
  · have he0 : e ≠ 0 := by
      intro h; rw [h, abs_zero] at he; linarith
    have hT' : 0 < b ^ 2 + 4 * e ^ 2 := by positivity
    have hσ : σ ^ 2 = 1 := mysign_sq b
    have hn : 0 < Real.sqrt (b ^ 2 + 4 * e ^ 2) := Real.sqrt_pos.mpr hT'
    have hk0 : 0 ≤ kOf σ b e := by
      unfold kOf
      rw [mysign_mul]
      positivity
    have hk : -1 < kOf σ b e := by linarith
    have hs := sinOf_eq hσ hT' hk
    have hk1 := (kOf_mem hσ hT').2
    have e1 : |b| / Real.sqrt (b ^ 2 + 4 * e ^ 2) = kOf σ b e := by
      unfold kOf; rw [mysign_mul]
    simp only [c, s, if_pos he, show b * b + 4 * e * e = b ^ 2 + 4 * e ^ 2 by ring, csqrt_ok hT'.le, Res.ok_bind,
      cdiv_ok hn.ne', e1, csqrt_ok (show 0 ≤ (1 + kOf σ b e) / 2 by linarith),
      csqrt_ok (show 0 ≤ (1 - kOf σ b e) / 2 by linarith)]
    rw [hs]
    rfl
  · simp only [c, s, if_neg he, Res.pure_eq, Res.ok_bind]
    rw [csqrt_ok (by norm_num), csqrt_ok (by norm_num)]
    simp only [Res.ok_bind, Res.ok_inj]
    norm_num

end Beam
end SixTrack
