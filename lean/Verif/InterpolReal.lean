import Verif.InterpolLemmas
import Mathlib.Analysis.Calculus.Deriv.Add
import Mathlib.Analysis.Calculus.Deriv.Mul
import Mathlib.Analysis.Calculus.Deriv.Pow
import Mathlib.Analysis.Calculus.Deriv.Comp
import Mathlib.Algebra.Order.Archimedean.Real.Basic

/-! # The pieces of the cubic interpolation over the reals -/

namespace SixTrack.Interpol

open Filter Topology Set

noncomputable section

variable (x0 dx : ℝ) (y z : Nat → ℝ)

/-- Number of the interval of `x`. -/
def piece (x : ℝ) : Nat := (abscissaIndex x x0 dx).toNat

/-- Cubic of interval `i`. -/
def S (i : Nat) (x : ℝ) : ℝ :=
  y (i + 1) * ((x - (x0 + dx * i)) / dx) + y i * ((x0 + dx * (i + 1) - x) / dx) -
    z i * dx * dx * ((x0 + dx * (i + 1) - x) / dx - (x0 + dx * (i + 1) - x) / dx *
      ((x0 + dx * (i + 1) - x) / dx) * ((x0 + dx * (i + 1) - x) / dx)) / 6 -
    z (i + 1) * dx * dx * ((x - (x0 + dx * i)) / dx - (x - (x0 + dx * i)) / dx *
      ((x - (x0 + dx * i)) / dx) * ((x - (x0 + dx * i)) / dx)) / 6

/-- First derivative. -/
def S1 (i : Nat) (x : ℝ) : ℝ :=
  (y (i + 1) - y i) / dx -
    z i * dx * (3 * ((x0 + dx * (i + 1) - x) / dx) * ((x0 + dx * (i + 1) - x) / dx) - 1) / 6 -
    z (i + 1) * dx * (1 - 3 * ((x - (x0 + dx * i)) / dx) * ((x - (x0 + dx * i)) / dx)) / 6

/-- Second derivative. -/
def S2 (i : Nat) (x : ℝ) : ℝ :=
  (z i * (x0 + dx * (i + 1) - x) + z (i + 1) * (x - (x0 + dx * i))) / dx

variable {x0 dx y z}

theorem eval_S (hdx : 0 < dx) {n i : Nat} (hn : i + 1 < n) {x : ℝ} (h1 : x0 + dx * i ≤ x)
    (h2 : x < x0 + dx * (i + 1)) :
    cubicY x x0 dx y z n = .ok (S x0 dx y z i x) ∧
    cubicYp x x0 dx y z n = .ok (S1 x0 dx y z i x) ∧
    cubicYpp x x0 dx z n = .ok (S2 x0 dx z i x) := by
  have hi := abscissaIndex_eq hdx h1 h2
  unfold cubicY cubicYp cubicYpp
  simp only [hi, read_ok (show i < n by omega), read_ok' hn, Res.ok_bind, Res.pure_eq]
  unfold S S1 S2
  push_cast
  exact ⟨rfl, rfl, rfl⟩

theorem deriv_S (hdx : dx ≠ 0) (i : Nat) (x : ℝ) :
    HasDerivAt (S x0 dx y z i) (S1 x0 dx y z i x) x := by
  have ha : HasDerivAt (fun x : ℝ => (x - (x0 + dx * i)) / dx) (1 / dx) x :=
    ((hasDerivAt_id x).sub_const _).div_const _
  have hb : HasDerivAt (fun x : ℝ => (x0 + dx * (i + 1) - x) / dx) (-1 / dx) x :=
    ((hasDerivAt_id x).const_sub _).div_const _
  have h := (((ha.const_mul (y (i + 1))).add (hb.const_mul (y i))).sub
    (((hb.sub ((hb.mul hb).mul hb)).const_mul (z i * dx * dx)).div_const 6)).sub
    (((ha.sub ((ha.mul ha).mul ha)).const_mul (z (i + 1) * dx * dx)).div_const 6)
  refine h.congr_deriv ?_
  unfold S1
  simp only [Pi.mul_apply]
  field_simp
  ring

theorem deriv_S1 (hdx : dx ≠ 0) (i : Nat) (x : ℝ) :
    HasDerivAt (S1 x0 dx y z i) (S2 x0 dx z i x) x := by
  have ha : HasDerivAt (fun x : ℝ => (x - (x0 + dx * i)) / dx) (1 / dx) x :=
    ((hasDerivAt_id x).sub_const _).div_const _
  have hb : HasDerivAt (fun x : ℝ => (x0 + dx * (i + 1) - x) / dx) (-1 / dx) x :=
    ((hasDerivAt_id x).const_sub _).div_const _
  have h := (((((hb.const_mul 3).mul hb).sub_const 1).const_mul (z i * dx)).div_const 6).const_sub
    ((y (i + 1) - y i) / dx) |>.sub
    (((((ha.const_mul 3).mul ha).const_sub 1).const_mul (z (i + 1) * dx)).div_const 6)
  refine h.congr_deriv ?_
  unfold S2
  field_simp
  ring

theorem cont_S2 (i : Nat) : Continuous (S2 x0 dx z i) := by
  unfold S2
  fun_prop

/-- Around an inner point the interval number is `i` on the right and `j` on the
left, and `j ≠ i` only at a sample point. -/
theorem local_pieces (hdx : 0 < dx) {n : Nat} {x : ℝ} (h1 : x0 < x) (h2 : x < x0 + dx * (n - 1)) :
    ∃ i j : Nat, i + 1 < n ∧ (j = i ∨ (j + 1 = i ∧ x = x0 + dx * i)) ∧
      (∀ᶠ u in 𝓝[≥] x, piece x0 dx u = i) ∧ (∀ᶠ u in 𝓝[<] x, piece x0 dx u = j) := by
  obtain ⟨i, hi⟩ : ∃ i : Nat, i = ⌊(x - x0) / dx⌋₊ := ⟨_, rfl⟩
  have hpos : 0 ≤ (x - x0) / dx := div_nonneg (by linarith) hdx.le
  have a1 : (i : ℝ) ≤ (x - x0) / dx := by rw [hi]; exact Nat.floor_le hpos
  have a2 : (x - x0) / dx < i + 1 := by rw [hi]; exact Nat.lt_floor_add_one _
  rw [le_div_iff₀ hdx] at a1
  rw [div_lt_iff₀ hdx] at a2
  have b1 : x0 + dx * i ≤ x := by linarith
  have b2 : x < x0 + dx * (i + 1) := by linarith
  have hn : i + 1 < n := by
    have : dx * (i : ℝ) < dx * ((n : ℝ) - 1) := by linarith
    have := lt_of_mul_lt_mul_left this hdx.le
    have h3 : ((i + 1 : Nat) : ℝ) < n := by push_cast; linarith
    exact_mod_cast h3
  have hright : ∀ᶠ u in 𝓝[≥] x, piece x0 dx u = i := by
    have e : Ico x (x0 + dx * (i + 1)) ∈ 𝓝[≥] x := Ico_mem_nhdsGE b2
    filter_upwards [e] with u hu
    unfold piece
    rw [abscissaIndex_eq hdx (by linarith [hu.1]) hu.2]
    simp
  by_cases hk : x = x0 + dx * i
  · have hi0 : i ≠ 0 := by
      intro e; subst e; simp at hk; linarith
    obtain ⟨j, rfl⟩ : ∃ j, i = j + 1 := ⟨i - 1, by omega⟩
    refine ⟨j + 1, j, hn, .inr ⟨rfl, hk⟩, hright, ?_⟩
    have hk' : x = x0 + dx * ((j : ℝ) + 1) := by rw [hk]; push_cast; rfl
    have e : Ico (x0 + dx * j) x ∈ 𝓝[<] x := Ico_mem_nhdsLT (by rw [hk']; linarith)
    filter_upwards [e] with u hu
    unfold piece
    rw [abscissaIndex_eq hdx hu.1 (by rw [← hk']; exact hu.2)]
    simp
  · have b3 : x0 + dx * i < x := lt_of_le_of_ne b1 (Ne.symm hk)
    refine ⟨i, i, hn, .inl rfl, hright, ?_⟩
    have e : Ico (x0 + dx * i) x ∈ 𝓝[<] x := Ico_mem_nhdsLT b3
    filter_upwards [e] with u hu
    unfold piece
    rw [abscissaIndex_eq hdx hu.1 (by linarith [hu.2])]
    simp

theorem split_le {f g1 g2 : ℝ → ℝ} {x : ℝ} (hl : f =ᶠ[𝓝[<] x] g1) (hr : f =ᶠ[𝓝[≥] x] g2)
    (he : g1 x = g2 x) : f =ᶠ[𝓝[≤] x] g1 := by
  have hx : f x = g1 x := by rw [he]; exact hr.eq_of_nhdsWithin (by simp)
  rw [← Iio_union_right, nhdsWithin_union, nhdsWithin_singleton]
  exact eventually_sup.mpr ⟨hl, by simpa using hx⟩

theorem glue_deriv {f g1 g2 : ℝ → ℝ} {x d : ℝ} (hl : f =ᶠ[𝓝[<] x] g1) (hr : f =ᶠ[𝓝[≥] x] g2)
    (he : g1 x = g2 x) (h1 : HasDerivAt g1 d x) (h2 : HasDerivAt g2 d x) : HasDerivAt f d x := by
  have hx : f x = g2 x := hr.eq_of_nhdsWithin (by simp)
  have a := h1.hasDerivWithinAt.congr_of_eventuallyEq (s := Iic x) (split_le hl hr he)
    (by rw [hx, he])
  have b := h2.hasDerivWithinAt.congr_of_eventuallyEq (s := Ici x) hr hx
  have := a.union b
  rw [Iic_union_Ici, hasDerivWithinAt_univ] at this
  exact this

theorem glue_cont {f g1 g2 : ℝ → ℝ} {x : ℝ} (hl : f =ᶠ[𝓝[<] x] g1) (hr : f =ᶠ[𝓝[≥] x] g2)
    (he : g1 x = g2 x) (h1 : ContinuousAt g1 x) (h2 : ContinuousAt g2 x) : ContinuousAt f x := by
  have hx : f x = g2 x := hr.eq_of_nhdsWithin (by simp)
  have a := h1.continuousWithinAt.congr_of_eventuallyEq (s := Iic x) (split_le hl hr he)
    (by rw [hx, he])
  have b := h2.continuousWithinAt.congr_of_eventuallyEq (s := Ici x) hr hx
  have := a.union b
  rw [Iic_union_Ici, continuousWithinAt_univ] at this
  exact this

end

end SixTrack.Interpol
