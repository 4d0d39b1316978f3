import Verif.InterpolReal
import Mathlib.Tactic.NormNum
import Mathlib.Algebra.Order.Field.Rat
import Mathlib.Data.Rat.Floor

/-!
# C42: interpolation passes through the samples

* linear: every sample is met, and between two samples the value lies on the
  segment (`C42_linear_samples`, `C42_linear_between`);
* cubic: every sample but the last one is met, for the last one the evaluation
  reads past the arrays (`C42_cubic_samples_partial`, `C42_cubic_last_violated`);
* cubic with natural, clamped or proportional boundaries: the three evaluation
  functions are a function and its first two derivatives, all continuous
  (`C42_cubic_smooth_partial`); with a not-a-knot boundary the first derivative
  jumps (`C42_not_a_knot_violated`);
* behind the table `linear_y_equ_ex` continues with a slope that was never set (`C42_linear_right_violated`);
* `linear_yp_equ_ex` returns zero for every abscissa inside the table
  (`C42_linear_yp_ex_violated`).
-/

namespace SixTrack

open Interpol Filter Topology

section

variable {K : Type} [Field K] [LinearOrder K] [IsStrictOrderedRing K] [FloorRing K]

theorem C42_linear_samples {yp yp' y : Nat → K} {x0 dx : K} {n : Nat}
    (hprep : linearPrepare yp y dx n = (yp', true)) {i : Nat} (hi : i < n) :
    linearY (x0 + dx * i) x0 dx y yp' n = .ok (y i) := by
  have hdx : 0 < dx := by
    unfold linearPrepare at hprep
    split at hprep
    · rename_i h; exact h.1
    · cases hprep
  have hidx := abscissaIndex_eq (x := x0 + dx * i) (x0 := x0) hdx (i := i) (le_refl _)
    (by linarith)
  unfold linearY
  simp [hidx, read_ok hi]

theorem C42_linear_between {yp yp' y : Nat → K} {x0 dx : K} {n : Nat}
    (hprep : linearPrepare yp y dx n = (yp', true)) {i : Nat} (hi : i + 1 < n) {x : K}
    (h1 : x0 + dx * i ≤ x) (h2 : x < x0 + dx * (i + 1)) :
    linearY x x0 dx y yp' n =
      .ok ((1 - (x - (x0 + dx * i)) / dx) * y i + (x - (x0 + dx * i)) / dx * y (i + 1)) ∧
    linearYp x x0 dx yp' n = .ok ((y (i + 1) - y i) / dx) := by
  have hdx : 0 < dx := by
    unfold linearPrepare at hprep
    split at hprep
    · rename_i h; exact h.1
    · cases hprep
  have hyp : yp' i = (y (i + 1) - y i) / dx := by
    unfold linearPrepare at hprep
    rw [if_pos ⟨hdx, by omega⟩] at hprep
    have := (linLoop y dx yp (n - 1)).2.1 i (by omega)
    have e : _ = yp' := congrArg Prod.fst hprep
    rw [← e]
    exact this
  have hidx := abscissaIndex_eq hdx h1 h2
  unfold linearY linearYp
  simp only [hidx, read_ok (show i < n by omega), Res.ok_bind, Res.pure_eq, Res.ok_inj, hyp]
  refine ⟨?_, trivial⟩
  have := hdx.ne'
  push_cast
  field_simp
  ring

omit [IsStrictOrderedRing K] [FloorRing K] in
/-- The preparation refuses fewer than two samples and a step that is not positive,
and nothing else. -/
theorem C42_linear_prepare (yp y : Nat → K) (dx : K) (n : Nat) :
    (linearPrepare yp y dx n).2 = true ↔ 0 < dx ∧ 1 < n := by
  unfold linearPrepare
  split <;> simp_all

theorem C42_cubic_samples_partial {x0 dx : K} (hdx : 0 < dx) (y ypp : Nat → K) {n i : Nat}
    (hi : i + 1 < n) : cubicY (x0 + dx * i) x0 dx y ypp n = .ok (y i) := by
  have hidx := abscissaIndex_eq (x := x0 + dx * i) (x0 := x0) hdx (i := i) (le_refl _)
    (by linarith)
  unfold cubicY
  simp only [hidx, read_ok (show i < n by omega), read_ok' hi, Res.ok_bind, Res.pure_eq,
    Res.ok_inj]
  have := hdx.ne'
  push_cast
  field_simp
  ring

/-- The last sample is never met: the evaluation reads entry `n` of arrays with
`n` entries, whatever they hold. -/
theorem C42_cubic_last_violated {x0 dx : K} (hdx : 0 < dx) (y ypp : Nat → K) {n : Nat}
    (hn : 0 < n) : cubicY (x0 + dx * (n - 1 : Nat)) x0 dx y ypp n = .ub := by
  have hidx := abscissaIndex_eq (x := x0 + dx * (n - 1 : Nat)) (x0 := x0) hdx (i := n - 1)
    (le_refl _) (by linarith)
  unfold cubicY
  simp only [hidx]
  have : Interpol.read y n (((n - 1 : Nat) : Int) + 1) = .ub := by
    unfold Interpol.read
    rw [if_neg (by omega)]
  rw [this]
  rfl

theorem C42_linear_yp_ex_violated {x0 dx : K} (hdx : 0 < dx) (yp : Nat → K) {n i : Nat}
    (hi : i < n) {x : K} (h1 : x0 + dx * i ≤ x) (h2 : x < x0 + dx * (i + 1)) :
    linearYpEx x x0 dx yp n = .ok 0 := by
  have hidx := abscissaIndex_eq hdx h1 h2
  unfold linearYpEx
  simp only [hidx]
  rw [if_neg (by omega), if_neg (by omega)]

/-- Outside on the left the first segment is continued, and the `_ex` version agrees
with the plain one inside. -/
theorem C42_linear_ex {x0 dx : K} (hdx : 0 < dx) (y yp : Nat → K) {n : Nat} (hn : 0 < n) :
    (∀ (i : Nat) (x : K), i < n → x0 + dx * i ≤ x → x < x0 + dx * (i + 1) →
      linearYEx x x0 dx y yp n = linearY x x0 dx y yp n) ∧
    (∀ x, x < x0 → linearYEx x x0 dx y yp n = .ok (y 0 + yp 0 * (x - x0))) := by
  constructor
  · intro i x hi h1 h2
    have hidx := abscissaIndex_eq hdx h1 h2
    unfold linearYEx linearY
    have hc : ¬ ((n : Int) ≤ (i : Int) ∧ 0 < n) := by omega
    have hd : 0 ≤ (i : Int) ∧ (i : Int) < n := by omega
    simp only [hidx, if_neg hc, if_pos hd]
  · intro x hx
    have hneg : (x - x0) / dx < 0 := div_neg_of_neg_of_pos (by linarith) hdx
    have hle : abscissaIndex x x0 dx ≤ 0 := by
      unfold abscissaIndex trunc
      rw [if_neg (not_le.mpr hneg)]
      exact Int.ceil_le.mpr (by simpa using hneg.le)
    have r0 : ∀ a : Nat → K, Interpol.read a n 0 = .ok (a 0) := fun a => by
      have := read_ok (a := a) hn
      simpa using this
    unfold linearYEx
    have hc : ¬ ((n : Int) ≤ abscissaIndex x x0 dx ∧ 0 < n) := by omega
    simp only [if_neg hc]
    by_cases h0 : abscissaIndex x x0 dx = 0
    · have hd : (0 : Int) ≤ 0 ∧ (0 : Int) < n := by omega
      simp only [h0, if_pos hd, r0]
      simp; ring
    · have hd : ¬ (0 ≤ abscissaIndex x x0 dx ∧ abscissaIndex x x0 dx < n) := by omega
      have hd' : abscissaIndex x x0 dx < 0 ∧ 0 < n := by omega
      simp only [if_neg hd, if_pos hd', r0]
      simp; ring

/-- Outside by at least one step the slope is the one of the first entry on the left and of the last entry on the
right, and the value on the right continues with it. -/
theorem C42_linear_ex_outside {x0 dx : K} (hdx : 0 < dx) (y yp : Nat → K) {n : Nat} (hn : 0 < n) :
    (∀ x, x0 + dx * n ≤ x →
      linearYEx x x0 dx y yp n = .ok (y (n - 1) + yp (n - 1) * (x - (x0 + dx * (n - 1)))) ∧
      linearYpEx x x0 dx yp n = .ok (yp (n - 1))) ∧
    (∀ x, x ≤ x0 - dx → linearYpEx x x0 dx yp n = .ok (yp 0)) := by
  have rl : ∀ a : Nat → K, Interpol.read a n ((n : Int) - 1) = .ok (a (n - 1)) := fun a => by
    have := read_ok (a := a) (show n - 1 < n by omega)
    rwa [show ((n - 1 : Nat) : Int) = (n : Int) - 1 by omega] at this
  have r0 : ∀ a : Nat → K, Interpol.read a n 0 = .ok (a 0) := fun a => by
    have := read_ok (a := a) hn
    simpa using this
  refine ⟨fun x hx => ?_, fun x hx => ?_⟩
  · have hq : (n : K) ≤ (x - x0) / dx := by rw [le_div_iff₀ hdx]; linarith [mul_comm dx (n : K)]
    have hi : (n : Int) ≤ abscissaIndex x x0 dx := by
      unfold abscissaIndex trunc
      rw [if_pos (le_trans (Nat.cast_nonneg n) hq)]
      exact Int.le_floor.mpr (by simpa using hq)
    have hc : (n : Int) ≤ abscissaIndex x x0 dx ∧ 0 < n := ⟨hi, hn⟩
    have hd : 0 ≤ (n : Int) - 1 ∧ (n : Int) - 1 < n := by omega
    refine ⟨?_, ?_⟩
    · unfold linearYEx
      simp only [if_pos hc, if_pos hd, rl, Res.ok_bind, Res.pure_eq]
      push_cast
      congr 1; ring
    · unfold linearYpEx
      simp only [if_pos hc, rl]
  · have hq : (x - x0) / dx ≤ -1 := by rw [div_le_iff₀ hdx]; linarith
    have hi : abscissaIndex x x0 dx ≤ -1 := by
      unfold abscissaIndex trunc
      rw [if_neg (by intro h; linarith)]
      exact Int.ceil_le.mpr (by simpa using hq)
    unfold linearYpEx
    simp only [if_neg (show ¬ ((n : Int) ≤ abscissaIndex x x0 dx ∧ 0 < n) by omega),
      if_pos (show abscissaIndex x x0 dx < 0 ∧ 0 < n by omega), r0]

/-- The last slope is not set by the preparation: behind the table the value depends on what happened to be in the
array. -/
theorem C42_linear_right_violated {yp yp' y : Nat → K} {x0 dx : K} {n : Nat}
    (hprep : linearPrepare yp y dx n = (yp', true)) {x : K} (hx : x0 + dx * n ≤ x) :
    linearYEx x x0 dx y yp' n = .ok (y (n - 1) + yp (n - 1) * (x - (x0 + dx * (n - 1)))) := by
  unfold linearPrepare at hprep
  split at hprep
  · rename_i h
    have := ((C42_linear_ex_outside h.1 y yp' (show 0 < n by omega)).1 x hx).1
    rw [this]
    have e : _ = yp' := congrArg Prod.fst hprep
    rw [← e, (linLoop y dx yp (n - 1)).2.2 (n - 1) le_rfl]
  · cases hprep

end

/-- With the boundary conditions `natural`, `clamped` and `proportional` (factor at
least -2) the prepared table gives a twice continuously differentiable function,
and the three evaluation functions are this function and its derivatives. -/
theorem C42_cubic_smooth_partial {ypp ypp' y : Nat → ℝ} {x0 dx : ℝ} {n : Nat} {bb be : Boundary}
    {pb pe : ℝ} (hb : bb = .natural ∨ bb = .clamped ∨ (bb = .proportional ∧ -2 ≤ pb))
    (he : be = .natural ∨ be = .clamped ∨ (be = .proportional ∧ -2 ≤ pe))
    (hprep : cubicPrepare ypp y dx n bb be pb pe = (ypp', true)) :
    ∃ F F1 F2 : ℝ → ℝ,
      (∀ x, x0 ≤ x → x < x0 + dx * (n - 1) →
        cubicY x x0 dx y ypp' n = .ok (F x) ∧ cubicYp x x0 dx y ypp' n = .ok (F1 x) ∧
        cubicYpp x x0 dx ypp' n = .ok (F2 x)) ∧
      ∀ x, x0 < x → x < x0 + dx * (n - 1) →
        HasDerivAt F (F1 x) x ∧ HasDerivAt F1 (F2 x) x ∧ ContinuousAt F2 x := by
  have hdn : 0 < dx ∧ 3 < n := by
    unfold cubicPrepare at hprep
    split at hprep
    · rename_i h; exact h
    · cases hprep
  obtain ⟨hdx, hn⟩ := hdn
  obtain ⟨m, rfl⟩ : ∃ m, n = m + 4 := ⟨n - 4, by omega⟩
  have heq := spline_equations (ypp := ypp) (y := y) (m := m) hdx hb he
  rw [hprep] at heq
  simp only at heq
  have hd := hdx.ne'
  -- matching at the inner sample points
  have mS : ∀ j, j + 2 < m + 4 → S x0 dx y ypp' j (x0 + dx * ((j + 1 : Nat) : ℝ)) =
      S x0 dx y ypp' (j + 1) (x0 + dx * ((j + 1 : Nat) : ℝ)) := by
    intro j _
    unfold S
    push_cast
    field_simp
    ring
  have mS1 : ∀ j, j + 2 < m + 4 → S1 x0 dx y ypp' j (x0 + dx * ((j + 1 : Nat) : ℝ)) =
      S1 x0 dx y ypp' (j + 1) (x0 + dx * ((j + 1 : Nat) : ℝ)) := by
    intro j hj
    have e := heq j (by omega)
    have e' : 6 * ((y (j + 2) - y (j + 1)) / dx - (y (j + 1) - y j) / dx) =
      dx * ypp' j + 4 * dx * ypp' (j + 1) + dx * ypp' (j + 2) := e.symm
    have l : S1 x0 dx y ypp' j (x0 + dx * ((j + 1 : Nat) : ℝ)) =
        (y (j + 1) - y j) / dx + dx * ypp' j / 6 + dx * ypp' (j + 1) / 3 := by
      unfold S1
      push_cast
      field_simp
      ring
    have r : S1 x0 dx y ypp' (j + 1) (x0 + dx * ((j + 1 : Nat) : ℝ)) =
        (y (j + 2) - y (j + 1)) / dx - dx * ypp' (j + 1) / 3 - dx * ypp' (j + 2) / 6 := by
      unfold S1
      push_cast
      field_simp
      ring
    rw [l, r]
    linarith
  have mS2 : ∀ j, j + 2 < m + 4 → S2 x0 dx ypp' j (x0 + dx * ((j + 1 : Nat) : ℝ)) =
      S2 x0 dx ypp' (j + 1) (x0 + dx * ((j + 1 : Nat) : ℝ)) := by
    intro j _
    unfold S2
    push_cast
    field_simp
    ring
  refine ⟨fun x => S x0 dx y ypp' (piece x0 dx x) x, fun x => S1 x0 dx y ypp' (piece x0 dx x) x,
    fun x => S2 x0 dx ypp' (piece x0 dx x) x, ?_, ?_⟩
  · intro x h1 h2
    have hpos : 0 ≤ (x - x0) / dx := div_nonneg (by linarith) hdx.le
    have a1 : (⌊(x - x0) / dx⌋₊ : ℝ) ≤ (x - x0) / dx := Nat.floor_le hpos
    have a2 : (x - x0) / dx < ⌊(x - x0) / dx⌋₊ + 1 := Nat.lt_floor_add_one _
    generalize ⌊(x - x0) / dx⌋₊ = i at *
    rw [le_div_iff₀ hdx] at a1
    rw [div_lt_iff₀ hdx] at a2
    have hin : i + 1 < m + 4 := by
      have : dx * (i : ℝ) < dx * (((m + 4 : Nat) : ℝ) - 1) := by linarith
      have := lt_of_mul_lt_mul_left this hdx.le
      have h3 : ((i + 1 : Nat) : ℝ) < ((m + 4 : Nat) : ℝ) := by push_cast at *; linarith
      exact_mod_cast h3
    have hp : piece x0 dx x = i := by
      unfold piece
      rw [abscissaIndex_eq hdx (by linarith : x0 + dx * i ≤ x) (by linarith)]
      simp
    simp only [hp]
    exact eval_S hdx hin (by linarith) (by linarith)
  · intro x h1 h2
    obtain ⟨i, j, hi, hij, hr, hl⟩ := local_pieces hdx h1 h2
    have pick : ∀ G : Nat → ℝ → ℝ, (∀ j, j + 2 < m + 4 → G j (x0 + dx * ((j + 1 : Nat) : ℝ)) =
        G (j + 1) (x0 + dx * ((j + 1 : Nat) : ℝ))) →
        G j x = G i x ∧ (fun u => G (piece x0 dx u) u) =ᶠ[𝓝[<] x] G j ∧
        (fun u => G (piece x0 dx u) u) =ᶠ[𝓝[≥] x] G i := by
      intro G hG
      refine ⟨?_, hl.mono (fun u hu => by simp only [hu]), hr.mono (fun u hu => by simp only [hu])⟩
      rcases hij with rfl | ⟨rfl, hx⟩
      · rfl
      · rw [hx]; exact hG j (by omega)
    have hpx : piece x0 dx x = i := hr.self_of_nhdsWithin (by simp)
    obtain ⟨e0, l0, r0⟩ := pick _ mS
    obtain ⟨e1, l1, r1⟩ := pick _ mS1
    obtain ⟨e2, l2, r2⟩ := pick _ mS2
    refine ⟨?_, ?_, ?_⟩
    · have h := deriv_S (x0 := x0) (y := y) (z := ypp') hd j x
      rw [e1] at h
      have := glue_deriv l0 r0 e0 h (deriv_S hd i x)
      simp only [hpx]
      exact this
    · have h := deriv_S1 (x0 := x0) (y := y) (z := ypp') hd j x
      rw [e2] at h
      have := glue_deriv l1 r1 e1 h (deriv_S1 hd i x)
      simp only [hpx]
      exact this
    · exact glue_cont l2 r2 e2 (cont_S2 j).continuousAt (cont_S2 i).continuousAt

/-- The default boundaries of `NS(Math_interpol_prepare_equ)` (math_interpol.h:604-645)
are natural ones, and every table of more than three samples is accepted. -/
theorem C42_cubic_prepare_natural {K : Type} [Field K] [LinearOrder K] (ypp y : Nat → K) (dx : K)
    (n : Nat) : (cubicPrepare ypp y dx n .natural .natural 0 0).2 = true ↔ 0 < dx ∧ 3 < n := by
  unfold cubicPrepare
  split <;> simp_all

/-- Samples 0, 1, 0, 0. -/
def nakSamples (i : Nat) : ℝ := if i = 1 then 1 else 0

/-- With a not-a-knot condition at the beginning the first derivative of the
interpolation of the samples 0, 1, 0, 0 jumps at the second sample. -/
theorem C42_not_a_knot_violated :
    ∃ ypp' : Nat → ℝ,
      cubicPrepare (fun _ => 0) nakSamples 1 4 .notAKnot .natural 0 0 = (ypp', true) ∧
      ¬ ∃ F1 : ℝ → ℝ,
        (∀ x, 0 ≤ x → x < 3 → cubicYp x 0 1 nakSamples ypp' 4 = .ok (F1 x)) ∧
        ContinuousAt F1 1 := by
  refine ⟨(cubicPrepare (fun _ => 0) nakSamples 1 4 .notAKnot .natural 0 0).1, ?_, ?_⟩
  · refine Prod.ext rfl ?_
    unfold cubicPrepare
    rw [if_pos ⟨by norm_num, by norm_num⟩, if_pos ⟨by simp, by simp⟩]
  · generalize hz : (cubicPrepare (fun _ => (0 : ℝ)) nakSamples 1 4 .notAKnot .natural 0 0).1 = z
    have z0 : z 0 = -12 := by
      rw [← hz]
      norm_num [cubicPrepare, endRow, beginRow, rows, forward, backward, fwdStep, bwdStep,
        beginValue, endValue, nakSamples, Function.update, List.range, List.range.loop, List.range']
      rw [if_pos ⟨by simp, by simp⟩]
      norm_num [Function.update]
    have z1 : z 1 = -2 := by
      rw [← hz]
      norm_num [cubicPrepare, endRow, beginRow, rows, forward, backward, fwdStep, bwdStep,
        beginValue, endValue, nakSamples, Function.update, List.range, List.range.loop, List.range']
      rw [if_pos ⟨by simp, by simp⟩]
      norm_num [Function.update]
    have z2 : z 2 = 3 / 2 := by
      rw [← hz]
      norm_num [cubicPrepare, endRow, beginRow, rows, forward, backward, fwdStep, bwdStep,
        beginValue, endValue, nakSamples, Function.update, List.range, List.range.loop, List.range']
      rw [if_pos ⟨by simp, by simp⟩]
      norm_num [Function.update]
    rintro ⟨F1, hF, hc⟩
    have hl : F1 =ᶠ[𝓝[<] 1] S1 0 1 nakSamples z 0 := by
      have e : Set.Ico (0 : ℝ) 1 ∈ 𝓝[<] (1 : ℝ) := Ico_mem_nhdsLT (by norm_num)
      filter_upwards [e] with u hu
      have h1 := (eval_S (x0 := 0) (dx := 1) (y := nakSamples) (z := z) (by norm_num)
        (show 0 + 1 < 4 by norm_num) (x := u) (by simpa using hu.1) (by simpa using hu.2)).2.1
      have h2 := hF u hu.1 (by linarith [hu.2])
      rw [h1] at h2
      simpa using h2.symm
    have hv : F1 1 = S1 0 1 nakSamples z 1 1 := by
      have h1 := (eval_S (x0 := 0) (dx := 1) (y := nakSamples) (z := z) (by norm_num)
        (show 1 + 1 < 4 by norm_num) (x := 1) (by norm_num) (by norm_num)).2.1
      have h2 := hF 1 (by norm_num) (by norm_num)
      rw [h1] at h2
      simpa using h2.symm
    have t1 : Tendsto F1 (𝓝[<] 1) (𝓝 (F1 1)) := hc.tendsto.mono_left nhdsWithin_le_nhds
    have t2 : Tendsto F1 (𝓝[<] 1) (𝓝 (S1 0 1 nakSamples z 0 1)) := by
      have := (deriv_S1 (x0 := 0) (y := nakSamples) (z := z) one_ne_zero 0 1).continuousAt.tendsto
      exact (this.mono_left nhdsWithin_le_nhds).congr' hl.symm
    have h := tendsto_nhds_unique t1 t2
    rw [hv] at h
    norm_num [S1, nakSamples, z0, z1, z2] at h

/-! ## The hypotheses can be met -/

example : ∃ yp', linearPrepare (fun _ => 0) (fun i => ((i * i : Nat) : ℚ)) (1 / 2) 5 = (yp', true) :=
  ⟨_, by unfold linearPrepare; rw [if_pos ⟨by norm_num, by norm_num⟩]⟩

example : ∃ z, cubicPrepare (fun _ => (0 : ℝ)) (fun i => ((i * i : Nat) : ℝ)) 1 6 .natural .clamped 0 2
    = (z, true) :=
  ⟨_, by unfold cubicPrepare; rw [if_pos ⟨by norm_num, by norm_num⟩, if_pos ⟨by simp, by simp⟩]⟩

/-- A table of the square function, evaluated between two samples. -/
example : linearY (5 / 2 : ℚ) 0 1 (fun i => ((i * i : Nat) : ℚ))
    (linearPrepare (fun _ => 0) (fun i => ((i * i : Nat) : ℚ)) 1 5).1 5 = .ok (13 / 2) := by
  decide +kernel

end SixTrack
