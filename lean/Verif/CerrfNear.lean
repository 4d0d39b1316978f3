import Verif.CerrfCheck
import Verif.CerrfCut
import Verif.CerrfFar
import Verif.CerrfSeries
import Mathlib.Analysis.Complex.ExponentialBounds

/-!
# The error in the first branch of `cerrf`
-/

namespace SixTrack
namespace Beam

open Complex

namespace Cells

theorem all_iff {f : ℕ → Bool} : ∀ {n : ℕ}, all f n = true → ∀ i, i < n → f i = true
  | 0, _, i, hi => absurd hi (Nat.not_lt_zero i)
  | n + 1, h, i, hi => by
    rw [all, Bool.and_eq_true] at h
    rcases Nat.lt_succ_iff_lt_or_eq.mp hi with h1 | h1
    · exact all_iff h.2 i h1
    · rw [h1]; exact h.1

theorem exp_eighth : Real.exp (1 / 8) ≤ 113315 / 100000 := by
  have h1 : Real.exp (1 / 8) ^ 8 = Real.exp 1 := by
    rw [← Real.exp_nat_mul]
    norm_num
  have h2 := Real.exp_one_lt_d9
  by_contra hc
  push Not at hc
  have h3 : (113315 / 100000 : ℝ) ^ 8 < Real.exp (1 / 8) ^ 8 := by gcongr
  rw [h1] at h3
  norm_num at h3 h2
  linarith

theorem exp_kappa {v : ℝ} {κ : ℕ} (h : 8 * v ≤ κ) : Real.exp v ≤ (113315 / 100000) ^ κ := by
  have h1 : Real.exp (1 / 8) ^ κ = Real.exp (κ / 8) := by
    rw [← Real.exp_nat_mul]
    congr 1
    ring
  calc Real.exp v ≤ Real.exp (κ / 8) := Real.exp_le_exp.mpr (by linarith)
    _ = Real.exp (1 / 8) ^ κ := h1.symm
    _ ≤ _ := pow_le_pow_left₀ (Real.exp_pos _).le exp_eighth κ

theorem exp_neg_nat (n : ℕ) : Real.exp (-n) ≤ (1000000 / 2718281) ^ n := by
  have h1 : Real.exp (-n) = Real.exp (-1) ^ n := by
    rw [← Real.exp_nat_mul]
    congr 1
    ring
  rw [h1]
  refine pow_le_pow_left₀ (Real.exp_pos _).le ?_ n
  have h2 := Real.exp_one_gt_d9
  rw [Real.exp_neg, inv_le_comm₀ (Real.exp_pos 1) (by norm_num)]
  norm_num at h2 ⊢
  linarith

/-- The direction as a complex number. -/
noncomputable def Dir.toC (d : Dir) : ℂ := ⟨d.c / d.h, d.s / d.h⟩

structure Dir.Good (d : Dir) : Prop where
  h0 : 0 < d.h
  cs : d.s < d.c
  norm : ‖d.toC‖ = 1
  re : 0 < d.toC.re
  a : (d.toC ^ 2).re = ((d.c : ℝ) ^ 2 - (d.s : ℝ) ^ 2) / (d.h : ℝ) ^ 2
  sub : ((d.c ^ 2 - d.s ^ 2 : ℕ) : ℝ) = (d.c : ℝ) ^ 2 - (d.s : ℝ) ^ 2
  apos : 0 < (d.c : ℝ) ^ 2 - (d.s : ℝ) ^ 2
  S : Real.sqrt (Real.pi / (d.toC ^ 2).re) ≤ d.S / 10000

theorem Dir.ok_good {d : Dir} (h : d.ok = true) : d.Good := by
  simp only [Dir.ok, Bool.and_eq_true, decide_eq_true_eq] at h
  obtain ⟨⟨h1, h2⟩, h3⟩ := h
  have hh : 0 < d.h := by
    rcases Nat.eq_zero_or_pos d.h with h0 | h0
    · rw [h0] at h1
      have : d.c ^ 2 = 0 := by omega
      have : d.c = 0 := by simpa using this
      omega
    · exact h0
  have hhR : (0 : ℝ) < d.h := by exact_mod_cast hh
  have h1R : (d.c : ℝ) ^ 2 + (d.s : ℝ) ^ 2 = (d.h : ℝ) ^ 2 := by exact_mod_cast h1
  have h2R : (d.s : ℝ) < d.c := by exact_mod_cast h2
  have hs0 : (0 : ℝ) ≤ d.s := by positivity
  have hsub : ((d.c ^ 2 - d.s ^ 2 : ℕ) : ℝ) = (d.c : ℝ) ^ 2 - (d.s : ℝ) ^ 2 := by
    rw [Nat.cast_sub (Nat.pow_le_pow_left h2.le 2)]
    push_cast
    ring
  have ha : 0 < (d.c : ℝ) ^ 2 - (d.s : ℝ) ^ 2 := by nlinarith
  have hre : (d.toC ^ 2).re = ((d.c : ℝ) ^ 2 - (d.s : ℝ) ^ 2) / (d.h : ℝ) ^ 2 := by
    rw [sq, mul_re]
    simp only [Dir.toC]
    field_simp
  refine ⟨hh, h2, ?_, ?_, hre, hsub, ha, ?_⟩
  · rw [norm_def, Real.sqrt_eq_one, normSq_apply]
    simp only [Dir.toC]
    field_simp
    linarith
  · simp only [Dir.toC]
    have : (0 : ℝ) < d.c := by linarith
    positivity
  · rw [Real.sqrt_le_left (by positivity), hre]
    have h3R : (314160000 : ℝ) * (d.h : ℝ) ^ 2 ≤ (d.S : ℝ) ^ 2 * ((d.c : ℝ) ^ 2 - (d.s : ℝ) ^ 2) := by
      rw [← hsub]
      exact_mod_cast h3
    have hpi := Real.pi_lt_d4
    rw [div_div_eq_mul_div, div_pow, div_le_div_iff₀ ha (by norm_num)]
    nlinarith [mul_pos hhR hhR]

theorem kOk_exp {d : Dir} (hd : d.Good) {b κ : ℕ} (h : kOk d b κ = true) :
    Real.exp (((b : ℝ) / 1000) ^ 2 / (d.toC ^ 2).re) ≤ (113315 / 100000) ^ κ := by
  apply exp_kappa
  rw [kOk, decide_eq_true_eq] at h
  have h' : (8 * (b : ℝ) ^ 2 * (d.h : ℝ) ^ 2) ≤ κ * (1000000 * ((d.c : ℝ) ^ 2 - (d.s : ℝ) ^ 2)) := by
    rw [← hd.sub]
    exact_mod_cast h
  have hh : (0 : ℝ) < d.h := by exact_mod_cast hd.h0
  rw [hd.a]
  have ha := hd.apos
  rw [div_div_eq_mul_div, ← mul_div_assoc, div_le_iff₀ ha]
  nlinarith

/-- Where a point of a cell is. -/
structure Pt (k l i : ℕ) (x y q : ℝ) : Prop where
  i27 : i < 27
  x0 : (i : ℝ) / 5 ≤ x
  x1 : i < 26 → x ≤ (i + 1) / 5
  x2 : x < 533 / 100
  y0 : 0 ≤ y
  y1 : y < 429 / 100
  hq : q = nearQ x y
  k0 : (k : ℝ) ≤ 23 * q
  k1 : 23 * q < k + 1
  l0 : (l : ℝ) ≤ 21 * q
  l1 : 21 * q < l + 1

namespace Pt

variable {k l i : ℕ} {x y q : ℝ} (P : Pt k l i x y q)
include P

theorem xnn : 0 ≤ x := le_trans (by positivity) P.x0

theorem qpos : 0 < q := by rw [P.hq]; exact nearQ_pos P.xnn P.x2 P.y1

theorem qle : q ≤ 1 := by rw [P.hq]; exact nearQ_le P.xnn P.x2 P.y0 P.y1

theorem qa_le : (qa k l : ℝ) ≤ 483 * q := by
  have h1 := P.k0
  have h2 := P.l0
  rw [qa, Nat.cast_max, max_le_iff]
  push_cast
  constructor <;> linarith

theorem le_qb : 483 * q ≤ qb k l := by
  have h1 := P.k1
  have h2 := P.l1
  have h3 := P.qle
  rw [qb, Nat.cast_min, Nat.cast_min, le_min_iff, le_min_iff]
  push_cast
  refine ⟨⟨?_, ?_⟩, ?_⟩ <;> linarith

omit P in
theorem sq_arg (x : ℝ) : (1 - x / (533 / 100) * (x / (533 / 100))) * (533000 : ℝ) ^ 2 = (284089 - 10000 * x ^ 2) * 1000000 := by
  ring

theorem sHi_ge (h : sOk i = true) : Real.sqrt (1 - x / (533 / 100) * (x / (533 / 100))) * 533000 ≤ sHi i := by
  simp only [sOk, Bool.and_eq_true, decide_eq_true_eq] at h
  have h2 := h.2
  have hi := P.i27
  have hle : 400 * i ^ 2 ≤ 284089 := by nlinarith
  have h2R : (284089 - 400 * (i : ℝ) ^ 2) * 1000000 ≤ (sHi i : ℝ) ^ 2 := by
    have : (((284089 - 400 * i ^ 2) * 1000000 : ℕ) : ℝ) ≤ ((sHi i ^ 2 : ℕ) : ℝ) := by exact_mod_cast h2
    rw [Nat.cast_mul, Nat.cast_sub hle] at this
    push_cast at this
    exact this
  have ht : (0 : ℝ) ≤ sHi i := Nat.cast_nonneg _
  generalize (sHi i : ℝ) = t at h2R ht ⊢
  clear h h2
  refine le_of_sq_le_sq ?_ ht
  rw [mul_pow, Real.sq_sqrt (nearQ_arg P.xnn P.x2).le, sq_arg]
  have hx := P.x0
  have : ((i : ℝ) / 5) ^ 2 ≤ x ^ 2 := pow_le_pow_left₀ (by positivity) hx 2
  nlinarith

theorem sLo_le (h : sOk i = true) (hi : i < 26) :
    (sLo i : ℝ) ≤ Real.sqrt (1 - x / (533 / 100) * (x / (533 / 100))) * 533000 := by
  simp only [sOk, Bool.and_eq_true, decide_eq_true_eq] at h
  have h1 := h.1
  have hle : 400 * (i + 1) ^ 2 ≤ 284089 := by nlinarith
  have h1R : (sLo i : ℝ) ^ 2 ≤ (284089 - 400 * ((i : ℝ) + 1) ^ 2) * 1000000 := by
    have : ((sLo i ^ 2 : ℕ) : ℝ) ≤ (((284089 - 400 * (i + 1) ^ 2) * 1000000 : ℕ) : ℝ) := by exact_mod_cast h1
    rw [Nat.cast_mul, Nat.cast_sub hle] at this
    push_cast at this
    exact this
  generalize (sLo i : ℝ) = t at h1R ⊢
  clear h h1
  refine le_of_sq_le_sq ?_ (by positivity)
  rw [mul_pow, Real.sq_sqrt (nearQ_arg P.xnn P.x2).le, sq_arg]
  have hx := P.x1 hi
  have h4 : x ^ 2 ≤ (((i : ℝ) + 1) / 5) ^ 2 := pow_le_pow_left₀ P.xnn hx 2
  rw [div_pow] at h4
  clear hle
  linarith

theorem root_pos : 0 < Real.sqrt (1 - x / (533 / 100) * (x / (533 / 100))) := Real.sqrt_pos.mpr (nearQ_arg P.xnn P.x2)

theorem q_eq : q = (1 - y / (429 / 100)) * Real.sqrt (1 - x / (533 / 100) * (x / (533 / 100))) := P.hq

theorem feasible_true (h : sOk i = true) : feasible k l i = true := by
  have h1 := P.qa_le
  have h2 := P.le_qb
  have h3 := P.sHi_ge h
  have h4 := P.root_pos
  have h5 := P.q_eq
  have h6 : q ≤ Real.sqrt (1 - x / (533 / 100) * (x / (533 / 100))) := by
    rw [h5]
    have := P.y0
    nlinarith [mul_nonneg (div_nonneg this (show (0 : ℝ) ≤ 429 / 100 by norm_num)) h4.le]
  simp only [feasible, Bool.and_eq_true, decide_eq_true_eq]
  constructor
  · exact_mod_cast h1.trans h2
  · have : (533000 * qa k l : ℝ) ≤ 483 * sHi i := by nlinarith
    exact_mod_cast this

theorem yLo_le (hs : sOk i = true) (hy : yOk k l i = true) : (yLo k l i : ℝ) ≤ 1000 * y := by
  simp only [yOk, Bool.or_eq_true, Bool.and_eq_true, decide_eq_true_eq] at hy
  rcases hy with hy | ⟨hi, hy⟩
  · rw [hy]
    have := P.y0
    push_cast
    linarith
  · have hyR : 483 * (sLo i : ℝ) * yLo k l i + 4290 * (533000 * qb k l) ≤ 4290 * (483 * sLo i) := by exact_mod_cast hy
    have h1 := P.sLo_le hs hi
    have h2 := P.root_pos
    have h3 := P.q_eq
    have h4 := P.le_qb
    have h5 := P.qpos
    set σ := Real.sqrt (1 - x / (533 / 100) * (x / (533 / 100))) with hσ
    have hs0 : (0 : ℝ) ≤ sLo i := by positivity
    have hs1 : (0 : ℝ) < sLo i := by
      rcases hs0.eq_or_lt with h0 | h0
      · rw [← h0] at hyR
        nlinarith
      · exact h0
    have h6 : 4290 * (533000 * (483 * q)) ≤ (4290 - (yLo k l i : ℝ)) * (483 * sLo i) := by nlinarith
    have h7 : 0 ≤ 4290 - (yLo k l i : ℝ) := by
      by_contra hc
      push Not at hc
      nlinarith [mul_pos (neg_pos.mpr hc) hs1]
    have h8 : 4290 * q ≤ (4290 - (yLo k l i : ℝ)) * σ := by nlinarith [mul_le_mul_of_nonneg_left h1 h7]
    have h9 : 4290 * q = (4290 - 1000 * y) * σ := by rw [h3]; ring
    rw [h9] at h8
    have := le_of_mul_le_mul_right h8 h2
    linarith

theorem reLo_le (hs : sOk i = true) (hy : yOk k l i = true) (hr : reOk k l i = true) :
    (reLo k l i : ℝ) ≤ 1000 * (y + 8 / 5 * q) := by
  rw [reOk, decide_eq_true_eq] at hr
  have hrR : 483 * (reLo k l i : ℝ) ≤ 483 * yLo k l i + 1600 * qa k l := by exact_mod_cast hr
  have h1 := P.yLo_le hs hy
  have h2 := P.qa_le
  linarith

theorem xa_le : (xa i : ℝ) ≤ 1000 * x := by
  have := P.x0
  rw [xa]
  push_cast
  linarith

end Pt

theorem re_mul_dir (d : Dir) (X x : ℝ) : (cfU X x * d.toC).re = (d.c * X + d.s * x) / d.h := by
  rw [mul_re]
  simp only [cfU, Dir.toC]
  ring

/-- The bound of the moment. -/
theorem momHi_ok {k l i : ℕ} {d : Dir} (hd : d.Good) (h : momOk k l i d = true) {X x : ℝ}
    (hX : (reLo k l i : ℝ) ≤ 1000 * X) (hx : (xa i : ℝ) ≤ 1000 * x) :
    ‖ray 1 (10 + l) (cfU X x)‖ * (momHi k l i d).2 ≤ (momHi k l i d).1 ∧ 0 < (momHi k l i d).2 := by
  simp only [momOk, Bool.and_eq_true, decide_eq_true_eq] at h
  obtain ⟨⟨⟨h1, h2⟩, h3⟩, h4⟩ := h
  set ν := 10 + l with hν
  have hac : 0 < (d.toC ^ 2).re := by
    rw [hd.a]
    have := hd.apos
    have hh : (0 : ℝ) < d.h := by exact_mod_cast hd.h0
    positivity
  have hh : (0 : ℝ) < d.h := by exact_mod_cast hd.h0
  rw [← ray_eq hac hd.re]
  have hβ : ((beta d k l i : ℕ) : ℝ) / 1000 ≤ (cfU X x * d.toC).re := by
    rw [re_mul_dir, div_le_div_iff₀ (by norm_num) hh]
    have : ((beta d k l i : ℕ) : ℝ) * d.h ≤ d.c * reLo k l i + d.s * xa i := by exact_mod_cast h1
    have hc : (0 : ℝ) ≤ d.c := by positivity
    have hs : (0 : ℝ) ≤ d.s := by positivity
    nlinarith [mul_le_mul_of_nonneg_left hX hc, mul_le_mul_of_nonneg_left hx hs]
  have hβ0 : (0 : ℝ) < (beta d k l i : ℕ) := by exact_mod_cast h2
  by_cases hi : i < 26
  · have e : momHi k l i d = ((ν * 1000000000) ^ ν * d.S * 113315 ^ kappa d (mu d k l i - beta d k l i),
        (2 * mu d k l i * 2718281) ^ ν * 10000 * 100000 ^ kappa d (mu d k l i - beta d k l i)) := by
      rw [momHi, if_pos hi]
    rw [e]
    set m := mu d k l i
    set b := m - beta d k l i with hb
    set κ := kappa d b
    have hm : (0 : ℝ) < m := by exact_mod_cast h3
    refine ⟨?_, by positivity⟩
    have hb' : (m : ℝ) / 1000 - (beta d k l i : ℕ) / 1000 ≤ (b : ℝ) / 1000 := by
      have : m ≤ b + beta d k l i := by omega
      have : (m : ℝ) ≤ b + (beta d k l i : ℕ) := by exact_mod_cast this
      linarith
    have hr := norm_ray_le' hac hd.norm (n := ν) (show (0 : ℝ) < m / 1000 by positivity) hβ hb'
    have he := kOk_exp hd h4
    have hfin : ‖ray d.toC ν (cfU X x)‖ ≤ (ν / (2 * (m / 1000))) ^ ν * (1000000 / 2718281) ^ ν *
        (d.S / 10000 * (113315 / 100000) ^ κ) := by
      refine hr.trans ?_
      have e1 := exp_neg_nat ν
      have e2 := hd.S
      gcongr
    refine (mul_le_mul_of_nonneg_right hfin (by positivity)).trans (le_of_eq ?_)
    push_cast
    rw [← mul_pow, show ((ν : ℝ) / (2 * (m / 1000)) * (1000000 / 2718281)) = (ν * 1000000000) / (2 * m * 2718281) by
      field_simp; ring, div_pow, div_pow]
    field_simp
  · have e : momHi k l i d = (ν.factorial * 1000 ^ (ν + 1), (2 * beta d k l i) ^ (ν + 1)) := by
      rw [momHi, if_neg hi]
    rw [e]
    refine ⟨?_, by positivity⟩
    have hpos : 0 < (cfU X x * d.toC).re := lt_of_lt_of_le (by positivity) hβ
    have hr := norm_ray_le hac hd.norm ν hpos
    push_cast
    rw [le_div_iff₀ (by positivity)] at hr
    have h5 : (2 * ((beta d k l i : ℕ) : ℝ)) ^ (ν + 1) ≤ (2 * (cfU X x * d.toC).re) ^ (ν + 1) * 1000 ^ (ν + 1) := by
      rw [← mul_pow]
      apply pow_le_pow_left₀ (by positivity)
      linarith
    calc ‖ray d.toC ν (cfU X x)‖ * (2 * ((beta d k l i : ℕ) : ℝ)) ^ (ν + 1)
        ≤ ‖ray d.toC ν (cfU X x)‖ * ((2 * (cfU X x * d.toC).re) ^ (ν + 1) * 1000 ^ (ν + 1)) := by gcongr
      _ = (‖ray d.toC ν (cfU X x)‖ * (2 * (cfU X x * d.toC).re) ^ (ν + 1)) * 1000 ^ (ν + 1) := by ring
      _ ≤ _ := by gcongr

/-! ### The lower bound of the polynomial -/

theorem poly_ok (X x : ℤ) : ∀ (f : ℕ) (p p' : ℤ × ℤ) (n : ℕ),
    (⟨p.1, p.2⟩ : ℂ) = 1000 ^ n * hp n ⟨X / 1000, -(x / 1000)⟩ →
    (n ≠ 0 → (⟨p'.1, p'.2⟩ : ℂ) = 1000 ^ (n - 1) * hp (n - 1) ⟨X / 1000, -(x / 1000)⟩) →
    (⟨(poly X x f p p' n).1, (poly X x f p p' n).2⟩ : ℂ) = 1000 ^ (n + f) * hp (n + f) ⟨X / 1000, -(x / 1000)⟩ := by
  intro f
  induction f with
  | zero => intro p p' n h _; exact h
  | succ f ih =>
    intro p p' n h h'
    rw [poly, show n + (f + 1) = n + 1 + f by omega]
    refine ih _ _ (n + 1) ?_ (fun _ => h)
    set U : ℂ := ⟨X / 1000, -(x / 1000)⟩ with hU
    have e1 : (⟨((X * p.1 + x * p.2 + 500000 * n * p'.1 : ℤ) : ℝ), ((X * p.2 - x * p.1 + 500000 * n * p'.2 : ℤ) : ℝ)⟩ : ℂ) =
        1000 * U * ⟨p.1, p.2⟩ + 500000 * n * ⟨p'.1, p'.2⟩ := by
      have e2 : (1000 : ℂ) * U = ⟨X, -x⟩ := by
        rw [show (1000 : ℂ) = ((1000 : ℝ) : ℂ) by norm_num]
        apply Complex.ext
        · rw [re_ofReal_mul]; simp [hU]; field_simp
        · rw [im_ofReal_mul]; simp [hU]; field_simp
      have e3 : (500000 : ℂ) * n = ((500000 * n : ℝ) : ℂ) := by push_cast; ring
      rw [e2, e3]
      apply Complex.ext
      · rw [add_re, re_ofReal_mul, mul_re]; push_cast; ring
      · rw [add_im, im_ofReal_mul, mul_im]; push_cast; ring
    rw [e1, h]
    rcases n with _ | n
    · simp [hp]
    · rw [h' (by simp)]
      simp only [Nat.add_sub_cancel]
      rw [hp, pow_succ, pow_succ]
      push_cast
      ring

theorem tau_prod {U : ℂ} (hU : 26 / 5 ≤ -U.im) (ht : all (fun n => decide (0 < tau n)) 14 = true) :
    ∀ n, n ≤ 14 → (tauProd n : ℝ) ≤ 1000 ^ n * ‖hp n U‖ := by
  have hpos : ∀ n, n ≤ 13 → 0 < tau n := fun n hn => by
    have := all_iff ht n (by omega)
    simpa using this
  have hfar := hp_far (U := U) (τ := fun n => (tau n : ℝ) / 1000) hU (N := 13)
    (fun n hn => by have : (0 : ℝ) < tau n := by exact_mod_cast hpos n hn
                    positivity)
    (by simp [tau]; norm_num)
    (fun n hn => by
      have h0 : (0 : ℝ) < tau n := by exact_mod_cast hpos n (by omega)
      have h1 : tau (n + 1) = 5200 - ((n + 1) * 500000 / tau n + 1) := rfl
      have h2 := hpos (n + 1) (by omega)
      have h3 : tau (n + 1) + ((n + 1) * 500000 / tau n + 1) = 5200 := by omega
      have h4 : (n + 1) * 500000 < tau n * ((n + 1) * 500000 / tau n + 1) :=
        Nat.lt_mul_div_succ _ (hpos n (by omega))
      generalize (n + 1) * 500000 / tau n = t at h3 h4
      have h5 : ((n + 1) * 500000 : ℝ) < tau n * (5200 - tau (n + 1)) := by
        have h6 : t + 1 = 5200 - tau (n + 1) := by omega
        rw [h6] at h4
        have h7 : tau (n + 1) ≤ 5200 := by omega
        have h8 : (((n + 1) * 500000 : ℕ) : ℝ) < ((tau n * (5200 - tau (n + 1)) : ℕ) : ℝ) := by exact_mod_cast h4
        rw [Nat.cast_mul (tau n), Nat.cast_sub h7] at h8
        push_cast at h8
        exact h8
      have h9 : ((n : ℝ) + 1) / (2 * ((tau n : ℝ) / 1000)) ≤ 26 / 5 - (tau (n + 1) : ℝ) / 1000 := by
        rw [div_le_iff₀ (by positivity)]
        nlinarith
      linarith)
  intro n
  induction n with
  | zero => intro _; simp [tauProd, hp]
  | succ n ih =>
    intro hn
    have h1 := ih (by omega)
    have h2 := (hfar n (by omega)).2
    rw [tauProd]
    push_cast
    have h3 : (0 : ℝ) ≤ tau n := by positivity
    calc (tauProd n : ℝ) * tau n ≤ 1000 ^ n * ‖hp n U‖ * tau n := by gcongr
      _ = 1000 ^ (n + 1) * ((tau n : ℝ) / 1000 * ‖hp n U‖) := by rw [pow_succ]; ring
      _ ≤ _ := by gcongr

theorem pLo_ok {k l i : ℕ} {x y q : ℝ} (P : Pt k l i x y q) (hs : sOk i = true) (hy : yOk k l i = true)
    (hr : reOk k l i = true) (h0 : 26 ≤ i ∨ 0 < reLo k l i) (ht : all (fun n => decide (0 < tau n)) 14 = true) :
    ((pLo k l i).1 : ℝ) ≤ normSq (hp (10 + l) (cfU (y + 8 / 5 * q) x)) * 10 ^ (6 * (10 + l)) *
      (113315 / 100000) ^ (pLo k l i).2 := by
  have hX := P.reLo_le hs hy hr
  by_cases hi : i < 26
  · have hre : 0 < reLo k l i := by omega
    have hreR : (0 : ℝ) < reLo k l i := by exact_mod_cast hre
    rw [pLo]
    simp only [if_pos hi]
    set X0 : ℝ := (reLo k l i : ℝ) / 1000 with hX0
    set xc : ℝ := ((xa i + 100 : ℕ) : ℝ) / 1000 with hxc
    have hX0p : 0 < X0 := by positivity
    have h1 := poly_ok (reLo k l i : ℤ) ((xa i : ℤ) + 100) (10 + l) (1, 0) (0, 0) 0
      (by simp [hp]; apply Complex.ext <;> simp) (by simp)
    set p := poly (reLo k l i) ((xa i : ℤ) + 100) (10 + l) (1, 0) (0, 0) 0
    have h2 := congrArg normSq h1
    have e1 : (⟨((reLo k l i : ℤ) : ℝ) / 1000, -((((xa i : ℤ) + 100 : ℤ) : ℝ) / 1000)⟩ : ℂ) = ⟨X0, -xc⟩ := by
      simp [hX0, hxc]
    rw [e1, zero_add, map_mul, map_pow, normSq_apply] at h2
    have e2 : normSq (1000 : ℂ) ^ (10 + l) = (10 : ℝ) ^ (6 * (10 + l)) := by
      rw [pow_mul]
      congr 1
      rw [show (1000 : ℂ) = ((1000 : ℝ) : ℂ) by norm_num, normSq_ofReal]
      norm_num
    rw [e2] at h2
    have e3 : (((p.1 * p.1 + p.2 * p.2).toNat : ℕ) : ℝ) = (p.1 : ℝ) * p.1 + (p.2 : ℝ) * p.2 := by
      have : ((p.1 * p.1 + p.2 * p.2).toNat : ℤ) = p.1 * p.1 + p.2 * p.2 :=
        Int.toNat_of_nonneg (add_nonneg (mul_self_nonneg _) (mul_self_nonneg _))
      have : (((p.1 * p.1 + p.2 * p.2).toNat : ℤ) : ℝ) = ((p.1 * p.1 + p.2 * p.2 : ℤ) : ℝ) := by rw [this]
      push_cast at this
      exact_mod_cast this
    simp only at h2
    rw [e3, h2]
    have hm := hp_mono (10 + l) (x := -x) hX0p.le (show X0 ≤ y + 8 / 5 * q by rw [hX0]; linarith)
    have hsd := hp_side (10 + l) (x := x) (x0 := xc) hX0p
    have hab : |x - xc| ≤ 1 / 10 := by
      have a1 := P.x0
      have a2 := P.x1 hi
      rw [abs_le, hxc, xa]
      push_cast
      constructor <;> linarith
    have hex : Real.exp (((10 + l : ℕ) : ℝ) * |x - xc| / X0) ≤ (113315 / 100000) ^ (800 * (10 + l) / reLo k l i + 1) := by
      apply exp_kappa
      have h5 : 800 * (10 + l) < reLo k l i * (800 * (10 + l) / reLo k l i + 1) := Nat.lt_mul_div_succ _ hre
      have h6 : (800 * ((10 + l : ℕ) : ℝ)) < reLo k l i * ((800 * (10 + l) / reLo k l i + 1 : ℕ) : ℝ) := by exact_mod_cast h5
      rw [← mul_div_assoc, div_le_iff₀ hX0p, hX0]
      have h7 : ((10 + l : ℕ) : ℝ) * |x - xc| ≤ ((10 + l : ℕ) : ℝ) * (1 / 10) := by gcongr
      linarith
    set A := normSq (hp (10 + l) ⟨X0, -xc⟩)
    set B := normSq (hp (10 + l) (cfU (y + 8 / 5 * q) x)) with hB
    have hB' : A * Real.exp (-(((10 + l : ℕ) : ℝ) * |x - xc| / X0)) ≤ B := hsd.trans hm
    rw [Real.exp_neg] at hB'
    have hE := Real.exp_pos (((10 + l : ℕ) : ℝ) * |x - xc| / X0)
    rw [mul_inv_le_iff₀ hE] at hB'
    have hBn : 0 ≤ B := normSq_nonneg _
    have : A ≤ B * (113315 / 100000) ^ (800 * (10 + l) / reLo k l i + 1) :=
      hB'.trans (mul_le_mul_of_nonneg_left hex hBn)
    calc (10 : ℝ) ^ (6 * (10 + l)) * A ≤ 10 ^ (6 * (10 + l)) * (B * (113315 / 100000) ^ (800 * (10 + l) / reLo k l i + 1)) := by
          gcongr
      _ = _ := by ring
  · have hi' : i = 26 := by have := P.i27; omega
    have hl : l ≤ 4 := by
      have hf := P.feasible_true hs
      simp only [feasible, Bool.and_eq_true, decide_eq_true_eq] at hf
      have h2 := hf.2
      rw [hi', show sHi 26 = 117001 by decide +kernel] at h2
      have h3 : 23 * l ≤ qa k l := le_max_right _ _
      omega
    rw [pLo]
    simp only [if_neg hi, pow_zero, mul_one]
    have h1 := tau_prod (U := cfU (y + 8 / 5 * q) x) (by
      have := P.x0
      rw [hi'] at this
      simp only [cfU_im, neg_neg]
      push_cast at this
      linarith) ht (10 + l) (by omega)
    rw [normSq_eq_norm_sq, Nat.cast_pow]
    refine (pow_le_pow_left₀ (by positivity) h1 2).trans (le_of_eq ?_)
    rw [mul_pow, mul_comm, ← pow_mul, pow_mul 10 6]
    congr 1
    rw [mul_comm (10 + l) 2, pow_mul]
    norm_num

/-- The errors of the continued fraction. -/
theorem okI_error {k l i : ℕ} {x y q : ℝ} (P : Pt k l i x y q) (hs : sOk i = true) (hy : yOk k l i = true)
    (hr : reOk k l i = true) (h0 : 26 ≤ i ∨ 0 < reLo k l i) (ht : all (fun n => decide (0 < tau n)) 14 = true)
    {d : Dir} (hd : d.Good) (hI : okI k l i d = true) {e : ℕ → ℂ} (he : ErrSeq (cfU (y + 8 / 5 * q) x) (10 + l) e)
    (hν : e (10 + l) = mom (cfU (y + 8 / 5 * q) x) (10 + l)) (hN : 7 + k ≤ 10 + l) :
    ‖∑ m ∈ Finset.range (7 + k), ((16 / 5 * q : ℝ) : ℂ) ^ m * e m‖ ≤ 73 / 10 ^ 10 := by
  simp only [okI, Bool.and_eq_true, decide_eq_true_eq] at hI
  obtain ⟨⟨⟨hm, hN2⟩, hE⟩, hT⟩ := hI
  obtain ⟨hM, hden⟩ := momHi_ok hd hm (P.reLo_le hs hy hr) P.xa_le
  have hp := pLo_ok P hs hy hr h0 ht
  have hq := P.qpos
  have hqb := P.le_qb
  have hy0 := P.y0
  set U := cfU (y + 8 / 5 * q) x with hU
  have hUre : U.re = y + 8 / 5 * q := rfl
  have hUpos : 0 < U.re := by rw [hUre]; linarith
  set ν := 10 + l with hνd
  set N := 7 + k with hNd
  set num := (momHi k l i d).1
  set den := (momHi k l i d).2
  set p1 := (pLo k l i).1
  set p2 := (pLo k l i).2
  have hray : (ν.factorial : ℝ) * ‖e ν‖ = ‖ray 1 ν U‖ := by
    have hf : (0 : ℝ) < ν.factorial := by exact_mod_cast Nat.factorial_pos ν
    rw [hν, mom, norm_div, Complex.norm_natCast]
    field_simp
  have hdenR : (0 : ℝ) < den := by exact_mod_cast hden
  -- the first error
  have hz : ‖e 0‖ ≤ 55 / 10 ^ 10 := by
    have h1 := err_zero he (by omega)
    rw [hray] at h1
    have hH : 0 < normSq (Beam.hp ν U) := normSq_pos.mpr (hp_ne hUpos ν)
    have hHn : normSq (Beam.hp ν U) = ‖Beam.hp ν U‖ ^ 2 := normSq_eq_norm_sq _
    set H := normSq (Beam.hp ν U)
    have h2 : ‖e 0‖ ^ 2 * H = ‖ray 1 ν U‖ ^ 2 := by rw [hHn, ← mul_pow, h1]
    have h3 : ‖e 0‖ ^ 2 * H * (den : ℝ) ^ 2 ≤ (num : ℝ) ^ 2 := by
      rw [h2, ← mul_pow]
      exact pow_le_pow_left₀ (by positivity) hM 2
    have hER : (num : ℝ) ^ 2 * 113315 ^ p2 * 10 ^ (6 * ν) * 10 ^ 20 ≤ 55 ^ 2 * p1 * (den : ℝ) ^ 2 * 100000 ^ p2 := by
      exact_mod_cast hE
    have h4 : (55 : ℝ) ^ 2 * p1 * (den : ℝ) ^ 2 * 100000 ^ p2 ≤
        55 ^ 2 * (H * 10 ^ (6 * ν) * (113315 / 100000) ^ p2) * (den : ℝ) ^ 2 * 100000 ^ p2 := by gcongr
    have h5 : (55 : ℝ) ^ 2 * (H * 10 ^ (6 * ν) * (113315 / 100000) ^ p2) * (den : ℝ) ^ 2 * 100000 ^ p2 =
        (55 ^ 2 * H * (den : ℝ) ^ 2) * (113315 ^ p2 * 10 ^ (6 * ν)) := by
      rw [div_pow]
      field_simp
    have h6 : (num : ℝ) ^ 2 * 10 ^ 20 * (113315 ^ p2 * 10 ^ (6 * ν)) ≤
        (55 ^ 2 * H * (den : ℝ) ^ 2) * (113315 ^ p2 * 10 ^ (6 * ν)) := by
      rw [← h5]
      refine le_trans (le_of_eq ?_) (hER.trans h4)
      ring
    have h7 : (num : ℝ) ^ 2 * 10 ^ 20 ≤ 55 ^ 2 * H * (den : ℝ) ^ 2 := le_of_mul_le_mul_right h6 (by positivity)
    have h8 : ‖e 0‖ ^ 2 * 10 ^ 20 * (H * (den : ℝ) ^ 2) ≤ 55 ^ 2 * (H * (den : ℝ) ^ 2) := by
      calc ‖e 0‖ ^ 2 * 10 ^ 20 * (H * (den : ℝ) ^ 2) = ‖e 0‖ ^ 2 * H * (den : ℝ) ^ 2 * 10 ^ 20 := by ring
        _ ≤ (num : ℝ) ^ 2 * 10 ^ 20 := by gcongr
        _ ≤ _ := h7.trans (le_of_eq (by ring))
    have h9 : ‖e 0‖ ^ 2 * 10 ^ 20 ≤ 55 ^ 2 := le_of_mul_le_mul_right h8 (by positivity)
    refine le_of_sq_le_sq ?_ (by positivity)
    rw [div_pow, le_div_iff₀ (by positivity)]
    refine le_trans (le_of_eq ?_) h9
    norm_num
  -- the last two errors
  set s : ℝ := 16 / 5 * q with hs'
  have hs0 : 0 < s := by positivity
  have hsU : s ≤ 2 * U.re := by rw [hUre]; linarith
  have hsum := errSum_le he (n := 6 + k) (by omega) hs0.le hsU
  rw [show 6 + k + 1 = N by omega, show 6 + k + 2 = N + 1 by omega] at hsum
  have hdn := err_down hUpos he
  have hNf : (0 : ℝ) < N.factorial := by exact_mod_cast Nat.factorial_pos N
  set R := ‖ray 1 ν U‖ with hR
  set W : ℝ := R * 2 ^ (ν - N) * s ^ (2 * N - ν) / N.factorial with hW
  have hA : s ^ N * ‖e N‖ ≤ W := by
    have h1 := hdn (ν - N) (by omega)
    rw [show ν - (ν - N) = N by omega, hray] at h1
    have h2 : (s / 2) ^ (ν - N) ≤ U.re ^ (ν - N) := pow_le_pow_left₀ (by positivity) (by linarith) _
    have h3 : (N.factorial : ℝ) * (s / 2) ^ (ν - N) * ‖e N‖ ≤ R := le_trans (by gcongr) h1
    rw [hW, le_div_iff₀ hNf]
    have h4 : s ^ N = s ^ (2 * N - ν) * s ^ (ν - N) := by
      rw [← pow_add]
      congr 1
      omega
    have h5 : s ^ (ν - N) = 2 ^ (ν - N) * (s / 2) ^ (ν - N) := by rw [← mul_pow]; congr 1; ring
    calc s ^ N * ‖e N‖ * N.factorial
        = ((N.factorial : ℝ) * (s / 2) ^ (ν - N) * ‖e N‖) * (2 ^ (ν - N) * s ^ (2 * N - ν)) := by rw [h4, h5]; ring
      _ ≤ R * (2 ^ (ν - N) * s ^ (2 * N - ν)) := by gcongr
      _ = _ := by ring
  have hB : s ^ (N + 1) * ‖e (6 + k)‖ / (2 * (((6 + k : ℕ) : ℝ) + 2)) ≤ W := by
    have h1 := hdn (ν - N + 1) (by omega)
    rw [show ν - (ν - N + 1) = 6 + k by omega, hray] at h1
    have h2 : (s / 2) ^ (ν - N + 1) ≤ U.re ^ (ν - N + 1) := pow_le_pow_left₀ (by positivity) (by linarith) _
    have h3 : ((6 + k).factorial : ℝ) * (s / 2) ^ (ν - N + 1) * ‖e (6 + k)‖ ≤ R := le_trans (by gcongr) h1
    have hf : (N.factorial : ℝ) = ((6 + k : ℕ) + 1) * ((6 + k).factorial : ℝ) := by
      rw [show N = 6 + k + 1 by omega, Nat.factorial_succ]
      push_cast
      ring
    rw [hW, div_le_div_iff₀ (by positivity) hNf]
    have h4 : s ^ (N + 1) = s ^ (2 * N - ν) * s ^ (ν - N + 1) := by
      rw [← pow_add]
      congr 1
      omega
    have h5 : s ^ (ν - N + 1) = 2 * 2 ^ (ν - N) * (s / 2) ^ (ν - N + 1) := by
      rw [show (2 : ℝ) * 2 ^ (ν - N) = 2 ^ (ν - N + 1) by ring, ← mul_pow]
      congr 1
      ring
    calc s ^ (N + 1) * ‖e (6 + k)‖ * N.factorial
        = (((6 + k).factorial : ℝ) * (s / 2) ^ (ν - N + 1) * ‖e (6 + k)‖) *
            (2 * 2 ^ (ν - N) * s ^ (2 * N - ν) * (((6 + k : ℕ) : ℝ) + 1)) := by rw [h4, h5, hf]; ring
      _ ≤ R * (2 * 2 ^ (ν - N) * s ^ (2 * N - ν) * (((6 + k : ℕ) : ℝ) + 1)) := by gcongr
      _ ≤ R * (2 * 2 ^ (ν - N) * s ^ (2 * N - ν) * (((6 + k : ℕ) : ℝ) + 2)) := by gcongr; norm_num
      _ = _ := by ring
  have hWle : 2 * W ≤ 18 / 10 ^ 10 := by
    have hTR : 2 * (num : ℝ) * 2 ^ (ν - N) * (16 * qb k l) ^ (2 * N - ν) * 10 ^ 10 ≤
        18 * den * 2415 ^ (2 * N - ν) * N.factorial := by exact_mod_cast hT
    have hsb : s ≤ 16 * (qb k l : ℝ) / 2415 := by rw [hs']; linarith
    have h1 : R ≤ num / den := by rwa [le_div_iff₀ hdenR]
    have h2 : W ≤ num / den * 2 ^ (ν - N) * (16 * (qb k l : ℝ) / 2415) ^ (2 * N - ν) / N.factorial := by
      rw [hW]
      gcongr
    refine (mul_le_mul_of_nonneg_left h2 (by norm_num)).trans ?_
    rw [div_pow, le_div_iff₀ (by positivity)]
    rw [show (2 : ℝ) * (num / den * 2 ^ (ν - N) * ((16 * (qb k l : ℝ)) ^ (2 * N - ν) / 2415 ^ (2 * N - ν)) / N.factorial) *
      10 ^ 10 = 2 * (num : ℝ) * 2 ^ (ν - N) * (16 * qb k l) ^ (2 * N - ν) * 10 ^ 10 /
        (den * 2415 ^ (2 * N - ν) * N.factorial) by field_simp]
    rw [div_le_iff₀ (by positivity)]
    linarith
  refine hsum.trans ?_
  have hfin : (55 / 10 ^ 10 : ℝ) + 18 / 10 ^ 10 = 73 / 10 ^ 10 := by norm_num
  linarith

/-- The error of the series. -/
theorem okT_error {k l i : ℕ} {x y q : ℝ} (P : Pt k l i x y q) (hs : sOk i = true) (hy : yOk k l i = true)
    {d : Dir} (hd : d.Good) (hT : okT k l i d = true) :
    ‖mom (cfU y x) 0 - ∑ m ∈ Finset.range (7 + k), ((16 / 5 * q) ^ m : ℝ) * mom (cfU (y + 8 / 5 * q) x) m‖ ≤
      12 / 10 ^ 10 := by
  simp only [okT, Bool.and_eq_true, decide_eq_true_eq] at hT
  obtain ⟨⟨⟨h1, h2⟩, h3⟩, h4⟩ := hT
  have hyl := P.yLo_le hs hy
  have hxa := P.xa_le
  have hq := P.qpos
  have hqb := P.le_qb
  set θ := theta d k l i
  set b := restB d k l i
  set κ := kappa d b
  have hh : (0 : ℝ) < d.h := by exact_mod_cast hd.h0
  have hac : 0 < (d.toC ^ 2).re := by
    rw [hd.a]
    have := hd.apos
    positivity
  have hθ : (1000 : ℝ) ≤ θ := by exact_mod_cast h1
  have eU : cfU y x + ((8 / 5 * q : ℝ) : ℂ) = cfU (y + 8 / 5 * q) x := by
    apply Complex.ext <;> simp [cfU]
  have hch : (d.c : ℝ) ≤ d.h := by
    have h5 := hd.norm
    have h6 := (le_abs_self _).trans (abs_re_le_norm d.toC)
    rw [h5] at h6
    simp only [Dir.toC] at h6
    rwa [div_le_one hh] at h6
  have hb : (θ : ℝ) / 1000 * (8 / 5 * q) - ((cfU y x + ((8 / 5 * q : ℝ) : ℂ)) * d.toC).re ≤ (b : ℝ) / 1000 := by
    rw [eU, re_mul_dir]
    have h3R : (θ : ℝ) * d.h * (1600 * qb k l) ≤
        483000 * (b * d.h + d.c * yLo k l i + d.s * xa i) + 1000 * d.c * (1600 * qb k l) := by exact_mod_cast h3
    have hc : (0 : ℝ) ≤ d.c := by positivity
    have hs0 : (0 : ℝ) ≤ d.s := by positivity
    have h5 := mul_le_mul_of_nonneg_left hyl hc
    have h6 := mul_le_mul_of_nonneg_left hxa hs0
    have h7 : 0 ≤ (θ : ℝ) * d.h - 1000 * d.c := by nlinarith
    have h8 := mul_le_mul_of_nonneg_left hqb h7
    rw [sub_le_iff_le_add, ← sub_le_iff_le_add', le_div_iff₀ hh]
    linarith
  have hr := series_rest hac hd.re hd.norm (7 + k) (u := cfU y x) (η := 8 / 5 * q) (θ := θ / 1000) (by positivity)
    (by linarith) hb
  rw [eU, show 2 * (8 / 5 * q) = 16 / 5 * q by ring] at hr
  refine hr.trans ?_
  have hexp := kOk_exp hd h2
  have hS := hd.S
  have h5 : Real.sqrt (Real.pi / (d.toC ^ 2).re) * Real.exp (((b : ℝ) / 1000) ^ 2 / (d.toC ^ 2).re) ≤
      d.S / 10000 * (113315 / 100000) ^ κ := by gcongr
  have h4R : (d.S : ℝ) * 113315 ^ κ * 1000 ^ (7 + k) * 10 ^ 10 ≤ 12 * 10000 * 100000 ^ κ * (θ : ℝ) ^ (7 + k) := by
    exact_mod_cast h4
  rw [div_le_div_iff₀ (by positivity) (by positivity)]
  refine (mul_le_mul_of_nonneg_right h5 (by positivity)).trans ?_
  rw [div_pow, div_pow, ← mul_div_assoc (12 : ℝ), le_div_iff₀ (by positivity)]
  rw [show (d.S : ℝ) / 10000 * (113315 ^ κ / 100000 ^ κ) * 10 ^ 10 * 1000 ^ (7 + k) =
    (d.S : ℝ) * 113315 ^ κ * 1000 ^ (7 + k) * 10 ^ 10 / (10000 * 100000 ^ κ) by field_simp]
  rw [div_le_iff₀ (by positivity)]
  linarith

end Cells

open Cells in
/-- The error in the first branch. -/
theorem near_error {x y : ℝ} (hx : 0 ≤ x) (hx' : x < 533 / 100) (hy : 0 ≤ y) (hy' : y < 429 / 100) {r : ℕ → ℂ}
    (h0 : r (nearNu (nearQ x y)) = 0)
    (hr : ∀ k, k < nearNu (nearQ x y) → cfU (y + 8 / 5 * nearQ x y) x + (k + 1) * r (k + 1) ≠ 0 ∧
        r k = 1 / (2 * (cfU (y + 8 / 5 * nearQ x y) x + (k + 1) * r (k + 1)))) :
    ‖mom (cfU y x) 0 - ∑ m ∈ Finset.range (nearN (nearQ x y)), ((16 / 5 * nearQ x y) ^ m : ℝ) *
      ∏ i ∈ Finset.range (m + 1), r i‖ ≤ 85 / 10 ^ 10 := by
  have hall := allOk_true
  simp only [allOk, Bool.and_eq_true] at hall
  obtain ⟨⟨⟨hdirs, hsAll⟩, ht⟩, hcells⟩ := hall
  set q := nearQ x y with hq
  have hq0 := nearQ_pos hx hx' hy'
  have hq1 := nearQ_le hx hx' hy hy'
  rw [← hq] at hq0 hq1
  set k := ⌊23 * q⌋₊ with hk
  set l := ⌊21 * q⌋₊ with hl
  have hN : nearN q = 7 + k := rfl
  have hν : nearNu q = 10 + l := rfl
  have hNν := nearN_le hq0.le hq1
  rw [hν] at h0 hr
  rw [hN, hν] at hNν
  rw [hN]
  have hkl : k < 24 := by
    rw [hk, Nat.floor_lt (by positivity)]
    push_cast
    linarith
  have hll : l < 22 := by
    rw [hl, Nat.floor_lt (by positivity)]
    push_cast
    linarith
  -- the interval of `x`
  obtain ⟨i, hi, hxi, hxi'⟩ : ∃ i : ℕ, i < 27 ∧ (i : ℝ) / 5 ≤ x ∧ (i < 26 → x ≤ (i + 1) / 5) := by
    by_cases h : 26 / 5 ≤ x
    · exact ⟨26, by norm_num, by push_cast; linarith, fun h => absurd h (lt_irrefl _)⟩
    · push Not at h
      refine ⟨⌊5 * x⌋₊, ?_, ?_, fun _ => ?_⟩
      · rw [Nat.floor_lt (by positivity)]
        push_cast
        linarith
      · have := Nat.floor_le (show 0 ≤ 5 * x by positivity)
        linarith
      · have := Nat.lt_floor_add_one (5 * x)
        linarith
  have P : Pt k l i x y q :=
    ⟨hi, hxi, hxi', hx', hy, hy', hq, Nat.floor_le (by positivity), Nat.lt_floor_add_one _, Nat.floor_le (by positivity),
      Nat.lt_floor_add_one _⟩
  have hs := all_iff hsAll i hi
  have hok := all_iff (all_iff (all_iff hcells k hkl) l hll) i hi
  have hfeas := P.feasible_true hs
  simp only [Cells.ok, hfeas, Bool.not_true, Bool.false_or, Bool.and_eq_true, Bool.or_eq_true, decide_eq_true_eq,
    List.any_eq_true] at hok
  obtain ⟨⟨⟨⟨hyo, hreo⟩, hpos⟩, ⟨d, hd, hI⟩⟩, ⟨d', hd', hT⟩⟩ := hok
  rw [List.all_eq_true] at hdirs
  have e1 := okT_error P hs hyo (Dir.ok_good (hdirs d' hd')) hT
  have hseq := errSeq_cut (ν := 10 + l) (by omega) hr
  have e2 := okI_error P hs hyo hreo hpos ht (Dir.ok_good (hdirs d hd)) hI hseq
    (by simp only [Finset.prod_range_succ _ (10 + l), h0, mul_zero, sub_zero]) hNν
  have e3 : mom (cfU y x) 0 - ∑ m ∈ Finset.range (7 + k), ((16 / 5 * q) ^ m : ℝ) * ∏ i ∈ Finset.range (m + 1), r i =
      (mom (cfU y x) 0 - ∑ m ∈ Finset.range (7 + k), ((16 / 5 * q) ^ m : ℝ) * mom (cfU (y + 8 / 5 * q) x) m) +
      ∑ m ∈ Finset.range (7 + k), ((16 / 5 * q : ℝ) : ℂ) ^ m *
        (mom (cfU (y + 8 / 5 * q) x) m - ∏ i ∈ Finset.range (m + 1), r i) := by
    simp only [ofReal_pow, mul_sub, Finset.sum_sub_distrib]
    ring
  rw [e3]
  refine (norm_add_le _ _).trans ((add_le_add e1 e2).trans ?_)
  norm_num

end Beam
end SixTrack
