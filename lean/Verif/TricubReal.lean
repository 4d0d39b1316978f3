import Verif.TricubLemmas
import Verif.InterpolReal
import Verif.ElementsReal
import Mathlib.Analysis.Calculus.ContDiff.Operations
import Mathlib.Analysis.Calculus.ContDiff.Deriv
import Mathlib.Analysis.Calculus.Deriv.Shift
import Mathlib.Tactic.IntervalCases

/-! # The potential of the tricubic map over the reals -/

namespace SixTrack.Tricub

open Finset Filter Topology

noncomputable section

/-! ## Truncated powers -/

def tp2 (u : ℝ) : ℝ := if 0 ≤ u then u ^ 2 else 0
def tp3 (u : ℝ) : ℝ := if 0 ≤ u then u ^ 3 else 0
def tp1 (u : ℝ) : ℝ := if 0 ≤ u then u else 0

theorem tp1_cont : Continuous tp1 := by
  have : tp1 = fun u => max u 0 := by
    funext u; unfold tp1; split
    · rename_i h; rw [max_eq_left h]
    · rename_i h; rw [max_eq_right (le_of_lt (not_le.mp h))]
  rw [this]; fun_prop

theorem tp2_eq (u : ℝ) : tp2 u = tp1 u ^ 2 := by unfold tp2 tp1; split <;> simp
theorem tp3_eq (u : ℝ) : tp3 u = tp1 u ^ 3 := by unfold tp3 tp1; split <;> simp

theorem tp_deriv (n : Nat) (u : ℝ) :
    HasDerivAt (fun v : ℝ => if 0 ≤ v then v ^ (n + 2) else 0)
      ((n + 2 : ℕ) * (if 0 ≤ u then u ^ (n + 1) else 0)) u := by
  have hp : HasDerivAt (fun v : ℝ => v ^ (n + 2)) ((n + 2 : ℕ) * u ^ (n + 1)) u := by
    simpa using hasDerivAt_pow (n + 2) u
  rcases lt_trichotomy u 0 with h | h | h
  · rw [if_neg (not_le.mpr h), mul_zero]
    refine (hasDerivAt_const u (0 : ℝ)).congr_of_eventuallyEq ?_
    filter_upwards [Iio_mem_nhds h] with v hv
    rw [if_neg (not_le.mpr hv)]
  · subst h
    refine Interpol.glue_deriv (g1 := fun _ => 0) (g2 := fun v : ℝ => v ^ (n + 2)) ?_ ?_ ?_ ?_ ?_
    · filter_upwards [self_mem_nhdsWithin] with v hv
      rw [if_neg (not_le.mpr hv)]
    · filter_upwards [self_mem_nhdsWithin] with v hv
      exact if_pos hv
    · simp
    · simpa using hasDerivAt_const (0 : ℝ) (0 : ℝ)
    · simpa using hp
  · rw [if_pos h.le]
    refine hp.congr_of_eventuallyEq ?_
    filter_upwards [Ioi_mem_nhds h] with v hv
    rw [if_pos (le_of_lt hv)]

theorem tp2_deriv (u : ℝ) : HasDerivAt tp2 (2 * tp1 u) u := by
  have := tp_deriv 0 u
  unfold tp2 tp1
  simpa using this

theorem tp3_deriv (u : ℝ) : HasDerivAt tp3 (3 * tp2 u) u := by
  have := tp_deriv 1 u
  unfold tp3 tp2
  simpa using this

/-! ## Cardinal functions -/

/-- Value one (`a = 0`) or slope one (`a = 1`) at zero; value and slope zero at the
other integers. -/
def h : Nat → ℝ → ℝ
  | 0, u => 3 * tp2 (u + 1) - 2 * tp3 (u + 1) + 4 * tp3 u - 3 * tp2 (u - 1) - 2 * tp3 (u - 1)
  | _, u => tp3 (u + 1) - tp2 (u + 1) - 4 * tp2 u - tp2 (u - 1) - tp3 (u - 1)

/-- Derivative of `h`. -/
def h' : Nat → ℝ → ℝ
  | 0, u => 3 * (2 * tp1 (u + 1)) - 2 * (3 * tp2 (u + 1)) + 4 * (3 * tp2 u) -
      3 * (2 * tp1 (u - 1)) - 2 * (3 * tp2 (u - 1))
  | _, u => 3 * tp2 (u + 1) - 2 * tp1 (u + 1) - 4 * (2 * tp1 u) - 2 * tp1 (u - 1) - 3 * tp2 (u - 1)

def hd : Nat → Nat → ℝ → ℝ
  | 0 => h
  | _ => h'

theorem h_deriv (a : Nat) (u : ℝ) : HasDerivAt (h a) (h' a u) u := by
  have p2 := (tp2_deriv (u + 1)).comp_add_const u 1
  have p3 := (tp3_deriv (u + 1)).comp_add_const u 1
  have m2 := (tp2_deriv (u - 1)).comp_sub_const u 1
  have m3 := (tp3_deriv (u - 1)).comp_sub_const u 1
  have c2 := tp2_deriv u
  have c3 := tp3_deriv u
  cases a with
  | zero =>
    exact ((((p2.const_mul 3).sub (p3.const_mul 2)).add (c3.const_mul 4)).sub (m2.const_mul 3)).sub
      (m3.const_mul 2)
  | succ a =>
    exact (((p3.sub p2).sub (c2.const_mul 4)).sub m2).sub m3

theorem tp2_cont : Continuous tp2 := by
  rw [show tp2 = fun u => tp1 u ^ 2 from funext tp2_eq]; exact tp1_cont.pow 2

theorem h'_cont (a : Nat) : Continuous (h' a) := by
  have i1 := tp1_cont
  have i2 := tp2_cont
  cases a with
  | zero => unfold h'; fun_prop
  | succ a => unfold h'; fun_prop

theorem h_contDiff (a : Nat) : ContDiff ℝ 1 (h a) := by
  rw [contDiff_one_iff_deriv]
  refine ⟨fun u => (h_deriv a u).differentiableAt, ?_⟩
  rw [show deriv (h a) = h' a from funext fun u => (h_deriv a u).deriv]
  exact h'_cont a

theorem tp_neg {u : ℝ} (hu : u ≤ 0) : tp1 u = 0 ∧ tp2 u = 0 ∧ tp3 u = 0 := by
  unfold tp1 tp2 tp3
  rcases lt_or_eq_of_le hu with h | h
  · simp [not_le.mpr h]
  · simp [h]

theorem tp_pos {u : ℝ} (hu : 0 ≤ u) : tp1 u = u ∧ tp2 u = u ^ 2 ∧ tp3 u = u ^ 3 := by
  unfold tp1 tp2 tp3
  simp [hu]

theorem hd_zero (α a : Nat) {u : ℝ} (hu : u ≤ -1 ∨ 1 ≤ u) : hd α a u = 0 := by
  rcases hu with hu | hu
  · obtain ⟨a1, a2, a3⟩ := tp_neg (u := u + 1) (by linarith)
    obtain ⟨b1, b2, b3⟩ := tp_neg (u := u) (by linarith)
    obtain ⟨c1, c2, c3⟩ := tp_neg (u := u - 1) (by linarith)
    rcases α with _ | α <;> rcases a with _ | a <;> simp [hd, h, h', *]
  · obtain ⟨a1, a2, a3⟩ := tp_pos (u := u + 1) (by linarith)
    obtain ⟨b1, b2, b3⟩ := tp_pos (u := u) (by linarith)
    obtain ⟨c1, c2, c3⟩ := tp_pos (u := u - 1) (by linarith)
    rcases α with _ | α <;> rcases a with _ | a <;>
      simp only [hd, h, h', a1, a2, a3, b1, b2, b3, c1, c2, c3] <;> ring

/-- Powers and their derivatives. -/
def pw : Nat → ℝ → Nat → ℝ
  | 0, x, i => power x i
  | _, x, i => i * power x (i - 1)

theorem hd_cell (α : Nat) {a e : Nat} (ha : a < 2) (he : e < 2) {x : ℝ} (h0 : 0 ≤ x) (h1 : x ≤ 1) :
    hd α a (x - e) = ∑ i ∈ range 4, (herm a e i : ℝ) * pw α x i := by
  have e0 : e = 0 ∨ e = 1 := by omega
  have a0 : a = 0 ∨ a = 1 := by omega
  rcases e0 with rfl | rfl
  · obtain ⟨a1, a2, a3⟩ := tp_pos (u := x + 1) (by linarith)
    obtain ⟨b1, b2, b3⟩ := tp_pos (u := x) (by linarith)
    obtain ⟨c1, c2, c3⟩ := tp_neg (u := x - 1) (by linarith)
    rcases a0 with rfl | rfl <;> rcases α with _ | α <;>
      simp [hd, h, h', herm, pw, power, sum_range_succ, *] <;> ring
  · obtain ⟨a1, a2, a3⟩ := tp_pos (u := x) (by linarith)
    obtain ⟨b1, b2, b3⟩ := tp_neg (u := x - 1) (by linarith)
    obtain ⟨c1, c2, c3⟩ := tp_neg (u := x - 1 - 1) (by linarith)
    rcases a0 with rfl | rfl <;> rcases α with _ | α <;>
      simp [hd, h, h', herm, pw, power, sum_range_succ, *] <;> ring

theorem hd_node (α a : Nat) (hα : α < 2) (ha : a < 2) : hd α a 0 = if α = a then 1 else 0 := by
  have := hd_cell α ha (e := 0) (by omega) (x := 0) le_rfl zero_le_one
  have α0 : α = 0 ∨ α = 1 := by omega
  have a0 : a = 0 ∨ a = 1 := by omega
  simp only [Nat.cast_zero, sub_zero] at this
  rw [this]
  rcases α0 with rfl | rfl <;> rcases a0 with rfl | rfl <;>
    simp [herm, pw, power, sum_range_succ]

/-! ## The potential -/

/-- Table entry of kind `l` at node `(m, p, r)`. -/
def T (d : Data ℝ) (l m p r : Nat) : ℝ := d.table (l + 8 * (m + d.nx * (p + d.ny * r)))

/-- The potential (`α = β = γ = 0`) and its partial derivatives, in units of the grid. -/
def Phi (d : Data ℝ) (α β γ : Nat) (u v w : ℝ) : ℝ :=
  ∑ l ∈ range 8, ∑ m ∈ range d.nx, ∑ p ∈ range d.ny, ∑ r ∈ range d.nz,
    T d l m p r * hd α (kx l) (u - m) * hd β (ky l) (v - p) * hd γ (kz l) (w - r)

theorem kx_lt (l : Nat) : kx l < 2 := by unfold kx; split <;> omega
theorem ky_lt (l : Nat) : ky l < 2 := by unfold ky; split <;> omega
theorem kz_lt (l : Nat) : kz l < 2 := by unfold kz; split <;> omega

theorem hd_sub_deriv (a : Nat) (u c : ℝ) :
    HasDerivAt (fun u => hd 0 a (u - c)) (hd 1 a (u - c)) u :=
  (h_deriv a (u - c)).comp_sub_const u c

theorem Phi_du (d : Data ℝ) (β γ : Nat) (u v w : ℝ) :
    HasDerivAt (fun u => Phi d 0 β γ u v w) (Phi d 1 β γ u v w) u := by
  unfold Phi
  refine HasDerivAt.fun_sum fun l _ => HasDerivAt.fun_sum fun m _ => HasDerivAt.fun_sum fun p _ =>
    HasDerivAt.fun_sum fun r _ => ?_
  exact (((hd_sub_deriv (kx l) u m).const_mul _).mul_const _).mul_const _

theorem Phi_dv (d : Data ℝ) (α γ : Nat) (u v w : ℝ) :
    HasDerivAt (fun v => Phi d α 0 γ u v w) (Phi d α 1 γ u v w) v := by
  unfold Phi
  refine HasDerivAt.fun_sum fun l _ => HasDerivAt.fun_sum fun m _ => HasDerivAt.fun_sum fun p _ =>
    HasDerivAt.fun_sum fun r _ => ?_
  exact ((hd_sub_deriv (ky l) v p).const_mul _).mul_const _

theorem Phi_dw (d : Data ℝ) (α β : Nat) (u v w : ℝ) :
    HasDerivAt (fun w => Phi d α β 0 u v w) (Phi d α β 1 u v w) w := by
  unfold Phi
  refine HasDerivAt.fun_sum fun l _ => HasDerivAt.fun_sum fun m _ => HasDerivAt.fun_sum fun p _ =>
    HasDerivAt.fun_sum fun r _ => ?_
  exact (hd_sub_deriv (kz l) w r).const_mul _

theorem Phi_contDiff (d : Data ℝ) :
    ContDiff ℝ 1 (fun q : ℝ × ℝ × ℝ => Phi d 0 0 0 q.1 q.2.1 q.2.2) := by
  unfold Phi
  refine ContDiff.sum fun l _ => ContDiff.sum fun m _ => ContDiff.sum fun p _ =>
    ContDiff.sum fun r _ => ?_
  have h1 : ContDiff ℝ 1 (fun q : ℝ × ℝ × ℝ => h (kx l) (q.1 - m)) :=
    (h_contDiff _).comp (contDiff_fst.sub contDiff_const)
  have h2 : ContDiff ℝ 1 (fun q : ℝ × ℝ × ℝ => h (ky l) (q.2.1 - p)) :=
    (h_contDiff _).comp ((contDiff_fst.comp contDiff_snd).sub contDiff_const)
  have h3 : ContDiff ℝ 1 (fun q : ℝ × ℝ × ℝ => h (kz l) (q.2.2 - r)) :=
    (h_contDiff _).comp ((contDiff_snd.comp contDiff_snd).sub contDiff_const)
  exact ((contDiff_const.mul h1).mul h2).mul h3

/-! ### At the nodes -/

theorem node1 (α a n m : Nat) (hm : m < n) (f : Nat → ℝ) :
    ∑ j ∈ range n, f j * hd α a ((m : ℝ) - j) = f m * hd α a 0 := by
  rw [sum_eq_single m]
  · simp
  · intro j _ hj
    rw [hd_zero, mul_zero]
    rcases Nat.lt_or_gt_of_ne hj with h | h
    · right
      have : ((j + 1 : Nat) : ℝ) ≤ m := by exact_mod_cast h
      push_cast at this; linarith
    · left
      have : ((m + 1 : Nat) : ℝ) ≤ j := by exact_mod_cast h
      push_cast at this; linarith
  · intro hn; exact absurd (mem_range.mpr hm) hn

theorem Phi_node (d : Data ℝ) (α β γ : Nat) {m p r : Nat} (hm : m < d.nx) (hp : p < d.ny)
    (hr : r < d.nz) : Phi d α β γ m p r =
      ∑ l ∈ range 8, T d l m p r * hd α (kx l) 0 * hd β (ky l) 0 * hd γ (kz l) 0 := by
  unfold Phi
  refine sum_congr rfl fun l _ => ?_
  have e3 : ∀ m' p', ∑ r' ∈ range d.nz, T d l m' p' r' * hd α (kx l) ((m : ℝ) - m') *
      hd β (ky l) ((p : ℝ) - p') * hd γ (kz l) ((r : ℝ) - r') =
      T d l m' p' r * hd α (kx l) ((m : ℝ) - m') * hd β (ky l) ((p : ℝ) - p') * hd γ (kz l) 0 :=
    fun m' p' => node1 γ (kz l) d.nz r hr (fun r' => T d l m' p' r' * hd α (kx l) ((m : ℝ) - m') *
      hd β (ky l) ((p : ℝ) - p'))
  simp only [e3]
  have e2 : ∀ m', ∑ p' ∈ range d.ny, T d l m' p' r * hd α (kx l) ((m : ℝ) - m') *
      hd β (ky l) ((p : ℝ) - p') * hd γ (kz l) 0 =
      T d l m' p r * hd α (kx l) ((m : ℝ) - m') * hd β (ky l) 0 * hd γ (kz l) 0 := by
    intro m'
    rw [← sum_mul, node1 β (ky l) d.ny p hp (fun p' => T d l m' p' r * hd α (kx l) ((m : ℝ) - m'))]
  simp only [e2]
  rw [← sum_mul, ← sum_mul, node1 α (kx l) d.nx m hm (fun m' => T d l m' p r)]

theorem Phi_table (d : Data ℝ) {m p r : Nat} (hm : m < d.nx) (hp : p < d.ny) (hr : r < d.nz)
    {l : Nat} (hl : l < 8) : Phi d (kx l) (ky l) (kz l) m p r = T d l m p r := by
  rw [Phi_node d _ _ _ hm hp hr]
  simp only [hd_node _ _ (kx_lt l) (kx_lt _), hd_node _ _ (ky_lt l) (ky_lt _),
    hd_node _ _ (kz_lt l) (kz_lt _)]
  interval_cases l <;> simp [sum_range_succ, kx, ky, kz]

/-! ### In the cells -/

theorem cell1 (α a n i : Nat) (hi : i + 1 < n) (ha : a < 2) {x : ℝ} (h0 : 0 ≤ x) (h1 : x < 1)
    (f : Nat → ℝ) :
    ∑ j ∈ range n, f j * hd α a ((i : ℝ) + x - j) =
      ∑ e ∈ range 2, f (i + e) * ∑ k ∈ range 4, (herm a e k : ℝ) * pw α x k := by
  have hs : ({i, i + 1} : Finset Nat) ⊆ range n := by
    intro j hj
    simp only [mem_insert, mem_singleton] at hj
    rw [mem_range]; omega
  rw [← sum_subset hs]
  · rw [sum_pair (by omega), sum_range_succ, sum_range_one]
    have c0 := hd_cell α ha (e := 0) (by omega) h0 h1.le
    have c1 := hd_cell α ha (e := 1) (by omega) h0 h1.le
    rw [← c0, ← c1]
    push_cast
    congr 3
    · ring
    · ring
  · intro j _ hj
    simp only [mem_insert, mem_singleton, not_or] at hj
    rw [hd_zero, mul_zero]
    rcases Nat.lt_or_gt_of_ne hj.1 with h | h
    · right
      have : ((j + 1 : Nat) : ℝ) ≤ i := by exact_mod_cast h
      push_cast at this; linarith
    · left
      have : ((i + 2 : Nat) : ℝ) ≤ j := by exact_mod_cast (show i + 2 ≤ j by omega)
      push_cast at this; linarith

theorem Phi_cell (d : Data ℝ) (α β γ : Nat) {i j k : Nat} (hi : i + 1 < d.nx) (hj : j + 1 < d.ny)
    (hk : k + 1 < d.nz) {x y z : ℝ} (hx : 0 ≤ x ∧ x < 1) (hy : 0 ≤ y ∧ y < 1)
    (hz : 0 ≤ z ∧ z < 1) :
    Phi d α β γ (i + x) (j + y) (k + z) =
      ∑ t ∈ range 64, T d (t / 8) (i + t % 8 % 2) (j + t % 8 / 2 % 2) (k + t % 8 / 4 % 2) *
        ((∑ a ∈ range 4, (herm (kx (t / 8)) (t % 8 % 2) a : ℝ) * pw α x a) *
        (∑ a ∈ range 4, (herm (ky (t / 8)) (t % 8 / 2 % 2) a : ℝ) * pw β y a) *
        (∑ a ∈ range 4, (herm (kz (t / 8)) (t % 8 / 4 % 2) a : ℝ) * pw γ z a)) := by
  rw [sum64]
  unfold Phi
  refine sum_congr rfl fun l _ => ?_
  have e3 : ∀ m p, ∑ r ∈ range d.nz, T d l m p r * hd α (kx l) ((i : ℝ) + x - m) *
      hd β (ky l) ((j : ℝ) + y - p) * hd γ (kz l) ((k : ℝ) + z - r) =
      ∑ e ∈ range 2, T d l m p (k + e) * hd α (kx l) ((i : ℝ) + x - m) *
      hd β (ky l) ((j : ℝ) + y - p) * ∑ a ∈ range 4, (herm (kz l) e a : ℝ) * pw γ z a :=
    fun m p => cell1 γ (kz l) d.nz k hk (kz_lt l) hz.1 hz.2
      (fun r => T d l m p r * hd α (kx l) ((i : ℝ) + x - m) * hd β (ky l) ((j : ℝ) + y - p))
  simp only [e3]
  have e2 : ∀ m, ∑ p ∈ range d.ny, ∑ e ∈ range 2, T d l m p (k + e) *
      hd α (kx l) ((i : ℝ) + x - m) * hd β (ky l) ((j : ℝ) + y - p) *
      ∑ a ∈ range 4, (herm (kz l) e a : ℝ) * pw γ z a =
      ∑ e ∈ range 2, ∑ f ∈ range 2, T d l m (j + f) (k + e) * hd α (kx l) ((i : ℝ) + x - m) *
      (∑ a ∈ range 4, (herm (ky l) f a : ℝ) * pw β y a) *
      ∑ a ∈ range 4, (herm (kz l) e a : ℝ) * pw γ z a := by
    intro m
    rw [sum_comm]
    refine sum_congr rfl fun e _ => ?_
    rw [← sum_mul, ← sum_mul, cell1 β (ky l) d.ny j hj (ky_lt l) hy.1 hy.2
      (fun p => T d l m p (k + e) * hd α (kx l) ((i : ℝ) + x - m))]
  simp only [e2]
  have e1 : ∀ e f, ∑ m ∈ range d.nx, T d l m (j + f) (k + e) * hd α (kx l) ((i : ℝ) + x - m) *
      (∑ a ∈ range 4, (herm (ky l) f a : ℝ) * pw β y a) *
      ∑ a ∈ range 4, (herm (kz l) e a : ℝ) * pw γ z a =
      (∑ g ∈ range 2, T d l (i + g) (j + f) (k + e) *
        ∑ a ∈ range 4, (herm (kx l) g a : ℝ) * pw α x a) *
      (∑ a ∈ range 4, (herm (ky l) f a : ℝ) * pw β y a) *
      ∑ a ∈ range 4, (herm (kz l) e a : ℝ) * pw γ z a := by
    intro e f
    rw [← sum_mul, ← sum_mul, cell1 α (kx l) d.nx i hi (kx_lt l) hx.1 hx.2
      (fun m => T d l m (j + f) (k + e))]
  rw [sum_comm]
  simp only [sum_comm (s := range d.nx), e1]
  have d1 : ∀ q, q < 8 → (8 * l + q) / 8 = l := fun q hq => by omega
  have d2 : ∀ q, q < 8 → (8 * l + q) % 8 = q := fun q hq => by omega
  symm
  rw [sum_congr rfl (fun q hq => by rw [d1 q (mem_range.mp hq), d2 q (mem_range.mp hq)])]
  generalize (fun g => ∑ a ∈ range 4, (herm (kx l) g a : ℝ) * pw α x a) = X
  simp only [sum_range_succ (n := 7), sum_range_succ (n := 6), sum_range_succ (n := 5),
    sum_range_succ (n := 4), sum_range_succ (n := 3), sum_range_succ (n := 2),
    sum_range_succ (n := 1), sum_range_one]
  norm_num
  ring

end

end SixTrack.Tricub
