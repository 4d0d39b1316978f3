import Verif.TricubTrack
import Mathlib.Analysis.Calculus.Deriv.Abs
import Mathlib.Tactic.NormNum

/-!
# C41: tricubic interpolation reproduces the table

`C41_potential`: for every table there is one function `Φ` on the whole space, once
continuously differentiable, such that

* at every node of the grid `Φ` and its derivatives x, y, z, xy, xz, yz, xyz (in units
  of the grid) are the eight entries of the table, and
* for every particle inside the grid the map adds to `px`, `py` and the energy minus
  `length` times the gradient of `Φ` (composed with the change of coordinates and the
  mirroring), minus the dipolar kick.

`C41_corners`: the polynomial of a cell that the code builds takes the tabulated
values at all eight corners.  Exact arithmetic.
-/

namespace SixTrack

open Tricub Elem Finset

noncomputable section

/-- The polynomial with the coefficients built by the code (coefficients.h:35-1044,
used in track.h:153-196). -/
def cellPoly (coefs : Nat → Option ℝ) (x y z : ℝ) : ℝ :=
  ∑ i ∈ range 4, ∑ j ∈ range 4, ∑ k ∈ range 4,
    (coefs (i + 4 * j + 16 * k)).getD 0 * x ^ i * y ^ j * z ^ k

theorem mir_deriv (m : Bool) {g : ℝ → ℝ} {g' x : ℝ} (hg : HasDerivAt g g' x)
    (h0 : m = true → g x ≠ 0) : HasDerivAt (fun x => mir m (g x)) (Tricub.sign m (g x) * g') x := by
  unfold mir Tricub.sign
  cases m with
  | false => simpa using hg
  | true =>
    rcases lt_or_gt_of_ne (h0 rfl) with h | h
    · have := (hasDerivAt_abs_neg h).comp x hg
      simp only [if_true, h, and_self]
      simpa [Function.comp_def] using this
    · have := (hasDerivAt_abs_pos h).comp x hg
      simp only [if_true, not_lt.mpr h.le, and_false, if_false]
      simpa [Function.comp_def] using this

theorem C41_potential (d : Data ℝ) : ∃ Φ : ℝ → ℝ → ℝ → ℝ,
    ContDiff ℝ 1 (fun q : ℝ × ℝ × ℝ => Φ q.1 q.2.1 q.2.2) ∧
    (∀ m p r : Nat, m < d.nx → p < d.ny → r < d.nz →
      let e := fun l => d.table (l + 8 * (m + d.nx * (p + d.ny * r)))
      Φ m p r = e 0 ∧
      deriv (fun u => Φ u p r) m = e 1 ∧
      deriv (fun v => Φ m v r) p = e 2 ∧
      deriv (fun w => Φ m p w) r = e 3 ∧
      deriv (fun u => deriv (fun v => Φ u v r) p) m = e 4 ∧
      deriv (fun u => deriv (fun w => Φ u p w) r) m = e 5 ∧
      deriv (fun v => deriv (fun w => Φ m v w) r) p = e 6 ∧
      deriv (fun u => deriv (fun v => deriv (fun w => Φ u v w) r) p) m = e 7) ∧
    ∀ (t : Cub ℝ) (c : Coord ℝ), t.data = d →
      let z := c.zeta / (c.beta0 * c.rvv)
      let X := fun x => mir d.mirrorX ((x - t.xShift - d.x0) / d.dx)
      let Y := fun y => mir d.mirrorY ((y - t.yShift - d.y0) / d.dy)
      let Z := fun z => mir d.mirrorZ ((z - t.tauShift - d.z0) / d.dz)
      0 ≤ X c.x → X c.x < (d.nx : ℝ) - 1 → 0 ≤ Y c.y → Y c.y < (d.ny : ℝ) - 1 →
      0 ≤ Z z → Z z < (d.nz : ℝ) - 1 →
      (d.mirrorX = true → X c.x ≠ 0) → (d.mirrorY = true → Y c.y ≠ 0) →
      (d.mirrorZ = true → Z z ≠ 0) →
      track t c = .ok (addToEnergy
        { c with
          px := c.px - t.length * deriv (fun x => Φ (X x) (Y c.y) (Z z)) c.x - t.dipolarPx
          py := c.py - t.length * deriv (fun y => Φ (X c.x) (Y y) (Z z)) c.y - t.dipolarPy }
        (c.q0 * c.chargeRatio * (c.p0c *
          (-(t.length * deriv (fun z => Φ (X c.x) (Y c.y) (Z z)) z) - t.dipolarPtau)))) := by
  refine ⟨Phi d 0 0 0, Phi_contDiff d, ?_, ?_⟩
  · intro m p r hm hp hr e
    have du : ∀ β γ v w (x : ℝ), deriv (fun u => Phi d 0 β γ u v w) x = Phi d 1 β γ x v w :=
      fun β γ v w x => (Phi_du d β γ x v w).deriv
    have dv : ∀ α γ u w (x : ℝ), deriv (fun v => Phi d α 0 γ u v w) x = Phi d α 1 γ u x w :=
      fun α γ u w x => (Phi_dv d α γ u x w).deriv
    have dw : ∀ α β u v (x : ℝ), deriv (fun w => Phi d α β 0 u v w) x = Phi d α β 1 u v x :=
      fun α β u v x => (Phi_dw d α β u v x).deriv
    simp only [du, dv, dw]
    exact ⟨Phi_table d hm hp hr (l := 0) (by omega), Phi_table d hm hp hr (l := 1) (by omega),
      Phi_table d hm hp hr (l := 2) (by omega), Phi_table d hm hp hr (l := 3) (by omega),
      Phi_table d hm hp hr (l := 4) (by omega), Phi_table d hm hp hr (l := 5) (by omega),
      Phi_table d hm hp hr (l := 6) (by omega), Phi_table d hm hp hr (l := 7) (by omega)⟩
  · intro t c ht z X Y Z hx0 hx1 hy0 hy1 hz0 hz1 mx my mz
    subst ht
    rw [track_eq t c ⟨hx0, hx1⟩ ⟨hy0, hy1⟩ ⟨hz0, hz1⟩]
    have ne : ∀ (m : Bool) (u : ℝ), (m = true → mir m u ≠ 0) → m = true → u ≠ 0 := by
      rintro m u h rfl rfl
      exact h rfl (by simp [mir])
    have gx : HasDerivAt (gridX t) (1 / t.data.dx) c.x := by
      have := (((hasDerivAt_id c.x).sub_const t.xShift).sub_const t.data.x0).div_const t.data.dx
      exact this
    have gy : HasDerivAt (gridY t) (1 / t.data.dy) c.y := by
      have := (((hasDerivAt_id c.y).sub_const t.yShift).sub_const t.data.y0).div_const t.data.dy
      exact this
    have gz : HasDerivAt (gridZ t) (1 / t.data.dz) z := by
      have := (((hasDerivAt_id z).sub_const t.tauShift).sub_const t.data.z0).div_const t.data.dz
      exact this
    have ex : deriv (fun x => Phi t.data 0 0 0 (X x) (Y c.y) (Z z)) c.x =
        Phi t.data 1 0 0 (X c.x) (Y c.y) (Z z) *
          (sign t.data.mirrorX (gridX t c.x) * (1 / t.data.dx)) :=
      ((Phi_du t.data 0 0 (X c.x) (Y c.y) (Z z)).comp c.x
        (mir_deriv t.data.mirrorX gx (ne _ _ mx))).deriv
    have ey : deriv (fun y => Phi t.data 0 0 0 (X c.x) (Y y) (Z z)) c.y =
        Phi t.data 0 1 0 (X c.x) (Y c.y) (Z z) *
          (sign t.data.mirrorY (gridY t c.y) * (1 / t.data.dy)) :=
      ((Phi_dv t.data 0 0 (X c.x) (Y c.y) (Z z)).comp c.y
        (mir_deriv t.data.mirrorY gy (ne _ _ my))).deriv
    have ez : deriv (fun z => Phi t.data 0 0 0 (X c.x) (Y c.y) (Z z)) z =
        Phi t.data 0 0 1 (X c.x) (Y c.y) (Z z) *
          (sign t.data.mirrorZ (gridZ t z) * (1 / t.data.dz)) :=
      ((Phi_dw t.data 0 0 (X c.x) (Y c.y) (Z z)).comp z
        (mir_deriv t.data.mirrorZ gz (ne _ _ mz))).deriv
    rw [ex, ey, ez]
    simp only [Res.ok_inj]
    have e1 : ∀ P s : ℝ, ∀ q i k : ℝ, q + (P * (t.length * i) * -s - k) =
        q - t.length * (P * (s * i)) - k := by intros; ring
    have e2 : ∀ P s : ℝ, ∀ i k : ℝ, P * (t.length * i) * -s - k =
        -(t.length * (P * (s * i))) - k := by intros; ring
    rw [e1, e1, e2]
    rfl

/-- The values of the cell polynomial at the corners, for arbitrary data. -/
theorem C41_corners (b : Nat → ℝ) {q : Nat} (hq : q < 8) :
    (∀ i < 64, (constructCoefs b i).isSome) ∧
    cellPoly (constructCoefs b) (q % 2 : Nat) (q / 2 % 2 : Nat) (q / 4 % 2 : Nat) = b q := by
  refine ⟨fun i hi => by rw [constructCoefs_eq b hi]; rfl, ?_⟩
  unfold cellPoly
  have e : ∀ x y z : ℝ, ∑ i ∈ range 4, ∑ j ∈ range 4, ∑ k ∈ range 4,
      ((constructCoefs b (i + 4 * j + 16 * k)).getD 0) * x ^ i * y ^ j * z ^ k =
      ∑ i ∈ range 4, ∑ j ∈ range 4, ∑ k ∈ range 4,
        coef b (i + 4 * j + 16 * k) * pw 0 x i * pw 0 y j * pw 0 z k := by
    intro x y z
    have hp : ∀ (x : ℝ) (i : Nat), i < 4 → x ^ i = pw 0 x i := by
      intro x i hi
      interval_cases i <;> simp [pw, power] <;> ring
    refine sum_congr rfl fun i hi => sum_congr rfl fun j hj => sum_congr rfl fun k hk => ?_
    rw [mem_range] at hi hj hk
    rw [constructCoefs_eq b (by omega), hp x i hi, hp y j hj, hp z k hk]
    rfl
  rw [e, sum_all]
  have c1 : ∀ a ep : Nat, a < 2 → ep < 2 → ∀ x : Nat, x < 2 →
      ∑ i ∈ range 4, (herm a ep i : ℝ) * pw 0 (x : ℝ) i =
        if a = 0 ∧ ep = x then 1 else 0 := by
    intro a ep ha hep x hx
    interval_cases a <;> interval_cases ep <;> interval_cases x <;>
      norm_num [herm, pw, power, sum_range_succ]
  have c2 : ∀ t ∈ range 64, b t *
      ((∑ a ∈ range 4, (herm (kx (t / 8)) (t % 8 % 2) a : ℝ) * pw 0 ((q % 2 : Nat) : ℝ) a) *
      (∑ a ∈ range 4, (herm (ky (t / 8)) (t % 8 / 2 % 2) a : ℝ) * pw 0 ((q / 2 % 2 : Nat) : ℝ) a) *
      (∑ a ∈ range 4, (herm (kz (t / 8)) (t % 8 / 4 % 2) a : ℝ) * pw 0 ((q / 4 % 2 : Nat) : ℝ) a)) =
      if t = q then b q else 0 := by
    intro t ht
    rw [c1 _ _ (kx_lt _) (by omega) _ (by omega), c1 _ _ (ky_lt _) (by omega) _ (by omega),
      c1 _ _ (kz_lt _) (by omega) _ (by omega)]
    rw [mem_range] at ht
    have key : (kx (t / 8) = 0 ∧ t % 8 % 2 = q % 2) ∧ (ky (t / 8) = 0 ∧ t % 8 / 2 % 2 = q / 2 % 2) ∧
        (kz (t / 8) = 0 ∧ t % 8 / 4 % 2 = q / 4 % 2) ↔ t = q := by
      constructor
      · rintro ⟨⟨a1, a2⟩, ⟨b1, b2⟩, c1, c2⟩
        have h0 : t / 8 = 0 := by
          have hlt : t / 8 < 8 := by omega
          generalize t / 8 = s at *
          interval_cases s <;> simp_all [kx, ky, kz]
        omega
      · rintro rfl
        have h0 : t / 8 = 0 := by omega
        have h1 : t % 8 = t := by omega
        simp [h0, h1, kx, ky, kz]
    by_cases h : t = q
    · obtain ⟨a, b', c⟩ := key.mpr h
      rw [if_pos a, if_pos b', if_pos c, if_pos h, h]; ring
    · rw [if_neg h]
      by_cases ha : kx (t / 8) = 0 ∧ t % 8 % 2 = q % 2
      · by_cases hb : ky (t / 8) = 0 ∧ t % 8 / 2 % 2 = q / 2 % 2
        · by_cases hc : kz (t / 8) = 0 ∧ t % 8 / 4 % 2 = q / 4 % 2
          · exact absurd (key.mp ⟨ha, hb, hc⟩) h
          · rw [if_neg hc]; ring
        · rw [if_neg hb]; ring
      · rw [if_neg ha]; ring
  rw [sum_congr rfl c2, sum_ite_eq' (range 64) q]
  rw [if_pos (mem_range.mpr (by omega))]

/-! ## The hypotheses can be met -/

/-- A grid of two nodes in each direction, mirrored in `x`, and a particle left of the
mirror. -/
example : ∃ (t : Cub ℝ) (c : Coord ℝ),
    let X := fun x => mir t.data.mirrorX ((x - t.xShift - t.data.x0) / t.data.dx)
    0 < X c.x ∧ X c.x < (t.data.nx : ℝ) - 1 ∧ t.data.mirrorX = true ∧ c.x < 0 := by
  refine ⟨⟨0, 0, 0, 1, 2, 3, 5, ⟨0, 2, 2, 0, 1, 2, 0, 1, 2, true, false, false, fun n => n⟩⟩,
    ⟨1, 1, 1, 1, 1, 0, -1, 0, 0, 0, 0, 0, 0, 1, 1, 1, 1⟩, ?_⟩
  norm_num [mir]

end

end SixTrack
