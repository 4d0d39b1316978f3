import Verif.TricubReal

/-! # The code of the tricubic map evaluates the potential -/

namespace SixTrack.Tricub

open Finset Elem

noncomputable section

theorem index_lt {nx ny nz m p r l : Nat} (hm : m < nx) (hp : p < ny) (hr : r < nz) (hl : l < 8) :
    l + 8 * (m + nx * (p + ny * r)) < 8 * nx * ny * nz := by
  have h1 : p + ny * r + 1 ≤ ny * nz := by
    have := Nat.mul_le_mul_left ny (show r + 1 ≤ nz from hr)
    rw [Nat.mul_add, Nat.mul_one] at this
    omega
  have h2 : m + nx * (p + ny * r) + 1 ≤ nx * (ny * nz) := by
    have := Nat.mul_le_mul_left nx h1
    rw [Nat.mul_add, Nat.mul_one] at this
    omega
  have h3 : 8 * nx * ny * nz = 8 * (nx * (ny * nz)) := by rw [Nat.mul_assoc, Nat.mul_assoc]
  rw [h3]
  omega

instance : LawfulMonad Res := LawfulMonad.mk' Res
  (fun x => by cases x <;> rfl) (fun _ _ => rfl) (fun x _ _ => by cases x <;> rfl)

theorem foldlM_update (f : Nat → Res ℝ) (v : Nat → ℝ) (n : Nat) (hf : ∀ t < n, f t = .ok (v t)) :
    (List.range n).foldlM (fun (b : Nat → ℝ) t => do
      let w ← f t
      return Function.update b t w) (fun _ => 0) = Res.ok (fun t => if t < n then v t else 0) := by
  induction n with
  | zero => simp
  | succ n ih =>
    rw [List.range_succ, List.foldlM_append, ih (fun t ht => hf t (by omega)), Res.ok_bind]
    simp only [List.foldlM_cons, List.foldlM_nil, hf n (by omega), Res.ok_bind, Res.pure_eq]
    congr 1
    funext t
    rw [Function.update_apply]
    by_cases h : t = n
    · subst h; simp
    · rw [if_neg h]
      by_cases h2 : t < n
      · rw [if_pos h2, if_pos (by omega)]
      · rw [if_neg h2, if_neg (by omega)]

/-- Table entries of the cell. -/
def cellB (d : Data ℝ) (i j k t : Nat) : ℝ :=
  T d (t / 8) (i + t % 8 % 2) (j + t % 8 / 2 % 2) (k + t % 8 / 4 % 2)

theorem bVector_ok (d : Data ℝ) {i j k : Nat} (hi : i + 1 < d.nx) (hj : j + 1 < d.ny)
    (hk : k + 1 < d.nz) :
    bVector d i j k = .ok (fun t => if t < 64 then cellB d i j k t else 0) := by
  unfold bVector
  refine foldlM_update _ _ 64 fun t ht => ?_
  have e : cornerIndex d i j k (t / 8) (t % 8) =
      ((t / 8 + 8 * ((i + t % 8 % 2) + d.nx * ((j + t % 8 / 2 % 2) + d.ny * (k + t % 8 / 4 % 2))) :
        Nat) : Int) := by
    unfold cornerIndex
    push_cast
    ring
  have hlt := index_lt (nx := d.nx) (ny := d.ny) (nz := d.nz) (m := i + t % 8 % 2)
    (p := j + t % 8 / 2 % 2) (r := k + t % 8 / 4 % 2) (l := t / 8) (by omega) (by omega) (by omega)
    (by omega)
  rw [e]
  unfold readTable
  rw [if_pos ⟨Int.natCast_nonneg _, by exact_mod_cast hlt⟩, Int.toNat_natCast]
  rfl

theorem prodEntry_eq {i j k : Nat} (hi : i < 4) (hj : j < 4) (t : Nat) :
    prodEntry (i + 4 * j + 16 * k) t = herm (kx (t / 8)) (t % 8 % 2) i *
      herm (ky (t / 8)) (t % 8 / 2 % 2) j * herm (kz (t / 8)) (t % 8 / 4 % 2) k := by
  unfold prodEntry
  rw [show (i + 4 * j + 16 * k) % 4 = i by omega, show (i + 4 * j + 16 * k) / 4 % 4 = j by omega,
    show (i + 4 * j + 16 * k) / 16 = k by omega]

/-- The coefficients as real numbers. -/
def coef (b : Nat → ℝ) (i : Nat) : ℝ := ∑ t ∈ range 64, (prodEntry i t : ℝ) * b t

theorem loop_eq (b : Nat → ℝ) (f : Nat → Nat → Nat → Nat) (px py pz : Nat → ℝ) (i0 j0 k0 : Nat) :
    loopSum (constructCoefs b) f px py pz (nest i0 j0 k0) =
      .ok (((nest i0 j0 k0).map fun t => (f t.1 t.2.1 t.2.2 : ℝ) *
        (coef b (t.1 + 4 * t.2.1 + 16 * t.2.2) * px t.1 * py t.2.1 * pz t.2.2)).sum) := by
  unfold loopSum
  rw [loopSum_ok (constructCoefs b) (coef b) f px py pz _ _ ?_, zero_add]
  intro t ht
  refine constructCoefs_eq b ?_
  unfold nest at ht
  simp only [List.mem_flatMap, List.mem_map, List.mem_range'_1] at ht
  obtain ⟨i, hi, j, hj, k, hk, rfl⟩ := ht
  simp only
  omega

theorem sum_all (b : Nat → ℝ) (α β γ : Nat) (x y z : ℝ) :
    ∑ i ∈ range 4, ∑ j ∈ range 4, ∑ k ∈ range 4,
      coef b (i + 4 * j + 16 * k) * pw α x i * pw β y j * pw γ z k =
    ∑ t ∈ range 64, b t *
        ((∑ a ∈ range 4, (herm (kx (t / 8)) (t % 8 % 2) a : ℝ) * pw α x a) *
        (∑ a ∈ range 4, (herm (ky (t / 8)) (t % 8 / 2 % 2) a : ℝ) * pw β y a) *
        (∑ a ∈ range 4, (herm (kz (t / 8)) (t % 8 / 4 % 2) a : ℝ) * pw γ z a)) := by
  rw [← triple]
  refine sum_congr rfl fun i hi => sum_congr rfl fun j hj => sum_congr rfl fun k hk => ?_
  unfold coef
  congr 3
  refine sum_congr rfl fun t _ => ?_
  rw [prodEntry_eq (mem_range.mp hi) (mem_range.mp hj)]
  push_cast
  ring

theorem sums_ok (b : Nat → ℝ) (x y z : ℝ) :
    sums (constructCoefs b) x y z = .ok
      (∑ i ∈ range 4, ∑ j ∈ range 4, ∑ k ∈ range 4,
        coef b (i + 4 * j + 16 * k) * pw 1 x i * pw 0 y j * pw 0 z k,
      ∑ i ∈ range 4, ∑ j ∈ range 4, ∑ k ∈ range 4,
        coef b (i + 4 * j + 16 * k) * pw 0 x i * pw 1 y j * pw 0 z k,
      ∑ i ∈ range 4, ∑ j ∈ range 4, ∑ k ∈ range 4,
        coef b (i + 4 * j + 16 * k) * pw 0 x i * pw 0 y j * pw 1 z k) := by
  unfold sums
  rw [loop_eq, loop_eq, loop_eq]
  simp only [Res.ok_bind, Res.pure_eq, Res.ok_inj]
  refine Prod.ext ?_ (Prod.ext ?_ ?_)
  · simp only [nest, List.range', List.flatMap_cons, List.flatMap_nil, List.map_cons, List.map_nil,
      List.cons_append, List.nil_append, List.append_nil, List.sum_cons, List.sum_nil,
      sum_range_succ, range_zero, sum_empty, pw]
    norm_num
    ring
  · simp only [nest, List.range', List.flatMap_cons, List.flatMap_nil, List.map_cons, List.map_nil,
      List.cons_append, List.nil_append, List.append_nil, List.sum_cons, List.sum_nil,
      sum_range_succ, range_zero, sum_empty, pw]
    norm_num
    ring
  · simp only [nest, List.range', List.flatMap_cons, List.flatMap_nil, List.map_cons, List.map_nil,
      List.cons_append, List.nil_append, List.append_nil, List.sum_cons, List.sum_nil,
      sum_range_succ, range_zero, sum_empty, pw]
    norm_num
    ring

/-- The sums of a cell are the derivatives of the potential. -/
theorem sums_cell (d : Data ℝ) {i j k : Nat} (hi : i + 1 < d.nx) (hj : j + 1 < d.ny)
    (hk : k + 1 < d.nz) {x y z : ℝ} (hx : 0 ≤ x ∧ x < 1) (hy : 0 ≤ y ∧ y < 1)
    (hz : 0 ≤ z ∧ z < 1) :
    (do let b ← bVector d i j k; sums (constructCoefs b) x y z) =
      .ok (Phi d 1 0 0 (i + x) (j + y) (k + z), Phi d 0 1 0 (i + x) (j + y) (k + z),
        Phi d 0 0 1 (i + x) (j + y) (k + z)) := by
  rw [bVector_ok d hi hj hk, Res.ok_bind, sums_ok]
  have key : ∀ α β γ, ∑ i' ∈ range 4, ∑ j' ∈ range 4, ∑ k' ∈ range 4,
      coef (fun t => if t < 64 then cellB d i j k t else 0) (i' + 4 * j' + 16 * k') * pw α x i' *
        pw β y j' * pw γ z k' = Phi d α β γ (i + x) (j + y) (k + z) := by
    intro α β γ
    rw [sum_all, Phi_cell d α β γ hi hj hk hx hy hz]
    refine sum_congr rfl fun t ht => ?_
    rw [if_pos (mem_range.mp ht)]
    rfl
  rw [key, key, key]

theorem floor_cell {n : Nat} {f : ℝ} (h0 : 0 ≤ f) (h1 : f < (n : ℝ) - 1) :
    ∃ i : Nat, ⌊f⌋ = (i : Int) ∧ i + 1 < n ∧ 0 ≤ f - i ∧ f - i < 1 := by
  refine ⟨⌊f⌋₊, (Int.natCast_floor_eq_floor h0).symm, ?_, ?_, ?_⟩
  · have h2 : (⌊f⌋₊ : ℝ) ≤ f := Nat.floor_le h0
    have : ((⌊f⌋₊ + 1 : Nat) : ℝ) < n := by push_cast; linarith
    exact_mod_cast this
  · have h2 : (⌊f⌋₊ : ℝ) ≤ f := Nat.floor_le h0
    linarith
  · have := Nat.lt_floor_add_one f
    linarith

/-- Position in units of the grid. -/
def gridX (t : Cub ℝ) (x : ℝ) : ℝ := (x - t.xShift - t.data.x0) / t.data.dx
def gridY (t : Cub ℝ) (y : ℝ) : ℝ := (y - t.yShift - t.data.y0) / t.data.dy
def gridZ (t : Cub ℝ) (z : ℝ) : ℝ := (z - t.tauShift - t.data.z0) / t.data.dz

/-- Mirroring. -/
def mir (m : Bool) (u : ℝ) : ℝ := if m then |u| else u

theorem sign_mul (m : Bool) (u : ℝ) : sign m u * u = mir m u := by
  unfold sign mir
  cases m with
  | false => simp
  | true =>
    by_cases h : u < 0
    · simp [h, abs_of_neg h]
    · simp [h, abs_of_nonneg (not_lt.mp h)]

theorem track_eq (t : Cub ℝ) (c : Coord ℝ)
    (hx : 0 ≤ mir t.data.mirrorX (gridX t c.x) ∧
      mir t.data.mirrorX (gridX t c.x) < (t.data.nx : ℝ) - 1)
    (hy : 0 ≤ mir t.data.mirrorY (gridY t c.y) ∧
      mir t.data.mirrorY (gridY t c.y) < (t.data.ny : ℝ) - 1)
    (hz : 0 ≤ mir t.data.mirrorZ (gridZ t (c.zeta / (c.beta0 * c.rvv))) ∧
      mir t.data.mirrorZ (gridZ t (c.zeta / (c.beta0 * c.rvv))) < (t.data.nz : ℝ) - 1) :
    track t c =
      let U := mir t.data.mirrorX (gridX t c.x)
      let V := mir t.data.mirrorY (gridY t c.y)
      let W := mir t.data.mirrorZ (gridZ t (c.zeta / (c.beta0 * c.rvv)))
      .ok (addToEnergy
        { c with
          px := c.px + (Phi t.data 1 0 0 U V W * (t.length * (1 / t.data.dx)) *
            -sign t.data.mirrorX (gridX t c.x) - t.dipolarPx)
          py := c.py + (Phi t.data 0 1 0 U V W * (t.length * (1 / t.data.dy)) *
            -sign t.data.mirrorY (gridY t c.y) - t.dipolarPy) }
        (c.q0 * c.chargeRatio * (c.p0c * (Phi t.data 0 0 1 U V W * (t.length * (1 / t.data.dz)) *
          -sign t.data.mirrorZ (gridZ t (c.zeta / (c.beta0 * c.rvv))) - t.dipolarPtau)))) := by
  obtain ⟨i, hi, hi1, hx0, hx1⟩ := floor_cell hx.1 hx.2
  obtain ⟨j, hj, hj1, hy0, hy1⟩ := floor_cell hy.1 hy.2
  obtain ⟨k, hk, hk1, hz0, hz1⟩ := floor_cell hz.1 hz.2
  have gx : ((c.x - t.xShift) - t.data.x0) * (1 / t.data.dx) = gridX t c.x := by
    unfold gridX; rw [mul_one_div]
  have gy : ((c.y - t.yShift) - t.data.y0) * (1 / t.data.dy) = gridY t c.y := by
    unfold gridY; rw [mul_one_div]
  have gz : ((c.zeta / (c.beta0 * c.rvv) - t.tauShift) - t.data.z0) * (1 / t.data.dz) =
      gridZ t (c.zeta / (c.beta0 * c.rvv)) := by
    unfold gridZ; rw [mul_one_div]
  have hs := sums_cell t.data hi1 hj1 hk1 ⟨hx0, hx1⟩ ⟨hy0, hy1⟩ ⟨hz0, hz1⟩
  simp only [add_sub_cancel] at hs
  have hb := bVector_ok t.data hi1 hj1 hk1
  rw [hb, Res.ok_bind] at hs
  unfold track
  simp only [gx, gy, gz, sign_mul, hi, hj, hk, hb, Res.ok_bind, Int.cast_natCast, hs, Res.pure_eq]

end

end SixTrack.Tricub
