import Verif.CudaGrid
import Verif.Props.WorkItems

/-!
# C101: the blocks and threads of a CUDA kernel cover its work items
-/

namespace SixTrack
open SixTrack.KConf SixTrack.WorkItems SixTrack.CudaGrid

/-- the size in direction `i` -/
def sizeIn (s : Sizes) : Nat → Nat
  | 0 => s.v.a
  | 1 => s.v.b
  | _ => s.v.c

/-- the extent of a `dim3` in direction `i` -/
def extentIn (d : Dim3) : Nat → Nat
  | 0 => d.x.toNat
  | 1 => d.y.toNat
  | _ => d.z.toNat

/-- The blocks have the size of the work groups, there are enough of them for the work items in each direction, and no more than
that; in other directions there is one. -/
structure GridCovers (items groups : Sizes) (grid block : Dim3) : Prop where
  shape : ∀ i < items.dim, extentIn block i = sizeIn groups i
  enough : ∀ i < items.dim, sizeIn items i ≤ extentIn grid i * extentIn block i
  least : ∀ i < items.dim, extentIn grid i * extentIn block i < sizeIn items i + extentIn block i
  rest : ∀ i, items.dim ≤ i → i < 3 → extentIn grid i = 1 ∧ extentIn block i = 1

/-- Work items and groups have the same directions, all sizes are there, and neither the groups nor their number are too large
for a `dim3`. -/
structure GridSane (items groups : Sizes) : Prop where
  dim : 0 < items.dim ∧ items.dim ≤ 3
  same : groups.dim = items.dim
  num : ∀ i < items.dim, 0 < sizeIn items i ∧ sizeIn items i ≤ (2 ^ 32 - 1) * sizeIn groups i
  size : ∀ i < items.dim, 0 < sizeIn groups i ∧ sizeIn groups i < 2 ^ 32

/-- the number of blocks of size `g` for `k` items -/
def needed (k g : Nat) : Nat := if k % g ≠ 0 then k / g + 1 else k / g

theorem needed_spec {k g : Nat} (hg : 0 < g) : k ≤ needed k g * g ∧ needed k g * g < k + g := by
  have h := Nat.div_add_mod k g
  have hm := Nat.mod_lt k hg
  have e : k / g * g = g * (k / g) := Nat.mul_comm _ _
  unfold needed
  by_cases h0 : k % g = 0
  · rw [if_neg (not_not.2 h0)]
    omega
  · rw [if_pos h0, Nat.add_mul, Nat.one_mul]
    omega

theorem needed_lt {k g n : Nat} (hg : 0 < g) (h : k ≤ n * g) : needed k g ≤ n := by
  have h1 := (needed_spec (k := k) hg).2
  by_contra hn
  have : (n + 1) * g ≤ needed k g * g := Nat.mul_le_mul_right g (by omega)
  rw [Nat.add_mul, Nat.one_mul] at this
  omega

/-- one entry of the arrays of `doUpdate` -/
def gridEntry (c : Conf) (f : Nat → Nat → Nat) (i : Nat) : Nat :=
  if i < c.items.dim then f (sizeIn c.items i) (sizeIn c.groups i) else 1

theorem read_in {s : Sizes} {i : Nat} (h : i < s.dim) (h3 : i < 3) : s.read i = .ok (sizeIn s i) := by
  unfold Sizes.read
  rw [if_pos h]
  match i, h3 with
  | 0, _ | 1, _ | 2, _ => rfl

theorem gridLoop_step (c : Conf) {n i : Nat} (b t : Vec3) (h : i < c.items.dim) (hs : c.groups.dim = c.items.dim) (h3 : i < 3) :
    gridLoop c (n + 1) i b t = if sizeIn c.groups i = 0 ∨ sizeIn c.items i = 0 then .ok none else
      (do
        let t ← t.set i (sizeIn c.groups i)
        let b ← b.set i (needed (sizeIn c.items i) (sizeIn c.groups i))
        gridLoop c n (i + 1) b t) := by
  conv_lhs => unfold gridLoop
  rw [read_in (hs ▸ h) h3, Res.ok_bind, read_in h h3, Res.ok_bind]
  rfl

theorem gridLoop_all (c : Conf) (hd : 0 < c.items.dim ∧ c.items.dim ≤ 3) (hs : c.groups.dim = c.items.dim)
    (h : ∀ i < c.items.dim, sizeIn c.groups i ≠ 0 ∧ sizeIn c.items i ≠ 0) :
    gridLoop c c.items.dim 0 ⟨1, 1, 1⟩ ⟨1, 1, 1⟩ = .ok (some
      (⟨gridEntry c needed 0, gridEntry c needed 1, gridEntry c needed 2⟩,
       ⟨gridEntry c (fun _ g => g) 0, gridEntry c (fun _ g => g) 1, gridEntry c (fun _ g => g) 2⟩)) := by
  unfold gridEntry
  have no : ∀ i < c.items.dim, ¬(sizeIn c.groups i = 0 ∨ sizeIn c.items i = 0) := fun i hi => not_or.2 (h i hi)
  obtain hd' | hd' | hd' : c.items.dim = 1 ∨ c.items.dim = 2 ∨ c.items.dim = 3 := by omega
  · have no := no
    rw [hd'] at no ⊢
    rw [gridLoop_step c _ _ (by omega) hs (by omega), if_neg (no 0 (by omega))]
    rfl
  · rw [hd'] at no ⊢
    rw [gridLoop_step c _ _ (by omega) hs (by omega), if_neg (no 0 (by omega))]
    show gridLoop c 1 1 _ _ = _
    rw [gridLoop_step c _ _ (by omega) hs (by omega), if_neg (no 1 (by omega))]
    rfl
  · rw [hd'] at no ⊢
    rw [gridLoop_step c _ _ (by omega) hs (by omega), if_neg (no 0 (by omega))]
    show gridLoop c 2 1 _ _ = _
    rw [gridLoop_step c _ _ (by omega) hs (by omega), if_neg (no 1 (by omega))]
    show gridLoop c 1 2 _ _ = _
    rw [gridLoop_step c _ _ (by omega) hs (by omega), if_neg (no 2 (by omega))]
    rfl

theorem gridLoop_none (c : Conf) (hd : 0 < c.items.dim ∧ c.items.dim ≤ 3) (hs : c.groups.dim = c.items.dim)
    {k : Nat} (hk : k < c.items.dim) (h : sizeIn c.groups k = 0 ∨ sizeIn c.items k = 0) :
    gridLoop c c.items.dim 0 ⟨1, 1, 1⟩ ⟨1, 1, 1⟩ = .ok none := by
  have key : ∀ n i b t, i + n = c.items.dim → i ≤ k → gridLoop c n i b t = .ok none := by
    intro n
    induction n with
    | zero => intro i b t hi hik; omega
    | succ n ih =>
      intro i b t hi hik
      rw [gridLoop_step c b t (by omega) hs (by omega)]
      split_ifs with h0
      · rfl
      · have hne : i ≠ k := fun e => h0 (e ▸ h)
        match i, (by omega : i < 3) with
        | 0, _ => exact ih 1 _ _ (by omega) (by omega)
        | 1, _ => exact ih 2 _ _ (by omega) (by omega)
        | 2, _ => omega
  exact key _ 0 _ _ (by omega) (by omega)

/-- An update covers the work items; it is a success if the numbers of blocks and of threads per block have 64 bits. -/
theorem C101_update (c : Conf) (h : GridSane c.items c.groups) :
    ∃ s b t, c.update = .ok (s, { c with blocks := b, threads := t, needsUpdate := !s && c.needsUpdate }) ∧
      GridCovers c.items c.groups b t ∧ (volume b < 2 ^ 64 → volume t < 2 ^ 64 → s = true) := by
  have hne : ∀ i < c.items.dim, sizeIn c.groups i ≠ 0 ∧ sizeIn c.items i ≠ 0 := fun i hi =>
    ⟨by have := (h.size i hi).1; omega, by have := (h.num i hi).1; omega⟩
  have hloop := gridLoop_all c h.dim h.same hne
  have hB : ∀ i, 0 < gridEntry c needed i ∧ gridEntry c needed i < 2 ^ 32 := fun i => by
    unfold gridEntry
    by_cases hi : i < c.items.dim
    · rw [if_pos hi]
      have h1 := needed_lt (h.size i hi).1 (h.num i hi).2
      have h2 := (needed_spec (k := sizeIn c.items i) (h.size i hi).1).1
      have h3 := (h.num i hi).1
      refine ⟨?_, by omega⟩
      by_contra h0
      rw [Nat.eq_zero_of_not_pos h0] at h2
      omega
    · rw [if_neg hi]
      omega
  have hT : ∀ i, 0 < gridEntry c (fun _ g => g) i ∧ gridEntry c (fun _ g => g) i < 2 ^ 32 := fun i => by
    unfold gridEntry
    by_cases hi : i < c.items.dim
    · rw [if_pos hi]
      exact h.size i hi
    · rw [if_neg hi]
      omega
  have heB : ∀ i < 3, extentIn (Vec3.dim3 ⟨gridEntry c needed 0, gridEntry c needed 1, gridEntry c needed 2⟩) i =
      gridEntry c needed i := fun i hi => by
    match i, hi with
    | 0, _ => exact (BitVec.toNat_ofNat _ _).trans (Nat.mod_eq_of_lt (hB 0).2)
    | 1, _ => exact (BitVec.toNat_ofNat _ _).trans (Nat.mod_eq_of_lt (hB 1).2)
    | 2, _ => exact (BitVec.toNat_ofNat _ _).trans (Nat.mod_eq_of_lt (hB 2).2)
  have heT : ∀ i < 3, extentIn (Vec3.dim3 ⟨gridEntry c (fun _ g => g) 0, gridEntry c (fun _ g => g) 1,
      gridEntry c (fun _ g => g) 2⟩) i = gridEntry c (fun _ g => g) i := fun i hi => by
    match i, hi with
    | 0, _ => exact (BitVec.toNat_ofNat _ _).trans (Nat.mod_eq_of_lt (hT 0).2)
    | 1, _ => exact (BitVec.toNat_ofNat _ _).trans (Nat.mod_eq_of_lt (hT 1).2)
    | 2, _ => exact (BitVec.toNat_ofNat _ _).trans (Nat.mod_eq_of_lt (hT 2).2)
  have hprod : ∀ v : Vec3, 0 < v.a → 0 < v.b → 0 < v.c → v.a < 2 ^ 32 → v.b < 2 ^ 32 → v.c < 2 ^ 32 →
      volume (Vec3.dim3 v) < 2 ^ 64 → 0 < Vec3.product v := fun v h1 h2 h3 l1 l2 l3 hv => by
    have e1 : v.a % 4294967296 = v.a := Nat.mod_eq_of_lt l1
    have e2 : v.b % 4294967296 = v.b := Nat.mod_eq_of_lt l2
    have e3 : v.c % 4294967296 = v.c := Nat.mod_eq_of_lt l3
    simp only [volume, Vec3.dim3, BitVec.toNat_ofNat, Nat.reducePow, e1, e2, e3] at hv
    have hab : v.a * v.b < 18446744073709551616 := Nat.lt_of_le_of_lt (Nat.le_mul_of_pos_right _ h3) hv
    simp only [Vec3.product, Nat.reducePow]
    rw [Nat.mod_eq_of_lt hab, Nat.mod_eq_of_lt hv]
    exact Nat.mul_pos (Nat.mul_pos h1 h2) h3
  have hdo : ∃ s, c.doUpdate = .ok (s, { c with
      blocks := Vec3.dim3 ⟨gridEntry c needed 0, gridEntry c needed 1, gridEntry c needed 2⟩,
      threads := Vec3.dim3 ⟨gridEntry c (fun _ g => g) 0, gridEntry c (fun _ g => g) 1, gridEntry c (fun _ g => g) 2⟩ }) ∧
      (volume (Vec3.dim3 ⟨gridEntry c needed 0, gridEntry c needed 1, gridEntry c needed 2⟩) < 2 ^ 64 →
        volume (Vec3.dim3 ⟨gridEntry c (fun _ g => g) 0, gridEntry c (fun _ g => g) 1, gridEntry c (fun _ g => g) 2⟩) < 2 ^ 64 →
        s = true) := by
    unfold Conf.doUpdate
    rw [if_pos ⟨h.dim.1, h.same⟩, hloop, Res.ok_bind]
    refine ⟨_, rfl, fun v1 v2 => ?_⟩
    exact decide_eq_true ⟨hprod _ (hB 0).1 (hB 1).1 (hB 2).1 (hB 0).2 (hB 1).2 (hB 2).2 v1,
      hprod _ (hT 0).1 (hT 1).1 (hT 2).1 (hT 0).2 (hT 1).2 (hT 2).2 v2⟩
  obtain ⟨s, hs, hv⟩ := hdo
  refine ⟨s, _, _, ?_, ⟨?_, ?_, ?_, ?_⟩, hv⟩
  · unfold Conf.update
    rw [hs, Res.ok_bind]
    cases s <;> rfl
  · intro i hi
    have hdim := h.dim.2
    rw [heT i (by omega)]
    unfold gridEntry
    rw [if_pos hi]
  · intro i hi
    have hdim := h.dim.2
    rw [heT i (by omega), heB i (by omega)]
    unfold gridEntry
    rw [if_pos hi, if_pos hi]
    exact (needed_spec (h.size i hi).1).1
  · intro i hi
    have hdim := h.dim.2
    rw [heT i (by omega), heB i (by omega)]
    unfold gridEntry
    rw [if_pos hi, if_pos hi]
    exact (needed_spec (h.size i hi).1).2
  · intro i hi hi3
    rw [heT i hi3, heB i hi3]
    unfold gridEntry
    rw [if_neg (by omega), if_neg (by omega)]
    exact ⟨rfl, rfl⟩

/-- In each direction every work item is one of exactly one thread. -/
theorem C101_every_item {items groups : Sizes} {grid block : Dim3} (h : GridCovers items groups grid block) {i k : Nat}
    (hi : i < items.dim) (hg : 0 < sizeIn groups i) (hk : k < sizeIn items i) :
    ∃! p : Nat × Nat, p.1 < extentIn grid i ∧ p.2 < extentIn block i ∧ p.1 * extentIn block i + p.2 = k := by
  have hb : 0 < extentIn block i := by
    rw [h.shape i hi]
    exact hg
  have hen := h.enough i hi
  refine ⟨(k / extentIn block i, k % extentIn block i), ⟨?_, Nat.mod_lt _ hb, ?_⟩, ?_⟩
  · exact (Nat.div_lt_iff_lt_mul hb).2 (by omega)
  · exact Nat.div_add_mod' _ _
  · rintro ⟨p, q⟩ ⟨-, hq, e⟩
    simp only at hq e
    subst e
    simp only [Prod.mk.injEq]
    constructor
    · rw [Nat.mul_comm, Nat.mul_add_div hb, Nat.div_eq_of_lt hq, Nat.add_zero]
    · rw [Nat.mul_comm, Nat.mul_add_mod, Nat.mod_eq_of_lt hq]

/-- Without directions, with different ones, or with a size that is zero, an update fails and changes nothing. -/
theorem C101_refused (c : Conf) (hd : c.items.dim ≤ 3) (h : c.items.dim = 0 ∨ c.groups.dim ≠ c.items.dim ∨
    ∃ i < c.items.dim, sizeIn c.groups i = 0 ∨ sizeIn c.items i = 0) : c.update = .ok (false, c) := by
  have : c.doUpdate = .ok (false, c) := by
    unfold Conf.doUpdate
    by_cases hc : 0 < c.items.dim ∧ c.groups.dim = c.items.dim
    · rw [if_pos hc]
      obtain h | h | ⟨i, hi, h⟩ := h
      · omega
      · exact absurd hc.2 h
      · rw [gridLoop_none c ⟨hc.1, hd⟩ hc.2 hi h]
        rfl
    · rw [if_neg hc]
  unfold Conf.update
  rw [this]
  rfl

/-- The totals are the numbers of blocks and threads if these have 32 bits. -/
theorem C101_total (c : Conf) (hn : c.needsUpdate = false) (hz : 0 < c.blocks.z.toNat ∧ 0 < c.threads.z.toNat)
    (h : Fits c.blocks c.threads) :
    c.totalBlocks = volume c.blocks ∧ c.totalPerBlock = volume c.threads ∧
      c.totalThreads = volume c.blocks * volume c.threads := by
  have h1 : c.totalBlocks = volume c.blocks := by
    unfold Conf.totalBlocks
    rw [hn]
    exact product_toNat h.1 hz.1
  have h2 : c.totalPerBlock = volume c.threads := by
    unfold Conf.totalPerBlock
    rw [hn]
    exact product_toNat h.2 hz.2
  refine ⟨h1, h2, ?_⟩
  unfold Conf.totalThreads
  rw [h1, h2]
  exact Nat.mod_eq_of_lt (by
    have := Nat.mul_lt_mul'' h.1 h.2
    simpa using this)

/-- The kernels that remap buffers have one block of one thread. -/
theorem C101_remap : ∃ c, remapConf = .ok (true, c) ∧ c.launch = some (⟨1, 1, 1⟩, ⟨1, 1, 1⟩) := ⟨_, rfl, rfl⟩

end SixTrack
