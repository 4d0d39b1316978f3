import Verif.ElementObjectsLemmas
import Verif.Props.Elements

/-!
# C43, C48, C49 (and C38 for strengths set through the interface): element objects
-/

namespace SixTrack
open Elem Particles

/-! ### C43: multipole strengths -/

/-- Which factorials the library has right. -/
theorem C43_factorial_table (n : Nat) : factorial n = n.factorial ↔ n ≤ 20 ∧ n ≠ 11 :=
  factorial_right_iff n

/-- Setting the normal strength of one order: it reads back as set; all other normal strengths, all skew
strengths and all memory outside the array stay as they were. -/
theorem C43_set_normal (m : MpObj ℝ) (mem : Nat → ℝ) (i : Nat) (v : ℝ) (hb : m.balAddr ≠ 0)
    (hi : i ≤ m.order) (hfit : m.balLength < 2 ^ 64) :
    (m.setKnlValue mem i v).1 = 0 ∧
    m.knl (m.setKnlValue mem i v).2 i = v ∧
    (∀ j, j ≠ i → m.knl (m.setKnlValue mem i v).2 j = m.knl mem j) ∧
    (∀ j, m.ksl (m.setKnlValue mem i v).2 j = m.ksl mem j) ∧
    (∀ a, a < m.balAddr ∨ m.balAddr + m.balLength ≤ a → (m.setKnlValue mem i v).2 a = mem a) := by
  have hf : ((factorial i : Nat) : ℝ) ≠ 0 := by exact_mod_cast (factorial_pos' i).ne'
  unfold MpObj.balLength at hfit
  have hm : 2 * i % 2 ^ 64 = 2 * i := Nat.mod_eq_of_lt (by omega)
  have hlt : 2 * i < m.balLength := by unfold MpObj.balLength; omega
  simp only [MpObj.setKnlValue, hm, if_pos (And.intro hb hlt), MpObj.knl, MpObj.ksl, setAt]
  refine ⟨trivial, ?_, ?_, ?_, ?_⟩
  · rw [if_pos trivial]; field_simp
  · intro j hj; rw [if_neg (by omega)]
  · intro j; rw [if_neg (by omega)]
  · intro a ha; rw [if_neg (by omega)]

/-- The same for skew strengths. -/
theorem C43_set_skew (m : MpObj ℝ) (mem : Nat → ℝ) (i : Nat) (v : ℝ) (hb : m.balAddr ≠ 0)
    (hi : i ≤ m.order) (hfit : m.balLength < 2 ^ 64) :
    (m.setKslValue mem i v).1 = 0 ∧
    m.ksl (m.setKslValue mem i v).2 i = v ∧
    (∀ j, j ≠ i → m.ksl (m.setKslValue mem i v).2 j = m.ksl mem j) ∧
    (∀ j, m.knl (m.setKslValue mem i v).2 j = m.knl mem j) ∧
    (∀ a, a < m.balAddr ∨ m.balAddr + m.balLength ≤ a → (m.setKslValue mem i v).2 a = mem a) := by
  have hf : ((factorial i : Nat) : ℝ) ≠ 0 := by exact_mod_cast (factorial_pos' i).ne'
  unfold MpObj.balLength at hfit
  have hm : (2 * i + 1) % 2 ^ 64 = 2 * i + 1 := Nat.mod_eq_of_lt (by omega)
  have hlt : 2 * i + 1 < m.balLength := by unfold MpObj.balLength; omega
  simp only [MpObj.setKslValue, hm, if_pos (And.intro hb hlt), MpObj.knl, MpObj.ksl, setAt]
  refine ⟨trivial, ?_, ?_, ?_, ?_⟩
  · rw [if_pos trivial]; field_simp
  · intro j hj; rw [if_neg (by omega)]
  · intro j; rw [if_neg (by omega)]
  · intro a ha; rw [if_neg (by omega)]

/-- An order beyond that of the element (and below `2^63`) is refused and nothing is written. -/
theorem C43_beyond_order_partial (m : MpObj ℝ) (mem : Nat → ℝ) (i : Nat) (v : ℝ) (hi : m.order < i)
    (h63 : i < 2 ^ 63) :
    m.setKnlValue mem i v = (-1, mem) ∧ m.setKslValue mem i v = (-1, mem) := by
  have h1 : 2 * i % 2 ^ 64 = 2 * i := Nat.mod_eq_of_lt (by omega)
  have h2 : (2 * i + 1) % 2 ^ 64 = 2 * i + 1 := Nat.mod_eq_of_lt (by omega)
  unfold MpObj.setKnlValue MpObj.setKslValue
  simp only [h1, h2]
  constructor
  · rw [if_neg]; rintro ⟨-, h⟩; unfold MpObj.balLength at h; omega
  · rw [if_neg]; rintro ⟨-, h⟩; unfold MpObj.balLength at h; omega

/-- Order `2^63` wraps around: it is accepted and overwrites the dipole strength. -/
theorem C43_index_wraps_violated :
    ∃ m : MpObj ℝ, ∃ mem : Nat → ℝ, ∃ v, m.order < 2 ^ 63 ∧ (m.setKnlValue mem (2 ^ 63) v).1 = 0 ∧
      m.knl (m.setKnlValue mem (2 ^ 63) v).2 0 ≠ m.knl mem 0 := by
  refine ⟨⟨0, 0, 0, 0, 1⟩, fun _ => 0, 1, by norm_num, ?_, ?_⟩
  · simp [MpObj.setKnlValue, MpObj.balLength]
  · have hf : ((factorial (2 ^ 63) : Nat) : ℝ) ≠ 0 := by exact_mod_cast (factorial_pos' _).ne'
    have e : MpObj.setKnlValue (⟨0, 0, 0, 0, 1⟩ : MpObj ℝ) (fun _ => 0) (2 ^ 63) 1 =
        (0, setAt (fun _ => 0) 1 (1 / ((factorial (2 ^ 63) : Nat) : ℝ))) := by
      simp [MpObj.setKnlValue, MpObj.balLength]
    rw [e]
    simp only [MpObj.knl, setAt, Nat.mul_zero, Nat.add_zero, if_true, zero_mul]
    have h0 : ((factorial 0 : Nat) : ℝ) ≠ 0 := by exact_mod_cast (factorial_pos' 0).ne'
    positivity

/-- Setting all normal strengths: every one reads back as set, and the skew ones and all memory outside
the array stay. -/
theorem C43_set_all_normal (m : MpObj ℝ) (mem : Nat → ℝ) (v : Nat → ℝ) (hb : m.balAddr ≠ 0) :
    (m.setKnl mem v).1 = 0 ∧
    (∀ i, i ≤ m.order → m.knl (m.setKnl mem v).2 i = v i) ∧
    (∀ j, m.ksl (m.setKnl mem v).2 j = m.ksl mem j) ∧
    (∀ a, a < m.balAddr ∨ m.balAddr + m.balLength ≤ a → (m.setKnl mem v).2 a = mem a) := by
  simp only [MpObj.setKnl, if_pos hb, MpObj.knl, MpObj.ksl, strideLoop_spec, MpObj.balLength]
  refine ⟨trivial, ?_, ?_, ?_⟩
  · intro i hi
    rw [if_pos (by omega)]
    have e : 0 + (m.balAddr + 2 * i - (m.balAddr + 0)) / 2 = i := by omega
    rw [e]
    have hf : ((factorial i : Nat) : ℝ) ≠ 0 := by exact_mod_cast (factorial_pos' i).ne'
    field_simp
  · intro j; rw [if_neg (by omega)]
  · intro a ha; rw [if_neg (by omega)]

theorem C43_set_all_skew (m : MpObj ℝ) (mem : Nat → ℝ) (v : Nat → ℝ) (hb : m.balAddr ≠ 0) :
    (m.setKsl mem v).1 = 0 ∧
    (∀ i, i ≤ m.order → m.ksl (m.setKsl mem v).2 i = v i) ∧
    (∀ j, m.knl (m.setKsl mem v).2 j = m.knl mem j) ∧
    (∀ a, a < m.balAddr ∨ m.balAddr + m.balLength ≤ a → (m.setKsl mem v).2 a = mem a) := by
  simp only [MpObj.setKsl, if_pos hb, MpObj.knl, MpObj.ksl, strideLoop_spec, MpObj.balLength]
  refine ⟨trivial, ?_, ?_, ?_⟩
  · intro i hi
    rw [if_pos (by omega)]
    have e : 0 + (m.balAddr + (2 * i + 1) - (m.balAddr + 1)) / 2 = i := by omega
    rw [e]
    have hf : ((factorial i : Nat) : ℝ) ≠ 0 := by exact_mod_cast (factorial_pos' i).ne'
    field_simp
  · intro j; rw [if_neg (by omega)]
  · intro a ha; rw [if_neg (by omega)]

/-- Coefficients set as an array are stored as they are. -/
theorem C43_set_coefficients (m : MpObj ℝ) (mem : Nat → ℝ) (v : Nat → ℝ) (hb : m.balAddr ≠ 0) :
    ∃ mem', m.setBal mem v = .ok (0, mem') ∧ (∀ i, i < m.balLength → mem' (m.balAddr + i) = v i) ∧
      (∀ a, a < m.balAddr ∨ m.balAddr + m.balLength ≤ a → mem' a = mem a) := by
  refine ⟨fillCells mem m.balAddr v 0 m.balLength, ?_, ?_, ?_⟩
  · unfold MpObj.setBal fillLoop
    rw [if_pos hb, if_pos (by omega)]
    have : m.balAddr + m.balLength - m.balAddr = m.balLength := by omega
    rw [this]; rfl
  · intro i hi
    rw [fillCells_spec, if_pos (by omega)]
    congr 1; omega
  · intro a ha; rw [fillCells_spec, if_neg (by omega)]

/-- Setting all coefficients to one value reports success and writes nothing, for every object. -/
theorem C43_set_all_coefficients_violated (m : MpObj ℝ) (mem : Nat → ℝ) (v : ℝ) (hb : m.balAddr ≠ 0) :
    m.setAllBalValues mem v = .ok (0, mem) := by
  unfold MpObj.setAllBalValues fillLoop
  rw [if_pos hb, if_pos (le_refl _), Nat.sub_self]
  rfl

example : ∃ m : MpObj ℝ, m.balAddr ≠ 0 ∧ 3 ≤ m.order ∧ m.balLength < 2 ^ 64 ∧
    m.knl (m.setKnlValue (fun _ => 5) 3 7).2 3 = 7 ∧ m.knl (fun _ => 5) 3 = 30 := by
  refine ⟨⟨4, 0, 0, 0, 16⟩, by norm_num, by norm_num, by simp [MpObj.balLength], ?_, ?_⟩
  · exact (C43_set_normal ⟨4, 0, 0, 0, 16⟩ (fun _ => 5) 3 7 (by norm_num) (by norm_num)
      (by simp [MpObj.balLength])).2.1
  · simp only [MpObj.knl]; rw [factorial]; norm_num

/-! ### C38: the kick in terms of the strengths that were set -/

namespace Elem

theorem stored_normal (m : MpObj ℝ) (mem : Nat → ℝ) (kn ks : Nat → ℝ) (hb : m.balAddr ≠ 0) (n : Nat)
    (hn : n ≤ m.order) :
    (m.view (m.setKsl (m.setKnl mem kn).2 ks).2).bal (2 * n) = kn n / ((factorial n : Nat) : ℝ) := by
  simp only [MpObj.view, MpObj.setKsl, MpObj.setKnl, if_pos hb, strideLoop_spec, MpObj.balLength]
  rw [if_neg (by omega), if_pos (by omega)]
  have e : 0 + (m.balAddr + 2 * n - (m.balAddr + 0)) / 2 = n := by omega
  rw [e]

theorem stored_skew (m : MpObj ℝ) (mem : Nat → ℝ) (kn ks : Nat → ℝ) (hb : m.balAddr ≠ 0) (n : Nat)
    (hn : n ≤ m.order) :
    (m.view (m.setKsl (m.setKnl mem kn).2 ks).2).bal (2 * n + 1) = ks n / ((factorial n : Nat) : ℝ) := by
  simp only [MpObj.view, MpObj.setKsl, MpObj.setKnl, if_pos hb, strideLoop_spec, MpObj.balLength]
  rw [if_pos (by omega)]
  have e : 0 + (m.balAddr + (2 * n + 1) - (m.balAddr + 1)) / 2 = n := by omega
  rw [e]

end Elem

/-- The textbook field: `Σ (k_n + i s_n) (x+iy)^n / n!`. -/
noncomputable def fieldOf (order : Nat) (kn ks : Nat → ℝ) (x y : ℝ) : ℂ :=
  ∑ n ∈ Finset.range (order + 1), (⟨kn n, ks n⟩ : ℂ) * (⟨x, y⟩ : ℂ) ^ n / (n.factorial : ℂ)

/-- A multipole whose strengths `kn`, `ks` were set through the interface gives the kick of the multipole
expansion, as long as only orders with a right factorial have non-zero strengths (all orders up to 20
except 11). -/
theorem C38_kick_of_strengths_partial (m : MpObj ℝ) (mem : Nat → ℝ) (kn ks : Nat → ℝ) (c : Coord ℝ)
    (hb : m.balAddr ≠ 0) (hx : m.hxl = 0) (hy : m.hyl = 0)
    (hgood : ∀ n ≤ m.order, (n ≤ 20 ∧ n ≠ 11) ∨ (kn n = 0 ∧ ks n = 0)) :
    multipole (m.view (m.setKsl (m.setKnl mem kn).2 ks).2) c = { c with
      px := c.px - c.chi * (fieldOf m.order kn ks c.x c.y).re
      py := c.py + c.chi * (fieldOf m.order kn ks c.x c.y).im } := by
  have hfield : storedField (m.view (m.setKsl (m.setKnl mem kn).2 ks).2) c.x c.y =
      fieldOf m.order kn ks c.x c.y := by
    unfold storedField fieldOf
    apply Finset.sum_congr rfl
    intro n hn
    have hn' : n ≤ m.order := by
      have := Finset.mem_range.mp hn
      simp only [MpObj.view] at this
      omega
    rw [stored_normal m mem kn ks hb n hn', stored_skew m mem kn ks hb n hn']
    rcases hgood n hn' with h | h
    · rw [(factorial_right_iff n).mpr h]
      have hc : (⟨kn n / ((n.factorial : Nat) : ℝ), ks n / ((n.factorial : Nat) : ℝ)⟩ : ℂ) =
          (⟨kn n, ks n⟩ : ℂ) / (n.factorial : ℂ) := by
        apply Complex.ext
        · rw [Complex.div_natCast_re]
        · rw [Complex.div_natCast_im]
      rw [hc]
      ring
    · rw [h.1, h.2]
      simp only [zero_div]
      have hz : (⟨0, 0⟩ : ℂ) = 0 := rfl
      rw [hz]; simp
  rw [C38_kick _ _ hx hy, hfield]

/-- Order 11: with `k_11 = 11!` the expansion at `x = 1`, `y = 0` is 1, but the kick is 11. -/
theorem C38_order_11_violated :
    ∃ m : MpObj ℝ, ∃ kn ks : Nat → ℝ, ∃ c : Coord ℝ, m.balAddr ≠ 0 ∧ m.hxl = 0 ∧ m.hyl = 0 ∧
      (fieldOf m.order kn ks c.x c.y).re = 1 ∧ c.chi = 1 ∧
      (multipole (m.view (m.setKsl (m.setKnl (fun _ => 0) kn).2 ks).2) c).px = c.px - 11 := by
  let m : MpObj ℝ := ⟨11, 0, 0, 0, 1⟩
  let kn : Nat → ℝ := fun n => if n = 11 then 39916800 else 0
  let c : Coord ℝ := { sample with x := 1, y := 0 }
  refine ⟨m, kn, fun _ => 0, c, by decide, rfl, rfl, ?_, rfl, ?_⟩
  · unfold fieldOf
    rw [Finset.sum_eq_single 11]
    · have hz : (⟨c.x, c.y⟩ : ℂ) = 1 := rfl
      have hk : (⟨kn 11, 0⟩ : ℂ) = (39916800 : ℝ) := by apply Complex.ext <;> simp [kn]
      rw [hz, hk, show Nat.factorial 11 = 39916800 by decide, one_pow, mul_one]
      norm_num
    · intro n _ hn
      have hk : (⟨kn n, 0⟩ : ℂ) = 0 := by simp only [kn, if_neg hn]; rfl
      rw [hk]; simp
    · intro h; exact absurd (Finset.mem_range.mpr (by decide)) h
  · rw [C38_kick _ _ rfl rfl]
    have hfield : storedField (m.view (m.setKsl (m.setKnl (fun _ => 0) kn).2 (fun _ => 0)).2) c.x c.y =
        11 := by
      unfold storedField
      rw [Finset.sum_eq_single 11]
      · have hz : (⟨c.x, c.y⟩ : ℂ) = 1 := rfl
        rw [stored_normal m _ _ _ (by decide) 11 (by decide), stored_skew m _ _ _ (by decide) 11 (by decide),
          hz, show factorial 11 = 3628800 by rw [factorial.eq_def]]
        simp only [kn, if_true]
        apply Complex.ext <;> norm_num
      · intro n hnr hn
        have hn12 : n < 12 := Finset.mem_range.mp hnr
        rw [stored_normal m _ _ _ (by decide) n (by simp only [m]; omega),
          stored_skew m _ _ _ (by decide) n (by simp only [m]; omega)]
        simp only [kn, if_neg hn, zero_div]
        have hz : (⟨0, 0⟩ : ℂ) = 0 := rfl
        rw [hz]; simp
      · intro h; exact absurd (Finset.mem_range.mpr (by decide)) h
    rw [hfield]
    simp [c, sample]

example : ∃ m : MpObj ℝ, ∃ kn ks : Nat → ℝ, m.balAddr ≠ 0 ∧ m.order = 12 ∧ kn 12 = 3 ∧
    (∀ n ≤ m.order, (n ≤ 20 ∧ n ≠ 11) ∨ (kn n = 0 ∧ ks n = 0)) :=
  ⟨⟨12, 0, 0, 0, 1⟩, fun n => if n = 11 then 0 else 3, fun n => if n = 11 then 0 else 1, by decide, rfl,
    by norm_num, by
      intro n hn
      by_cases h : n = 11
      · right; simp [h]
      · left; simp only at hn; omega⟩

/-! ### C48: RF multipole strengths and phases -/

/-- Setting all normal strengths of an RF multipole works as it should. -/
theorem C48_set_all_normal (m : RfObj ℝ) (mem : Nat → ℝ) (v : Nat → ℝ) (hb : m.balAddr ≠ 0) :
    (m.setKnl mem v).1 = 0 ∧
    (∀ i, i ≤ m.order → m.knl (m.setKnl mem v).2 i = v i) ∧
    (∀ j, m.ksl (m.setKnl mem v).2 j = m.ksl mem j) ∧
    (∀ a, a < m.balAddr ∨ m.balAddr + m.length ≤ a → (m.setKnl mem v).2 a = mem a) := by
  simp only [RfObj.setKnl, if_pos hb, RfObj.knl, RfObj.ksl, countLoop_spec2, RfObj.length]
  refine ⟨trivial, ?_, ?_, ?_⟩
  · intro i hi
    rw [if_pos (by omega)]
    have e : 0 + (m.balAddr + 2 * i - (m.balAddr + 0)) / 2 = i := by omega
    rw [e]
    have hf : ((factorial i : Nat) : ℝ) ≠ 0 := by exact_mod_cast (factorial_pos' i).ne'
    field_simp
  · intro j; rw [if_neg (by omega)]
  · intro a ha; rw [if_neg (by omega)]

/-- Setting all normal phases works as it should. -/
theorem C48_set_normal_phases (m : RfObj ℝ) (mem : Nat → ℝ) (v : Nat → ℝ) (hb : m.phaseAddr ≠ 0) :
    (m.setPhaseN mem v).1 = 0 ∧
    (∀ i, i ≤ m.order → m.phaseN (m.setPhaseN mem v).2 i = v i) ∧
    (∀ j, m.phaseS (m.setPhaseN mem v).2 j = m.phaseS mem j) ∧
    (∀ a, a < m.phaseAddr ∨ m.phaseAddr + m.length ≤ a → (m.setPhaseN mem v).2 a = mem a) := by
  simp only [RfObj.setPhaseN, if_pos hb, RfObj.phaseN, RfObj.phaseS, countLoop_spec2, RfObj.length]
  refine ⟨trivial, ?_, ?_, ?_⟩
  · intro i hi
    rw [if_pos (by omega)]
    congr 1; omega
  · intro j; rw [if_neg (by omega)]
  · intro a ha; rw [if_neg (by omega)]

/-- Setting one phase by its array index works as it should. -/
theorem C48_set_phase_value (m : RfObj ℝ) (mem : Nat → ℝ) (i : Nat) (v : ℝ) :
    (m.setPhaseValue mem i v).1 = 0 ∧ (m.setPhaseValue mem i v).2 (m.phaseAddr + i) = v ∧
    (∀ a, a ≠ m.phaseAddr + i → (m.setPhaseValue mem i v).2 a = mem a) := by
  simp only [RfObj.setPhaseValue, setAt]
  exact ⟨trivial, if_pos trivial, fun a ha => if_neg ha⟩

/-- Setting one strength or phase works for the highest order. -/
theorem C48_set_highest_order_partial (m : RfObj ℝ) (mem : Nat → ℝ) (v : ℝ) (hb : m.balAddr ≠ 0)
    (hp : m.phaseAddr ≠ 0) :
    ((m.setKnlValue mem m.order v).1 = 0 ∧ m.knl (m.setKnlValue mem m.order v).2 m.order = v) ∧
    ((m.setKslValue mem m.order v).1 = 0 ∧ m.ksl (m.setKslValue mem m.order v).2 m.order = v) ∧
    ((m.setPhaseNValue mem m.order v).1 = 0 ∧ m.phaseN (m.setPhaseNValue mem m.order v).2 m.order = v) ∧
    ((m.setPhaseSValue mem m.order v).1 = 0 ∧ m.phaseS (m.setPhaseSValue mem m.order v).2 m.order = v) := by
  have hf : ((factorial m.order : Nat) : ℝ) ≠ 0 := by exact_mod_cast (factorial_pos' _).ne'
  have h1 : 2 * m.order < m.length := by unfold RfObj.length; omega
  have h2 : 2 * m.order + 1 < m.length := by unfold RfObj.length; omega
  simp only [RfObj.setKnlValue, RfObj.setKslValue, RfObj.setPhaseNValue, RfObj.setPhaseSValue,
    if_pos (And.intro hb (And.intro (le_refl m.order) h1)),
    if_pos (And.intro hb (And.intro (le_refl m.order) h2)),
    if_pos (And.intro hp (And.intro (le_refl m.order) h1)),
    if_pos (And.intro hp (And.intro (le_refl m.order) h2)),
    RfObj.knl, RfObj.ksl, RfObj.phaseN, RfObj.phaseS, setAt, if_true]
  refine ⟨⟨trivial, ?_⟩, ⟨trivial, ?_⟩, ⟨trivial, trivial⟩, trivial, trivial⟩ <;> field_simp

/-- Setting one strength or phase is refused for every order below the highest. -/
theorem C48_set_lower_order_violated (m : RfObj ℝ) (mem : Nat → ℝ) (i : Nat) (v : ℝ) (hi : i < m.order) :
    m.setKnlValue mem i v = (-1, mem) ∧ m.setKslValue mem i v = (-1, mem) ∧
    m.setPhaseNValue mem i v = (-1, mem) ∧ m.setPhaseSValue mem i v = (-1, mem) := by
  refine ⟨?_, ?_, ?_, ?_⟩
  · exact if_neg (by omega)
  · exact if_neg (by omega)
  · exact if_neg (by omega)
  · exact if_neg (by omega)

/-- Setting all skew strengths changes no skew strength; it writes to the normal strengths instead. -/
theorem C48_set_all_skew_violated (m : RfObj ℝ) (mem : Nat → ℝ) (v : Nat → ℝ) (hb : m.balAddr ≠ 0) :
    (m.setKsl mem v).1 = 0 ∧ (∀ j, m.ksl (m.setKsl mem v).2 j = m.ksl mem j) ∧
    (0 < m.order → m.knl (m.setKsl mem v).2 0 = v 0) := by
  simp only [RfObj.setKsl, if_pos hb, RfObj.knl, RfObj.ksl, countLoop_spec2]
  refine ⟨trivial, ?_, ?_⟩
  · intro j; rw [if_neg (by omega)]
  · intro ho
    rw [if_pos (by omega)]
    simp only [Nat.mul_zero, Nat.add_zero, Nat.sub_self, Nat.zero_div]
    rw [show factorial 1 = 1 by rw [factorial], show factorial 0 = 1 by rw [factorial]]
    norm_num

/-- The same for skew phases. -/
theorem C48_set_skew_phases_violated (m : RfObj ℝ) (mem : Nat → ℝ) (v : Nat → ℝ) (hb : m.phaseAddr ≠ 0) :
    (m.setPhaseS mem v).1 = 0 ∧ (∀ j, m.phaseS (m.setPhaseS mem v).2 j = m.phaseS mem j) ∧
    (0 < m.order → m.phaseN (m.setPhaseS mem v).2 0 = v 0) := by
  simp only [RfObj.setPhaseS, if_pos hb, RfObj.phaseN, RfObj.phaseS, countLoop_spec2]
  refine ⟨trivial, ?_, ?_⟩
  · intro j; rw [if_neg (by omega)]
  · intro ho
    rw [if_pos (by omega)]
    congr 1; omega

/-- Setting the phases as an array overwrites the strengths and leaves the phases alone. -/
theorem C48_set_phase_array_violated (m : RfObj ℝ) (mem : Nat → ℝ) (v : Nat → ℝ) (hb : m.balAddr ≠ 0)
    (hdisj : m.phaseAddr + m.length ≤ m.balAddr ∨ m.balAddr + m.length ≤ m.phaseAddr) :
    ∃ mem', m.setPhase mem v = .ok (0, mem') ∧ (∀ i, i < m.length → mem' (m.balAddr + i) = v i) ∧
      (∀ i, i < m.length → mem' (m.phaseAddr + i) = mem (m.phaseAddr + i)) := by
  refine ⟨fillCells mem m.balAddr v 0 m.length, ?_, ?_, ?_⟩
  · unfold RfObj.setPhase fillLoop
    rw [if_pos hb, if_pos (by omega)]
    have : m.balAddr + m.length - m.balAddr = m.length := by omega
    rw [this]; rfl
  · intro i hi
    rw [fillCells_spec, if_pos (by omega)]
    congr 1; omega
  · intro i hi; rw [fillCells_spec, if_neg (by omega)]

/-- Setting all phases to one value, with the phases stored right behind the strengths: success is
reported and nothing is written. -/
theorem C48_set_all_phases_violated (m : RfObj ℝ) (mem : Nat → ℝ) (v : ℝ) (hb : m.balAddr ≠ 0)
    (hbehind : m.phaseAddr = m.balAddr + m.length) :
    m.setAllPhaseValues mem v = .ok (0, mem) := by
  unfold RfObj.setAllPhaseValues fillLoop RfObj.phaseEnd
  rw [if_pos hb, hbehind, if_pos (le_refl _), Nat.sub_self]
  rfl

/-- Setting all phases to one value, with the phases stored further behind: the loop runs away. -/
theorem C48_set_all_phases_ub_violated (m : RfObj ℝ) (mem : Nat → ℝ) (v : ℝ) (hb : m.balAddr ≠ 0)
    (hbehind : m.balAddr + m.length < m.phaseAddr) : m.setAllPhaseValues mem v = .ub := by
  unfold RfObj.setAllPhaseValues fillLoop RfObj.phaseEnd
  rw [if_pos hb, if_neg (by omega)]
  rfl

/-- Setting all normal phases to one value writes skew phases: order 1, the phases 0 0 0 0 become
v v 0 0 instead of v 0 v 0. -/
theorem C48_set_all_normal_phases_violated (m : RfObj ℝ) (mem : Nat → ℝ) (v : ℝ) (hp : m.phaseAddr ≠ 0)
    (ho : m.order = 1) :
    m.phaseS (m.setAllPhaseN mem v).2 0 = v ∧ m.phaseN (m.setAllPhaseN mem v).2 1 = m.phaseN mem 1 := by
  unfold RfObj.setAllPhaseN
  rw [if_pos hp, ho]
  rw [countLoop, if_pos (by decide), countLoop, if_pos (by decide), countLoop, if_neg (by decide)]
  simp [RfObj.phaseS, RfObj.phaseN, setAt]

/-- Setting all skew phases to one value leaves the skew phase of order 1 alone. -/
theorem C48_set_all_skew_phases_violated (m : RfObj ℝ) (mem : Nat → ℝ) (v : ℝ) (hp : m.phaseAddr ≠ 0)
    (ho : m.order = 1) : m.phaseS (m.setAllPhaseS mem v).2 1 = m.phaseS mem 1 := by
  unfold RfObj.setAllPhaseS
  rw [if_pos hp, ho]
  rw [countLoop, if_pos (by decide), countLoop, if_neg (by decide)]
  simp [RfObj.phaseS, setAt]

example : ∃ m : RfObj ℝ, m.order = 1 ∧ m.balAddr ≠ 0 ∧ m.phaseAddr ≠ 0 ∧
    m.phaseAddr = m.balAddr + m.length ∧
    m.knl (m.setKnl (fun _ => 0) (fun i => (i : ℝ) + 3)).2 1 = 4 := by
  refine ⟨⟨1, 0, 0, 0, 8, 12⟩, rfl, by decide, by decide, rfl, ?_⟩
  rw [(C48_set_all_normal ⟨1, 0, 0, 0, 8, 12⟩ _ _ (by decide)).2.1 1 (by decide)]
  norm_num

example : ∃ m : RfObj ℝ, m.balAddr ≠ 0 ∧ m.balAddr + m.length < m.phaseAddr :=
  ⟨⟨1, 0, 0, 0, 8, 16⟩, by decide, by decide⟩

/-! ### C49: copies act like the original, and cleared elements are neutral -/

/-- A copied multipole kicks every particle as the original does. -/
theorem C49_multipole_copy (dst src : MpObj ℝ) (mem : Nat → ℝ) (ho : src.order = dst.order)
    (hs : src.balAddr ≠ 0) (hd : dst.balAddr ≠ 0)
    (hdisj : src.balAddr + src.balLength ≤ dst.balAddr ∨ dst.balAddr + dst.balLength ≤ src.balAddr) :
    ∃ dst' mem', dst.copy src mem = .ok (0, dst', mem') ∧
      (∀ c, multipole (dst'.view mem') c = multipole (src.view mem) c) ∧
      (∀ c, multipole (src.view mem') c = multipole (src.view mem) c) := by
  have hl : dst.balLength = src.balLength := by unfold MpObj.balLength; omega
  refine ⟨{ dst with length := src.length, hxl := src.hxl, hyl := src.hyl },
    fillCells mem dst.balAddr (fun i => mem (src.balAddr + i)) 0 dst.balLength, ?_, ?_, ?_⟩
  · unfold MpObj.copy MpObj.setBal fillLoop
    rw [if_pos ho]
    dsimp only
    rw [if_pos hs, if_pos hd, if_pos (by omega)]
    have : dst.balAddr + MpObj.balLength { dst with length := src.length, hxl := src.hxl, hyl := src.hyl }
        - dst.balAddr = dst.balLength := by unfold MpObj.balLength; dsimp only; omega
    rw [this]; rfl
  · intro c
    rw [C38_reads (mp := MpObj.view _ _) (bal' := (src.view mem).bal)]
    · simp only [MpObj.view, ho]
    · intro i hi
      simp only [MpObj.view] at hi ⊢
      rw [fillCells_spec, if_pos (by unfold MpObj.balLength; omega)]
      congr 1; omega
  · intro c
    rw [C38_reads (mp := MpObj.view _ _) (bal' := (src.view mem).bal)]
    · rfl
    · intro i hi
      simp only [MpObj.view] at hi ⊢
      rw [fillCells_spec, if_neg (by unfold MpObj.balLength at *; omega)]

namespace Elem

theorem rfLoop_congr (bal bal' phase phase' : Nat → ℝ) (ktau x y : ℝ) (order : Nat)
    (hb : ∀ i < 2 * order + 2, bal i = bal' i) (hp : ∀ i < 2 * order + 2, phase i = phase' i) :
    rfLoop bal phase ktau x y order = rfLoop bal' phase' ktau x y order := by
  unfold rfLoop
  have : ∀ l : List Nat, (∀ k ∈ l, k ≤ order) → ∀ a,
      l.foldl (rfStep bal phase ktau x y) a = l.foldl (rfStep bal' phase' ktau x y) a := by
    intro l
    induction l with
    | nil => intro _ a; rfl
    | cons k l ih =>
      intro h a
      have hk := h k (List.mem_cons_self ..)
      simp only [List.foldl_cons]
      have e : rfStep bal phase ktau x y a k = rfStep bal' phase' ktau x y a k := by
        unfold rfStep
        rw [hb (2 * k) (by omega), hb (2 * k + 1) (by omega), hp (2 * k) (by omega),
          hp (2 * k + 1) (by omega)]
      rw [e]
      exact ih (fun k hk => h k (List.mem_cons_of_mem _ hk)) _
  exact this _ (fun k hk => by have := List.mem_range.mp hk; omega) _

end Elem

/-- A copied RF multipole acts as the original does. -/
theorem C49_rf_multipole_copy (dst src : RfObj ℝ) (mem : Nat → ℝ) (ho : dst.order = src.order)
    (hs : src.balAddr ≠ 0) (hd : dst.balAddr ≠ 0) (hs' : src.phaseAddr ≠ 0) (hd' : dst.phaseAddr ≠ 0)
    (h1 : src.balAddr + src.length ≤ dst.phaseAddr ∨ dst.phaseAddr + dst.length ≤ src.balAddr)
    (h2 : dst.balAddr + dst.length ≤ dst.phaseAddr ∨ dst.phaseAddr + dst.length ≤ dst.balAddr) :
    ∃ dst' mem', dst.copy src mem = (0, dst', mem') ∧
      ∀ c, rfMultipole (dst'.view mem') c = rfMultipole (src.view mem) c := by
  have hl : dst.length = src.length := by unfold RfObj.length; omega
  let mem1 := fillCells mem dst.phaseAddr (fun i => mem (src.phaseAddr + i)) 0 src.length
  refine ⟨{ dst with voltage := src.voltage, frequency := src.frequency, lag := src.lag },
    fillCells mem1 dst.balAddr (fun i => mem1 (src.balAddr + i)) 0 src.length, ?_, ?_⟩
  · unfold RfObj.copy
    rw [if_pos ho]
    dsimp only
    rw [if_pos (And.intro hs' hd')]
    dsimp only
    rw [if_pos rfl, if_pos (And.intro hs hd)]
    dsimp only
    rw [if_pos rfl]
  · intro c
    unfold rfMultipole
    simp only [RfObj.view, ho]
    rw [rfLoop_congr (bal' := fun i => mem (src.balAddr + i)) (phase' := fun i => mem (src.phaseAddr + i))]
    · intro i hi
      rw [fillCells_spec, if_pos (by unfold RfObj.length; omega)]
      simp only [mem1]
      rw [fillCells_spec, if_neg (by unfold RfObj.length at *; omega)]
      congr 1; omega
    · intro i hi
      rw [fillCells_spec, if_neg (by unfold RfObj.length at *; omega)]
      simp only [mem1]
      rw [fillCells_spec, if_pos (by unfold RfObj.length; omega)]
      congr 1; omega

/-- Copies of the elements that only hold numbers equal the original. -/
theorem C49_simple_copies (d1 s1 : DipEdgeObj ℝ) (d2 s2 : XYShiftObj ℝ) (d3 s3 : SRotationObj ℝ)
    (d4 s4 : Cavity ℝ) (d5 s5 : LimitRect ℝ) :
    d1.copy s1 = s1 ∧ d2.copy s2 = s2 ∧ d3.copy s3 = s3 ∧ d4.copy s4 = s4 ∧ d5.copy s5 = (0, s5) :=
  ⟨rfl, rfl, rfl, rfl, rfl⟩

/-- A copied elliptic aperture accepts the same particles, if the product of the squares of the half axes
stored in the original is right. -/
theorem C49_ellipse_copy (dst src : LimitEllipse ℝ) (ha : 0 ≤ src.aSqu) (hb : 0 ≤ src.bSqu)
    (hab : src.abSqu = src.aSqu * src.bSqu) : dst.copy src = (0, src) := by
  unfold LimitEllipse.copy LimitEllipse.setHalfAxesSqu
  rw [if_pos ⟨ha, hb⟩, ← hab]

/-- A copied rectangle-ellipse aperture keeps the stored product of the destination: the copy can accept
a particle which the original, properly set up, loses. -/
theorem C49_rect_ellipse_copy_violated :
    ∃ dst src : LimitRectEllipse ℝ, ∃ c : Coord ℝ,
      some src = LimitRectEllipse.added 2 2 1 1 ∧ some dst = LimitRectEllipse.added 2 2 4 4 ∧
      (dst.copy src).1 = 0 ∧ ¬ insideRectEllipse src c ∧ insideRectEllipse (dst.copy src).2 c := by
  refine ⟨⟨2, 2, 4, 4, 4 * 4⟩, ⟨2, 2, 1, 1, 1 * 1⟩, { sample with x := 2, y := 0 }, ?_, ?_, rfl, ?_, ?_⟩
  · unfold LimitRectEllipse.added; norm_num
  · unfold LimitRectEllipse.added; norm_num
  · unfold insideRectEllipse; norm_num
  · unfold insideRectEllipse LimitRectEllipse.copy; norm_num [LimitRectEllipse.setMaxX,
      LimitRectEllipse.setMaxY, LimitRectEllipse.setASqu, LimitRectEllipse.setBSqu]

/-- What does hold: the copy is right if the stored products agree. -/
theorem C49_rect_ellipse_copy_partial (dst src : LimitRectEllipse ℝ) (h : dst.abSqu = src.abSqu) :
    dst.copy src = (0, src) := by
  unfold LimitRectEllipse.copy LimitRectEllipse.setMaxX LimitRectEllipse.setMaxY LimitRectEllipse.setASqu
    LimitRectEllipse.setBSqu
  rw [h]

/-- Cleared elements do nothing: drifts of length zero, shift, rotation, and (for a consistent particle)
cavity. -/
theorem C49_cleared_neutral_partial (c : Coord ℝ) :
    drift 0 c = c ∧ driftExact 0 c = c ∧
    xyShift (XYShiftObj.cleared : XYShiftObj ℝ).dx (XYShiftObj.cleared : XYShiftObj ℝ).dy c = c ∧
    sRotation (SRotationObj.cleared : SRotationObj ℝ).cosZ (SRotationObj.cleared : SRotationObj ℝ).sinZ c
      = c ∧
    (Consistent c → cavity (Cavity.cleared : Cavity ℝ) c = c) := by
  refine ⟨(C36_drift_reversible 0 c).2, ?_, ?_, ?_, ?_⟩
  · ext <;> simp [driftExact]
  · ext <;> simp [xyShift, XYShiftObj.cleared]
  · ext <;> simp [sRotation, SRotationObj.cleared]
  · intro hc
    have : cavity (Cavity.cleared : Cavity ℝ) c = addToEnergy c 0 := by
      simp [cavity, Cavity.cleared]
    rw [this]
    exact (C39_no_change c hc).1

/-- A cleared dipole edge kicks vertically, every particle off the axis. -/
theorem C49_cleared_dipole_edge_violated (c : Coord ℝ) (hy : c.y ≠ 0) :
    dipEdge (DipEdgeObj.cleared : DipEdgeObj ℝ).r21 (DipEdgeObj.cleared : DipEdgeObj ℝ).r43 c ≠ c := by
  intro h
  have := congrArg Coord.py h
  simp [dipEdge, DipEdgeObj.cleared] at this
  exact hy this

/-- A cleared rectangular aperture accepts every particle within the global aperture limits. -/
theorem C49_cleared_rect (xl yl : ℝ) (c : Coord ℝ) (h : insideGlobal xl yl c) :
    insideRect (LimitRect.cleared xl yl) c := by
  unfold insideGlobal sign at h
  unfold insideRect LimitRect.cleared
  obtain ⟨hx, hy⟩ := h
  dsimp only
  refine ⟨?_, ?_, ?_, ?_⟩ <;> (split_ifs at hx hy <;> linarith)

example : sample.y ≠ 0 ∧ Consistent sample ∧ insideGlobal 1 1 sample := by
  refine ⟨by simp [sample], by constructor <;> simp only [sample] <;> norm_num, ?_⟩
  unfold insideGlobal sign sample
  norm_num

example : ∃ dst src : MpObj ℝ, src.order = dst.order ∧ src.balAddr ≠ 0 ∧ dst.balAddr ≠ 0 ∧
    src.balAddr + src.balLength ≤ dst.balAddr :=
  ⟨⟨2, 0, 0, 0, 20⟩, ⟨2, 1, 3, 4, 8⟩, rfl, by decide, by decide, by decide⟩

example : ∃ dst src : RfObj ℝ, dst.order = src.order ∧ src.balAddr ≠ 0 ∧ dst.balAddr ≠ 0 ∧
    src.phaseAddr ≠ 0 ∧ dst.phaseAddr ≠ 0 ∧ src.balAddr + src.length ≤ dst.phaseAddr ∧
    dst.balAddr + dst.length ≤ dst.phaseAddr :=
  ⟨⟨1, 0, 0, 0, 20, 24⟩, ⟨1, 1, 3, 4, 8, 12⟩, rfl, by decide, by decide, by decide, by decide, by decide,
    by decide⟩

end SixTrack
