import Verif.Monitor
import Verif.ElemByElemLemmas

/-! # Helper lemmas about beam monitors -/

namespace SixTrack.Monitor
open EBE

/-- The monitor parameters the code asserts before using a monitor (track.h:69-76, 128-136), and
sizes for which all record numbers are representable. -/
structure Mon.Usable (m : Mon) : Prop where
  skip1 : 1 ≤ m.skip
  stores1 : 1 ≤ m.numStores
  minP0 : 0 ≤ m.minP
  minmax : m.minP ≤ m.maxP
  maxI : I64 m.maxP
  cap : (m.maxP - m.minP + 1) * m.numStores < 2^63

/-- number of particles per stored turn -/
def Mon.np (m : Mon) : Int := m.maxP - m.minP + 1

theorem emod_mul_add {a s k : Int} (hs : 0 < s) (h : a = k * s) : a % s = 0 ∧ a / s = k := by
  subst h
  exact ⟨Int.mul_emod_left k s, Int.mul_ediv_cancel k (by omega)⟩

theorem storeIndex_selected {m : Mon} (hu : m.Usable) {k pid : Int} (hk : 0 ≤ k)
    (hr : k < m.numStores ∨ m.isRolling = true) (hov : k * m.skip < 2^63)
    (hp : m.minP ≤ pid ∧ pid ≤ m.maxP)
    (hpo : m.isTurnOrdered = false → (pid - m.minP) * m.np + (k % m.numStores) < 2^63) :
    m.storeIndex (m.start + k * m.skip) pid =
      .ok (if m.isTurnOrdered then m.np * (k % m.numStores) + (pid - m.minP)
        else (pid - m.minP) * m.np + k % m.numStores) := by
  obtain ⟨u1, u2, u3, u4, u5, u6⟩ := hu
  have hs : 0 ≤ k * m.skip := mul_nonneg hk (by omega)
  obtain ⟨e1, e2⟩ := emod_mul_add (a := k * m.skip) (s := m.skip) (by omega) rfl
  have hkk : k ≤ k * m.skip := le_mul_right' hk u1
  unfold Mon.storeIndex
  have hsub : m.start + k * m.skip - m.start = k * m.skip := by omega
  rw [hsub, i64_of_bounds hs hov, Res.ok_bind, if_neg (by omega),
    modI_pos hs hov (by omega), e1, Res.ok_bind, if_neg (by omega),
    divI_pos hs hov (by omega), e2, Res.ok_bind]
  have hidx : (if k ≥ m.numStores ∧ m.isRolling = true then modI k m.numStores else pure k)
      = Res.ok (k % m.numStores) := by
    split
    · rw [modI_pos hk (by omega) (by omega)]
    · rename_i hn
      have : k < m.numStores := by
        rcases hr with hr | hr
        · exact hr
        · by_contra hc; exact hn ⟨by omega, hr⟩
      rw [Int.emod_eq_of_lt hk this]; rfl
  rw [hidx, Res.ok_bind]
  have hm0 := Int.emod_nonneg k (b := m.numStores) (by omega)
  have hm1 := Int.emod_lt_of_pos k (b := m.numStores) (by omega)
  have hmx := u5.2
  rw [if_pos hm1, i64_of_bounds (by omega) (by omega), Res.ok_bind,
    i64_of_bounds (by omega) (by omega), Res.ok_bind]
  have hnp1 : 1 ≤ m.maxP - m.minP + 1 := by omega
  have hnpcap : m.maxP - m.minP + 1 ≤ (m.maxP - m.minP + 1) * m.numStores :=
    le_mul_right' (by omega) u2
  rw [i64_of_bounds (by omega) (by omega), Res.ok_bind]
  have hA : (m.maxP - m.minP + 1) * (k % m.numStores) + (m.maxP - m.minP + 1)
      ≤ (m.maxP - m.minP + 1) * m.numStores := by
    have : (m.maxP - m.minP + 1) * (k % m.numStores) + (m.maxP - m.minP + 1)
        = (m.maxP - m.minP + 1) * (k % m.numStores + 1) := by ring
    rw [this]
    exact mul_le_mul_of_nonneg_left (by omega) (by omega)
  have hA0 : 0 ≤ (m.maxP - m.minP + 1) * (k % m.numStores) := mul_nonneg (by omega) hm0
  have hB0 : 0 ≤ (pid - m.minP) * (m.maxP - m.minP + 1) := mul_nonneg (by omega) (by omega)
  by_cases ht : m.isTurnOrdered = true
  · rw [if_pos ht, if_pos ht, i64_of_bounds hA0 (by omega), Res.ok_bind,
      i64_of_bounds (by omega) (by omega)]
    rfl
  · rw [if_neg ht, if_neg ht]
    have hb := hpo (by simpa using ht)
    unfold Mon.np at hb ⊢
    rw [i64_of_bounds hB0 (by omega), Res.ok_bind, i64_of_bounds (by omega) (by omega)]

theorem storeIndex_not_selected {m : Mon} (hu : m.Usable) {turn pid : Int}
    (hti : I64 (turn - m.start))
    (h : ∀ k, 0 ≤ k → turn = m.start + k * m.skip → m.numStores ≤ k ∧ m.isRolling = false) :
    m.storeIndex turn pid = .ok (-1) := by
  obtain ⟨u1, u2, u3, u4, u5, u6⟩ := hu
  unfold Mon.storeIndex
  rw [i64_ok hti, Res.ok_bind]
  by_cases hneg : turn - m.start < 0
  · rw [if_pos hneg]; rfl
  · rw [if_neg hneg, modI_pos (by omega) hti.2 (by omega), Res.ok_bind]
    by_cases hz : (turn - m.start) % m.skip = 0
    · rw [if_neg (by omega), divI_pos (by omega) hti.2 (by omega), Res.ok_bind]
      have hd := Int.emod_add_mul_ediv (turn - m.start) m.skip
      have hk0 : 0 ≤ (turn - m.start) / m.skip := Int.ediv_nonneg (by omega) (by omega)
      have hk := h ((turn - m.start) / m.skip) hk0 (by rw [mul_comm]; omega)
      rw [if_neg (by rw [hk.2]; simp), Res.pure_eq, Res.ok_bind, if_neg (by omega)]
      rfl
    · rw [if_pos hz]; rfl

end SixTrack.Monitor
