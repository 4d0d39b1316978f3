import Verif.MonitorLemmas
import Mathlib.Data.List.Induction

/-!
# Properties C22, C23: where beam monitors store particles

A monitor stores the turns `start + k * skip` for `k = 0, 1, 2, ...`; its output object has
`(maxP - minP + 1) * numStores` records.
-/

namespace SixTrack
open Monitor EBE

/-- number of records of the output object of a monitor -/
def Monitor.Mon.records (m : Mon) : Int := (m.maxP - m.minP + 1) * m.numStores

/-- A turn-ordered monitor: 3 particles (ids 2..4), 5 stores, every third turn from turn 7. -/
def exampleMonitor (rolling : Int) : Mon :=
  { numStores := 5, start := 7, skip := 3, outAddr := 4096, maxP := 4, minP := 2,
    rolling := rolling, turnOrdered := 1 }

theorem exampleMonitor_usable (r : Int) : (exampleMonitor r).Usable := by
  constructor <;> simp [exampleMonitor, I64]

/-- **C22 (stored)**: every selected turn (all of them if rolling, otherwise the first
`numStores`) has a record inside the output. -/
theorem C22_selected_turn_has_record {m : Mon} (hu : m.Usable) (ht : m.isTurnOrdered = true)
    {k pid : Int} (hk : 0 ≤ k) (hr : k < m.numStores ∨ m.isRolling = true)
    (hov : k * m.skip < 2^63) (hp : m.minP ≤ pid ∧ pid ≤ m.maxP) :
    ∃ i, m.storeIndex (m.start + k * m.skip) pid = .ok i ∧ 0 ≤ i ∧ i < m.records := by
  rw [storeIndex_selected hu hk hr hov hp (by rw [ht]; simp), if_pos ht]
  have h2 := hu.stores1
  have hm0 := Int.emod_nonneg k (b := m.numStores) (by omega)
  have hm1 := Int.emod_lt_of_pos k (b := m.numStores) (by omega)
  have h4 := hu.minmax
  have hA : m.np * (k % m.numStores + 1) ≤ m.np * m.numStores :=
    mul_le_mul_of_nonneg_left (by omega) (by unfold Mon.np; omega)
  have hA0 : 0 ≤ m.np * (k % m.numStores) := mul_nonneg (by unfold Mon.np; omega) hm0
  have hA1 : m.np * (k % m.numStores + 1) = m.np * (k % m.numStores) + m.np := by ring
  refine ⟨_, rfl, by omega, ?_⟩
  unfold Mon.records
  unfold Mon.np at *
  omega

example : ∃ i, (exampleMonitor 0).storeIndex (7 + 4 * 3) 3 = .ok i ∧ 0 ≤ i ∧ i < 15 :=
  C22_selected_turn_has_record (exampleMonitor_usable 0) rfl (by decide) (by decide) (by decide)
    (by decide)

/-- **C22 (which records are shared)**: two selected (particle, store number) pairs share a record
exactly if the particle is the same and the store numbers differ by a multiple of the number of
stores. -/
theorem C22_shared_record {m : Mon} (hu : m.Usable) (ht : m.isTurnOrdered = true)
    {k pid k' pid' : Int} (hk : 0 ≤ k) (hr : k < m.numStores ∨ m.isRolling = true)
    (hov : k * m.skip < 2^63) (hp : m.minP ≤ pid ∧ pid ≤ m.maxP)
    (hk' : 0 ≤ k') (hr' : k' < m.numStores ∨ m.isRolling = true)
    (hov' : k' * m.skip < 2^63) (hp' : m.minP ≤ pid' ∧ pid' ≤ m.maxP) :
    m.storeIndex (m.start + k * m.skip) pid = m.storeIndex (m.start + k' * m.skip) pid' ↔
      pid = pid' ∧ (k - k') % m.numStores = 0 := by
  rw [storeIndex_selected hu hk hr hov hp (by rw [ht]; simp),
    storeIndex_selected hu hk' hr' hov' hp' (by rw [ht]; simp), if_pos ht, if_pos ht, Res.ok_inj]
  have h4 := hu.minmax
  constructor
  · intro h
    rw [mul_comm m.np, mul_comm m.np] at h
    obtain ⟨a, b⟩ := row_mod (np := m.np) (p := pid - m.minP) (e := k % m.numStores)
      (by unfold Mon.np; omega)
    obtain ⟨a', b'⟩ := row_mod (np := m.np) (p := pid' - m.minP) (e := k' % m.numStores)
      (by unfold Mon.np; omega)
    rw [h] at a b
    refine ⟨by omega, ?_⟩
    have hkk : k % m.numStores = k' % m.numStores := by omega
    rw [Int.sub_emod, hkk, Int.sub_self, Int.zero_emod]
  · rintro ⟨rfl, h⟩
    have : k % m.numStores = k' % m.numStores := by
      have h4 : k = k' + (k - k') := by omega
      rw [h4, Int.add_emod, h, Int.add_zero, Int.emod_emod_of_dvd _ (Int.dvd_refl _)]
    rw [this]

/-- **C22 (no collision)**: the first `numStores` selected turns of all particles have pairwise
different records. -/
theorem C22_records_distinct {m : Mon} (hu : m.Usable) (ht : m.isTurnOrdered = true)
    {k pid k' pid' : Int} (hk : 0 ≤ k ∧ k < m.numStores) (hov : k * m.skip < 2^63)
    (hp : m.minP ≤ pid ∧ pid ≤ m.maxP) (hk' : 0 ≤ k' ∧ k' < m.numStores)
    (hov' : k' * m.skip < 2^63) (hp' : m.minP ≤ pid' ∧ pid' ≤ m.maxP)
    (h : m.storeIndex (m.start + k * m.skip) pid = m.storeIndex (m.start + k' * m.skip) pid') :
    pid = pid' ∧ k = k' := by
  obtain ⟨a, b⟩ := (C22_shared_record hu ht hk.1 (Or.inl hk.2) hov hp hk'.1 (Or.inl hk'.2)
    hov' hp').1 h
  refine ⟨a, ?_⟩
  have hd := Int.dvd_of_emod_eq_zero b
  rcases Int.le_total k' k with h1 | h1
  · have := Int.eq_zero_of_dvd_of_nonneg_of_lt (by omega) (by omega) hd
    omega
  · have hd' : m.numStores ∣ k' - k := by
      obtain ⟨c, hc⟩ := hd
      exact ⟨-c, by rw [Int.mul_neg]; omega⟩
    have := Int.eq_zero_of_dvd_of_nonneg_of_lt (by omega) (by omega) hd'
    omega

example : (exampleMonitor 0).storeIndex (7 + 4 * 3) 3 ≠ (exampleMonitor 0).storeIndex (7 + 2 * 3) 4 :=
  fun h => absurd (C22_records_distinct (exampleMonitor_usable 0) rfl (by decide) (by decide)
    (by decide) (by decide) (by decide) (by decide) h).1 (by decide)

example : (exampleMonitor 1).storeIndex (7 + 4 * 3) 3 = (exampleMonitor 1).storeIndex (7 + 9 * 3) 3 :=
  (C22_shared_record (exampleMonitor_usable 1) rfl (by decide) (by decide) (by decide) (by decide)
    (by decide) (by decide) (by decide) (by decide)).2 (by decide)

/-- **C22 (nothing else is stored)**: a turn that is not `start + k * skip`, or that comes after
the last store of a monitor that is not rolling, is not stored (for either record order). -/
theorem C22_other_turns_not_stored {m : Mon} (hu : m.Usable) {turn pid : Int}
    (hti : I64 (turn - m.start))
    (h : ∀ k, 0 ≤ k → turn = m.start + k * m.skip → m.numStores ≤ k ∧ m.isRolling = false) :
    m.storeIndex turn pid = .ok (-1) :=
  storeIndex_not_selected hu hti h

example : (exampleMonitor 1).storeIndex 9 3 = .ok (-1) :=
  C22_other_turns_not_stored (exampleMonitor_usable 1) (by decide)
    (fun k h1 h2 => by simp only [exampleMonitor] at h2; omega)
example : (exampleMonitor 0).storeIndex (7 + 5 * 3) 3 = .ok (-1) :=
  C22_other_turns_not_stored (exampleMonitor_usable 0) (by decide)
    (fun k h1 h2 => by simp only [exampleMonitor] at h2 ⊢; exact ⟨by omega, rfl⟩)

/-! ## histories -/

/-- Passing a sequence of (turn, particle id) events through the monitor; every record is labelled
with the event that was written last. -/
def Monitor.Mon.run (m : Mon) (size : Int) :
    List (Int × Int) → (Int → Option (Int × Int)) → Res (Int → Option (Int × Int))
  | [], out => .ok out
  | ev :: evs, out => do
      let r ← m.track ev.1 ev.2 1 ev size out
      Monitor.Mon.run m size evs r.2.2

private theorem run_append (m : Mon) (size : Int) (a b : List (Int × Int))
    (out : Int → Option (Int × Int)) :
    m.run size (a ++ b) out = (m.run size a out) >>= fun o => m.run size b o := by
  induction a generalizing out with
  | nil => rfl
  | cons x xs ih =>
    simp only [List.cons_append, Mon.run]
    cases m.track x.1 x.2 1 x size out with
    | ub => rfl
    | ok r => simp only [Res.ok_bind]; exact ih _

private theorem selected_or_not (m : Mon) (turn : Int) :
    (∃ k, 0 ≤ k ∧ turn = m.start + k * m.skip ∧ (k < m.numStores ∨ m.isRolling = true)) ∨
    (∀ k, 0 ≤ k → turn = m.start + k * m.skip → m.numStores ≤ k ∧ m.isRolling = false) := by
  by_cases h : ∃ k, 0 ≤ k ∧ turn = m.start + k * m.skip ∧ (k < m.numStores ∨ m.isRolling = true)
  · exact Or.inl h
  · right
    intro k hk he
    refine ⟨?_, ?_⟩
    · by_contra hc; exact h ⟨k, hk, he, Or.inl (by omega)⟩
    · cases hr : m.isRolling
      · rfl
      · exact absurd ⟨k, hk, he, Or.inr hr⟩ h

/-- **C22 (history)**: let any sequence of particles in range pass a turn-ordered monitor whose
output has room for all its records, in the order of the turns and with last turn at most `T`.
Then no particle is disturbed, and the record of a selected turn `start + k * skip` is still in the
output if the monitor is not rolling and `k < numStores`, or if it is rolling and turn `T` comes
before the `numStores`-th selected turn after it. -/
theorem C22_history {m : Mon} (hu : m.Usable) (ht : m.isTurnOrdered = true) (ha : m.outAddr ≠ 0)
    {T : Int} (hT : T - m.start < 2^63) (evs : List (Int × Int))
    (hin : ∀ ev ∈ evs, -2^63 ≤ ev.1 - m.start ∧ ev.1 ≤ T ∧ m.minP ≤ ev.2 ∧ ev.2 ≤ m.maxP)
    (hsorted : evs.Pairwise (fun a b => a.1 ≤ b.1)) :
    ∃ out, m.run m.records evs (fun _ => none) = .ok out ∧
      ∀ k pid, 0 ≤ k → (m.start + k * m.skip, pid) ∈ evs →
        (k < m.numStores ∧ m.isRolling = false) ∨
          (m.isRolling = true ∧ T < m.start + (k + m.numStores) * m.skip) →
        ∃ i, m.storeIndex (m.start + k * m.skip) pid = .ok i ∧ 0 ≤ i ∧ i < m.records ∧
          out i = some (m.start + k * m.skip, pid) := by
  have hs1 := hu.skip1
  induction evs using List.reverseRecOn with
  | nil => exact ⟨_, rfl, by simp⟩
  | append_singleton l x ih =>
    obtain ⟨out, ho, hk⟩ := ih (fun y hy => hin y (by simp [hy])) (List.pairwise_append.1 hsorted).1
    obtain ⟨x1, x2, x3, x4⟩ := hin x (by simp)
    have hI : I64 (x.1 - m.start) := ⟨x1, by omega⟩
    rw [run_append, ho, Res.ok_bind]
    simp only [Mon.run]
    rcases selected_or_not m x.1 with ⟨kx, hkx, hex, hrx⟩ | hns
    · have hovx : kx * m.skip < 2^63 := by omega
      obtain ⟨i, hi, hi0, hi1⟩ := C22_selected_turn_has_record hu ht hkx hrx hovx ⟨x3, x4⟩
      rw [← hex] at hi
      have htr : m.track x.1 x.2 1 x m.records out =
          .ok (0, 1, fun j => if j = i then some x else out j) := by
        unfold Mon.track
        rw [if_pos ha, hi, Res.ok_bind, if_pos hi0, if_pos hi1]; rfl
      rw [htr, Res.ok_bind]
      refine ⟨_, rfl, ?_⟩
      intro k pid h0 hmem hcond
      by_cases hx : (m.start + k * m.skip, pid) = x
      · subst hx
        exact ⟨i, hi, hi0, hi1, by simp⟩
      · have hmem' : (m.start + k * m.skip, pid) ∈ l := by
          rcases List.mem_append.1 hmem with h | h
          · exact h
          · simp at h; exact absurd h hx
        obtain ⟨j, hj, hj0, hj1, hjo⟩ := hk k pid h0 hmem' hcond
        refine ⟨j, hj, hj0, hj1, ?_⟩
        have hji : j ≠ i := by
          rintro rfl
          obtain ⟨y1, y2, y3, y4⟩ := hin _ hmem
          simp only at y1 y2 y3 y4
          have hrk : k < m.numStores ∨ m.isRolling = true := by
            rcases hcond with h | h
            · exact Or.inl h.1
            · exact Or.inr h.1
          have hle : m.start + k * m.skip ≤ x.1 :=
            (List.pairwise_append.1 hsorted).2.2 _ hmem' x (by simp)
          have hsh := (C22_shared_record hu ht h0 hrk (by omega) ⟨y3, y4⟩ hkx hrx hovx
            ⟨x3, x4⟩).1 (by rw [hj, ← hex, hi])
          have hkk : k ≤ kx := by
            by_contra hc
            have : kx * m.skip < k * m.skip := by
              apply mul_lt_mul_of_pos_right <;> omega
            omega
          have hlt : kx < k + m.numStores := by
            rcases hcond with h | h
            · rcases hrx with h' | h'
              · omega
              · rw [h.2] at h'; simp at h'
            · by_contra hc
              have : (k + m.numStores) * m.skip ≤ kx * m.skip :=
                mul_le_mul_of_nonneg_right (by omega) (by omega)
              omega
          have hd : m.numStores ∣ kx - k := by
            obtain ⟨c, hc⟩ := Int.dvd_of_emod_eq_zero hsh.2
            exact ⟨-c, by rw [Int.mul_neg]; omega⟩
          have hz := Int.eq_zero_of_dvd_of_nonneg_of_lt (by omega) (by omega) hd
          apply hx
          have : kx = k := by omega
          subst this
          rw [Prod.ext_iff]
          exact ⟨hex.symm, hsh.1⟩
        simp only [hji, if_false]
        exact hjo
    · have hneg := C22_other_turns_not_stored (pid := x.2) hu hI hns
      have htr : m.track x.1 x.2 1 x m.records out = .ok (0, 1, out) := by
        unfold Mon.track
        rw [if_pos ha, hneg, Res.ok_bind, if_neg (by omega)]; rfl
      rw [htr, Res.ok_bind]
      refine ⟨_, rfl, ?_⟩
      intro k pid h0 hmem hcond
      rcases List.mem_append.1 hmem with h | h
      · exact hk k pid h0 h hcond
      · simp at h
        exfalso
        have hns' := hns k h0 (by rw [← h])
        rcases hcond with h' | h'
        · omega
        · rw [hns'.2] at h'; simp at h'

/-- 40 turns of particle 3 through the rolling example monitor: turns 7+3*9 = 34 and 37 are among
the last five selected ones. -/
example : ∃ out, (exampleMonitor 1).run 15 ((List.range 40).map fun k : Nat => ((k : Int), 3))
      (fun _ => none) = .ok out ∧
    ∃ i, (exampleMonitor 1).storeIndex (7 + 9 * 3) 3 = .ok i ∧ 0 ≤ i ∧ i < 15 ∧
      out i = some (7 + 9 * 3, 3) := by
  obtain ⟨out, h, hk⟩ := C22_history (T := 39) (exampleMonitor_usable 1) rfl (by decide)
    (by decide) ((List.range 40).map fun k : Nat => ((k : Int), 3)) (by decide) (by decide)
  exact ⟨out, h, hk 9 3 (by decide) (by decide) (by decide)⟩

/-! ## C23: particle-ordered monitors

The code multiplies the particle offset with the number of particles instead of with the number
of stores.  The claim holds if both are equal, or if there is just one particle; otherwise records
collide or lie outside the output. -/

/-- **C23, part**: if the number of stores equals the number of particles (or there is only one
particle), every selected turn has its own record inside the output.  Missing: all other numbers,
for which `C23_violated` shows that the claim fails. -/
theorem C23_particle_ordered_partial {m : Mon} (hu : m.Usable) (ht : m.isTurnOrdered = false)
    (hsq : m.numStores = m.maxP - m.minP + 1 ∨ m.maxP = m.minP)
    {k pid k' pid' : Int} (hk : 0 ≤ k ∧ k < m.numStores) (hov : k * m.skip < 2^63)
    (hp : m.minP ≤ pid ∧ pid ≤ m.maxP) (hk' : 0 ≤ k' ∧ k' < m.numStores)
    (hov' : k' * m.skip < 2^63) (hp' : m.minP ≤ pid' ∧ pid' ≤ m.maxP) :
    (∃ i, m.storeIndex (m.start + k * m.skip) pid = .ok i ∧ 0 ≤ i ∧ i < m.records) ∧
    (m.storeIndex (m.start + k * m.skip) pid = m.storeIndex (m.start + k' * m.skip) pid' →
      pid = pid' ∧ k = k') := by
  have h4 := hu.minmax
  have h6 := hu.cap
  have key : ∀ k pid, 0 ≤ k ∧ k < m.numStores → m.minP ≤ pid ∧ pid ≤ m.maxP →
      0 ≤ (pid - m.minP) * m.np + k ∧ (pid - m.minP) * m.np + k < m.records := by
    intro k pid hk hp
    unfold Mon.records Mon.np
    rcases hsq with h | h
    · have h0 : 0 ≤ (pid - m.minP) * (m.maxP - m.minP + 1) := mul_nonneg (by omega) (by omega)
      have h1 : (pid - m.minP + 1) * (m.maxP - m.minP + 1) ≤
          (m.maxP - m.minP + 1) * (m.maxP - m.minP + 1) :=
        mul_le_mul_of_nonneg_right (by omega) (by omega)
      have h2 : (pid - m.minP + 1) * (m.maxP - m.minP + 1) =
          (pid - m.minP) * (m.maxP - m.minP + 1) + (m.maxP - m.minP + 1) := by ring
      rw [h]
      omega
    · have h0 : pid - m.minP = 0 := by omega
      have h1 : m.maxP - m.minP + 1 = 1 := by omega
      rw [h0, h1]; omega
  have e1 : k % m.numStores = k := Int.emod_eq_of_lt hk.1 hk.2
  have e2 : k' % m.numStores = k' := Int.emod_eq_of_lt hk'.1 hk'.2
  obtain ⟨a1, a2⟩ := key k pid hk hp
  obtain ⟨b1, b2⟩ := key k' pid' hk' hp'
  have hcap : m.records < 2^63 := h6
  rw [storeIndex_selected hu hk.1 (Or.inl hk.2) hov hp (by intro _; rw [e1]; omega),
    storeIndex_selected hu hk'.1 (Or.inl hk'.2) hov' hp' (by intro _; rw [e2]; omega),
    if_neg (by rw [ht]; simp), if_neg (by rw [ht]; simp), e1, e2]
  refine ⟨⟨_, rfl, a1, a2⟩, fun h => ?_⟩
  rw [Res.ok_inj] at h
  rcases hsq with hs | hs
  · have hn : m.numStores = m.np := hs
    obtain ⟨c, d⟩ := row_mod (np := m.np) (p := k) (e := pid - m.minP) (by omega)
    obtain ⟨c', d'⟩ := row_mod (np := m.np) (p := k') (e := pid' - m.minP) (by omega)
    rw [h] at c d
    omega
  · have h0 : pid - m.minP = 0 := by omega
    have h1 : pid' - m.minP = 0 := by omega
    rw [h0, h1] at h
    omega

example : (∃ i, ({ exampleMonitor 0 with numStores := 3, turnOrdered := 0 } : Mon).storeIndex
    (7 + 2 * 3) 4 = .ok i ∧ 0 ≤ i ∧ i < 9) :=
  (C23_particle_ordered_partial (m := { exampleMonitor 0 with numStores := 3, turnOrdered := 0 })
    (k' := 0) (pid' := 2)
    ⟨by decide, by decide, by decide, by decide, by decide, by decide⟩ rfl (by decide) (by decide)
    (by decide) (by decide) (by decide) (by decide) (by decide)).1

/-- In general the claim is false.  With 2 particles and 3 stores the third store of the first
particle and the first store of the second one share a record; with 3 particles and 1 store the
record of the last particle lies outside the output, and storing it makes the particle lost. -/
theorem C23_violated :
    (∃ m : Mon, m.Usable ∧ m.isTurnOrdered = false ∧ ∃ k pid k' pid',
      (0 ≤ k ∧ k < m.numStores) ∧ (m.minP ≤ pid ∧ pid ≤ m.maxP) ∧
      (0 ≤ k' ∧ k' < m.numStores) ∧ (m.minP ≤ pid' ∧ pid' ≤ m.maxP) ∧ (pid, k) ≠ (pid', k') ∧
      m.storeIndex (m.start + k * m.skip) pid = m.storeIndex (m.start + k' * m.skip) pid') ∧
    (∃ m : Mon, m.Usable ∧ m.isTurnOrdered = false ∧ ∃ k pid i,
      (0 ≤ k ∧ k < m.numStores) ∧ (m.minP ≤ pid ∧ pid ≤ m.maxP) ∧
      m.storeIndex (m.start + k * m.skip) pid = .ok i ∧ m.records ≤ i ∧
      ∀ (Rec : Type) (rec : Rec) (out : Int → Option Rec),
        m.track (m.start + k * m.skip) pid 1 rec m.records out = .ok (-1, 0, out)) := by
  constructor
  · refine ⟨⟨3, 0, 1, 4096, 1, 0, 0, 0⟩,
      ⟨by decide, by decide, by decide, by decide, by decide, by decide⟩, rfl,
      2, 0, 0, 1, by decide, by decide, by decide, by decide, by decide, by decide⟩
  · refine ⟨⟨1, 0, 1, 4096, 2, 0, 0, 0⟩,
      ⟨by decide, by decide, by decide, by decide, by decide, by decide⟩, rfl,
      0, 2, 6, by decide, by decide, by decide, by decide, ?_⟩
    intro Rec rec out
    rfl

end SixTrack
