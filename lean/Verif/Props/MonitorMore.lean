import Verif.Props.MonitorOutput
import Mathlib.Data.List.Range

/-!
# More on properties C22, C24 and C26
-/

namespace SixTrack
open Monitor

/-- **C22 (outcome)**: what tracking through a monitor does in all cases.  The particle is marked as lost
exactly if the record lies behind the end of the output; then nothing is written. -/
theorem C22_track_outcome {Rec : Type} (m : Mon) (turn pid state size i : Int) (rec : Rec)
    (out : Int → Option Rec) (hi : m.storeIndex turn pid = .ok i) :
    m.track turn pid state rec size out =
      .ok (if m.outAddr = 0 ∨ i < 0 then (0, state, out)
        else if i < size then (0, state, fun j => if j = i then some rec else out j)
        else (-1, 0, out)) := by
  unfold Mon.track
  by_cases ha : m.outAddr = 0
  · rw [if_neg (by simpa using ha), if_pos (Or.inl ha)]; rfl
  · rw [if_pos ha, hi, Res.ok_bind]
    by_cases h0 : 0 ≤ i
    · rw [if_pos h0, if_neg (fun h : m.outAddr = 0 ∨ i < 0 => by omega)]
      split <;> rfl
    · rw [if_neg h0, if_pos (Or.inr (by omega))]; rfl

example : (⟨2, 0, 1, 1000, 1, 0, 0, 1⟩ : Mon).storeIndex 1 1 = .ok 3 := by decide

private theorem prepareLoop_addr (minP maxP t : Int) (fresh : Nat → Nat) (es : List Elem) (k : Nat) :
    (prepareLoop minP maxP t fresh es k).2.map (·.addr) =
      (List.range' k (prepareLoop minP maxP t fresh es k).2.length).map fresh := by
  induction es generalizing k with
  | nil => rfl
  | cons e es ih =>
    cases e with
    | other => simp only [prepareLoop]; exact ih k
    | monitor m =>
      simp only [prepareLoop]
      split
      · simp only [List.map_cons, List.length_cons, List.range'_succ]
        rw [ih (k + 1)]
      · exact ih k

/-- **C24 (prepared output)**: if new objects get addresses different from each other and from those of
the objects already in the buffer, the output objects of a prepared buffer have different addresses;
this is what `C24_exclusive` needs. -/
theorem C24_prepared_addresses {es es' : List Elem} {outs outs' : List OutObj}
    {minP maxP minTurn : Int} {fresh : Nat → Nat} {offset : Nat}
    (h : prepareDetailed es outs minP maxP minTurn fresh = (SUCCESS, es', outs', offset))
    (hold : (outs.map (·.addr)).Nodup) (hinj : Function.Injective fresh)
    (hnew : ∀ o ∈ outs, ∀ k, fresh k ≠ o.addr) : (outs'.map (·.addr)).Nodup := by
  unfold prepareDetailed at h
  split at h
  · simp [SUCCESS, FAILURE] at h
  · simp only [Prod.mk.injEq, true_and] at h
    obtain ⟨rfl, rfl, rfl⟩ := h
    rw [List.map_append, prepareLoop_addr]
    rw [List.nodup_append]
    refine ⟨hold, (List.nodup_range').map hinj, ?_⟩
    intro a ha b hb hab
    obtain ⟨o, ho, rfl⟩ := List.mem_map.1 ha
    obtain ⟨k, -, rfl⟩ := List.mem_map.1 hb
    exact hnew o ho k hab.symm

example : (([⟨1000, some 40⟩] : List OutObj).map (·.addr)).Nodup ∧
    Function.Injective (5000 + · : Nat → Nat) ∧
    ∀ o ∈ ([⟨1000, some 40⟩] : List OutObj), ∀ k, 5000 + k ≠ o.addr := by
  refine ⟨by decide, fun a b h => by simpa using h, ?_⟩
  intro o ho k
  simp at ho
  subst ho
  simp only
  omega

private theorem count_later (d s : Int) (hd : 0 ≤ d) (hs : 1 ≤ s) (n : Nat) :
    (((List.range n).filter fun k : Nat => decide (d < (k : Int) * s)).length : Int) =
      if d / s + 1 < n then n - (d / s + 1) else 0 := by
  have h0 : 0 ≤ d / s := Int.ediv_nonneg hd (by omega)
  have hle : ∀ k : Int, d < k * s ↔ d / s < k := by
    intro k
    constructor
    · intro h
      by_contra hc
      have h1 : k ≤ d / s := by omega
      have h2 := mul_le_mul_of_nonneg_right h1 (show 0 ≤ s by omega)
      have h3 := Int.ediv_mul_le d (show s ≠ 0 by omega)
      omega
    · intro h
      have h2 := mul_le_mul_of_nonneg_right (show d / s + 1 ≤ k by omega) (show 0 ≤ s by omega)
      have h3 := Int.lt_ediv_add_one_mul_self d (show 0 < s by omega)
      omega
  induction n with
  | zero => simp; omega
  | succ n ih =>
    rw [List.range_succ, List.filter_append, List.length_append]
    push_cast
    rw [ih]
    by_cases hn : d < (n : Int) * s
    · have := (hle n).1 hn
      rw [List.filter_cons_of_pos (by simpa using hn)]
      simp only [List.filter_nil, List.length_cons, List.length_nil]
      split <;> split <;> omega
    · have h2 : ¬ d / s < n := fun h => hn ((hle n).2 h)
      rw [List.filter_cons_of_neg (by simpa using hn)]
      simp only [List.filter_nil, List.length_nil]
      split <;> split <;> omega

/-- **C26 (started monitors), part**: for a monitor that is not rolling and starts before the first turn,
the predicted number of records is that of the selected turns *after* the first turn.  Missing: a record
for the first turn itself (`C26_first_turn_violated`). -/
theorem C26_started_monitor_partial {m : Mon} {np firstTurn : Int} (hr : m.isRolling = false)
    (hs : m.start < firstTurn) (hskip : 1 ≤ m.skip) (hnp : 0 ≤ np) (hn : 0 ≤ m.numStores)
    (hcap : np * m.numStores < 2^64) :
    (requiredParticles m np firstTurn : Int) = np *
      ((List.range m.numStores.toNat).filter fun k : Nat =>
        decide (firstTurn < m.start + (k : Int) * m.skip)).length := by
  have hfil : ((List.range m.numStores.toNat).filter fun k : Nat =>
        decide (firstTurn < m.start + (k : Int) * m.skip)) =
      ((List.range m.numStores.toNat).filter fun k : Nat =>
        decide (firstTurn - m.start < (k : Int) * m.skip)) := by
    congr 1
    funext k
    congr 1
    apply propext
    omega
  rw [hfil, count_later _ _ (by omega) hskip, Int.toNat_of_nonneg hn]
  unfold requiredParticles
  rw [if_neg (by rw [hr]; simp; exact hs), if_pos ⟨hs, hskip⟩]
  dsimp only
  rw [Int.tdiv_eq_ediv_of_nonneg (by omega)]
  have h0 : 0 ≤ (firstTurn - m.start) / m.skip := Int.ediv_nonneg (by omega) (by omega)
  by_cases hc : (firstTurn - m.start) / m.skip + 1 < m.numStores
  · rw [if_pos (by omega), if_pos hc]
    unfold mulU64
    have e : m.numStores - (1 + (firstTurn - m.start) / m.skip) =
        m.numStores - ((firstTurn - m.start) / m.skip + 1) := by omega
    rw [e]
    have h1 : 0 ≤ np * (m.numStores - ((firstTurn - m.start) / m.skip + 1)) :=
      mul_nonneg hnp (by omega)
    have h2 := mul_le_mul_of_nonneg_left
      (show m.numStores - ((firstTurn - m.start) / m.skip + 1) ≤ m.numStores by omega) hnp
    rw [Int.emod_eq_of_lt h1 (by omega), Int.toNat_of_nonneg h1]
  · rw [if_neg (by omega), if_neg hc]
    simp

example : (⟨20, 0, 3, 0, 1, 0, 0, 1⟩ : Mon).isRolling = false ∧
    requiredParticles ⟨20, 0, 3, 0, 1, 0, 0, 1⟩ 2 7 = 34 := by decide

/-- The first turn is selected (turn 5 of a monitor storing every turn from 0) but no record is predicted
for it: 15 turns are still to be stored, 14 are counted. -/
theorem C26_first_turn_violated :
    ∃ (m : Mon), m.isRolling = false ∧ (∃ i, m.storeIndex 5 0 = .ok i ∧ 0 ≤ i) ∧
      (requiredParticles m 1 5 : Int) <
        1 * ((List.range m.numStores.toNat).filter fun k : Nat =>
          decide (5 ≤ m.start + (k : Int) * m.skip)).length :=
  ⟨⟨20, 0, 1, 0, 0, 0, 0, 1⟩, rfl, ⟨5, by decide, by decide⟩, by decide⟩

end SixTrack
