import Verif.Elements
import Verif.Props.TrackEbe
import Verif.Props.TrackParallel
import Verif.Props.MonitorIndex

/-!
# C32, C33, C34 for the elements of the code

The theorems about the tracking loops assume `LossIsMarked` and `OwnRecords`; here it is shown which
lattices of the dispatcher of the code satisfy them.  All theorems hold for any number type `K`.
-/

set_option linter.unusedSectionVars false

namespace SixTrack
open Elem Track

namespace Elem

variable {K : Type} [Zero K] [One K] [Add K] [Sub K] [Mul K] [Div K] [Neg K] [NatCast K]
variable [LT K] [LE K] [DecidableLT K] [DecidableLE K] [RealOps K]

/-- The element is compiled in (or skipped) under this configuration. -/
def NotDisabled (cfg : Config K) : Element K → Prop
  | .field .beamBeam4D _ => cfg.beamBeam4D ≠ .disabled
  | .field .beamBeam6D _ => cfg.beamBeam6D ≠ .disabled
  | .field .scCoasting _ => cfg.spaceCharge ≠ .disabled
  | .field .scQGaussian _ => cfg.spaceCharge ≠ .disabled
  | .triCub _ => cfg.triCub ≠ .disabled
  | .triCubData => cfg.triCub ≠ .disabled
  | _ => True

theorem maskState_alive (b : Prop) [Decidable b] : maskState 1 b = 1 ∨ maskState 1 b = 0 := by
  unfold maskState; split <;> simp

theorem flagged_marks {flag : MapFlag} (h : flag ≠ .disabled) (p : Particle K) (hp : p.state = 1)
    (f : Coord K → Coord K) (hf : (flagged flag p f).status ≠ 0 ∨ (flagged flag p f).state ≠ 1) :
    (flagged flag p f).state = 0 := by
  cases flag with
  | enabled => simp [flagged, moved, hp] at hf
  | skip => simp [flagged, moved, hp] at hf
  | disabled => exact absurd rfl h

theorem drifted_marks (cfg : Config K) (p : Particle K) (hp : p.state = 1) (l : K) (c : Coord K)
    (hf : (drifted cfg p l c).status ≠ 0 ∨ (drifted cfg p l c).state ≠ 1) :
    (drifted cfg p l c).state = 0 := by
  unfold drifted at hf ⊢
  split at hf
  · rename_i hc
    rw [if_pos hc]
    dsimp only at hf ⊢
    rw [hp] at hf ⊢
    rcases maskState_alive (insideGlobal cfg.xLimit cfg.yLimit c) with h | h
    · simp [h] at hf
    · exact h
  · simp [moved, hp] at hf

theorem limited_marks (p : Particle K) (hp : p.state = 1) (b : Prop) [Decidable b]
    (hf : (limited p b).status ≠ 0 ∨ (limited p b).state ≠ 1) : (limited p b).state = 0 := by
  unfold limited at hf ⊢
  dsimp only at hf ⊢
  rw [hp] at hf ⊢
  rcases maskState_alive b with h | h
  · simp [h] at hf
  · exact h

theorem dispatch_marks (cfg : Config K) (e : Element K) (he : NotDisabled cfg e) (p : Particle K)
    (hp : p.state = 1) {o : Track.Outcome (Coord K) (Record K)} (ho : dispatch cfg e p = .ok o)
    (hf : o.status ≠ 0 ∨ o.state ≠ 1) : o.state = 0 := by
  cases e with
  | drift l =>
    simp only [dispatch, Res.ok_inj] at ho
    subst ho
    exact drifted_marks cfg p hp _ _ hf
  | driftExact l =>
    simp only [dispatch, Res.ok_inj] at ho
    subst ho
    exact drifted_marks cfg p hp _ _ hf
  | multipole m => simp only [dispatch, Res.ok_inj] at ho; subst ho; simp [moved, hp] at hf
  | rfMultipole m => simp only [dispatch, Res.ok_inj] at ho; subst ho; simp [moved, hp] at hf
  | cavity m => simp only [dispatch, Res.ok_inj] at ho; subst ho; simp [moved, hp] at hf
  | xyShift a b => simp only [dispatch, Res.ok_inj] at ho; subst ho; simp [moved, hp] at hf
  | sRotation a b => simp only [dispatch, Res.ok_inj] at ho; subst ho; simp [moved, hp] at hf
  | dipEdge a b => simp only [dispatch, Res.ok_inj] at ho; subst ho; simp [moved, hp] at hf
  | monitor m size base =>
    simp only [dispatch] at ho
    split at ho
    · rw [Res.bind_eq_ok] at ho
      obtain ⟨i, -, ho⟩ := ho
      split at ho
      · split at ho
        · simp only [Res.pure_eq, Res.ok_inj] at ho; subst ho; simp [hp] at hf
        · simp only [Res.pure_eq, Res.ok_inj] at ho; subst ho; rfl
      · simp only [Res.pure_eq, Res.ok_inj] at ho; subst ho; simp [moved, hp] at hf
    · simp only [Res.ok_inj] at ho; subst ho; simp [moved, hp] at hf
  | limitRect l => simp only [dispatch, Res.ok_inj] at ho; subst ho; exact limited_marks p hp _ hf
  | limitEllipse l => simp only [dispatch, Res.ok_inj] at ho; subst ho; exact limited_marks p hp _ hf
  | limitRectEllipse l => simp only [dispatch, Res.ok_inj] at ho; subst ho; exact limited_marks p hp _ hf
  | field kind f =>
    cases kind with
    | beamBeam4D => simp only [dispatch, Res.ok_inj] at ho; subst ho; exact flagged_marks he p hp f hf
    | beamBeam6D => simp only [dispatch, Res.ok_inj] at ho; subst ho; exact flagged_marks he p hp f hf
    | scCoasting => simp only [dispatch, Res.ok_inj] at ho; subst ho; exact flagged_marks he p hp f hf
    | scQGaussian => simp only [dispatch, Res.ok_inj] at ho; subst ho; exact flagged_marks he p hp f hf
    | scInterpolated =>
      simp only [dispatch, Res.ok_inj] at ho
      split at ho
      · subst ho; simp [moved, hp] at hf
      · subst ho; rfl
  | triCub f => simp only [dispatch, Res.ok_inj] at ho; subst ho; exact flagged_marks he p hp f hf
  | triCubData =>
    simp only [dispatch, Res.ok_inj] at ho
    rw [if_neg he] at ho
    subst ho; simp [moved, hp] at hf
  | other => simp only [dispatch, Res.ok_inj] at ho; subst ho; rfl

/-- Nothing is assumed to go on after undefined behaviour: the particle is lost and nothing written. -/
def Stops (undef : Element K → Particle K → Track.Outcome (Coord K) (Record K)) : Prop :=
  ∀ e p, (undef e p).state = 0 ∧ (undef e p).write = none

end Elem

section
variable {K : Type} [Zero K] [One K] [Add K] [Sub K] [Mul K] [Div K] [Neg K] [NatCast K]
variable [LT K] [LE K] [DecidableLT K] [DecidableLE K] [RealOps K]

/-- Every lattice without disabled elements satisfies the assumption of C32 and C33. -/
theorem C32_elements_mark_loss (cfg : Config K)
    (undef : Element K → Particle K → Track.Outcome (Coord K) (Record K)) (hu : Stops undef)
    (lat : List (Element K)) (h : ∀ e ∈ lat, NotDisabled cfg e) : LossIsMarked (sem cfg undef) lat := by
  intro e he p hp hf
  simp only [sem] at hf ⊢
  cases ho : dispatch cfg e p with
  | ok o =>
    rw [ho] at hf
    exact dispatch_marks cfg e (h e he) p hp ho hf
  | ub => exact (hu e p).1

/-- A lattice without disabled elements, tracked in pieces or in one go. -/
theorem C32_lattice_in_pieces (cfg : Config K)
    (undef : Element K → Particle K → Track.Outcome (Coord K) (Record K)) (hu : Stops undef)
    (pieces : List (List (Element K))) (hne : pieces.flatten ≠ [])
    (h : ∀ e ∈ pieces.flatten, NotDisabled cfg e) (w : World (Coord K) (Record K))
    (h0 : w.part.atElement = 0) :
    trackPieces (sem cfg undef) pieces w =
      (trackUntil (sem cfg undef) pieces.flatten (w.part.atTurn + 1) w).2 := by
  have hS := C32_elements_mark_loss cfg undef hu pieces.flatten h
  rw [C32_pieces_partial _ pieces hS (by rintro rfl; simp at hne),
    C32_line_is_turn_partial _ _ hS hne w h0]

/-- With a disabled `TriCubData` object in the lattice this is false. -/
theorem C32_disabled_element_violated (cfg : Config K) (hc : cfg.triCub = .disabled)
    (undef : Element K → Particle K → Track.Outcome (Coord K) (Record K)) (c : Coord K) :
    ∃ (pieces : List (List (Element K))) (w : World (Coord K) (Record K)), w.part.atElement = 0 ∧
      trackPieces (sem cfg undef) pieces w ≠
        (trackUntil (sem cfg undef) pieces.flatten (w.part.atTurn + 1) w).2 := by
  refine ⟨[[.triCubData], [.dipEdge 0 0]], ⟨⟨c, 0, 0, 0, 1⟩, fun _ => ⟨c, 0, 0, 0, 1⟩⟩, rfl, ?_⟩
  intro h
  have h1 := congrArg (fun w => w.part.state) h
  rw [show [[Element.triCubData], [.dipEdge (0 : K) 0]].flatten = [.triCubData, .dipEdge 0 0] from rfl,
    trackUntil_run (by simp) (by simp) (by simp [Part.notLost]) 0, untilLoop] at h1
  simp [trackPieces, trackLine, lineLoop, turnElems, Sem.run, sem, dispatch, hc, refused, moved, applyPart,
    Part.notLost, World.map, Part.incElem, Sem.endTurn, Part.markLost] at h1

namespace Elem

/-- Where a monitor stores a particle, read backwards. -/
theorem storeIndex_inv {m : Monitor.Mon} (hu : m.Usable) {turn pid i : Int}
    (h : m.storeIndex turn pid = .ok i) (hi : 0 ≤ i) :
    ∃ idx, 0 ≤ idx ∧ idx < m.numStores ∧
      i = if m.isTurnOrdered then m.np * idx + (pid - m.minP) else (pid - m.minP) * m.np + idx := by
  have i64_inv : ∀ {a b : Int}, i64 a = .ok b → b = a := by
    intro a b hab
    unfold i64 at hab
    split at hab
    · simpa using hab.symm
    · cases hab
  unfold Monitor.Mon.storeIndex at h
  rw [Res.bind_eq_ok] at h
  obtain ⟨since, hs, h⟩ := h
  split at h
  · simp at h; omega
  rename_i hs0
  rw [Res.bind_eq_ok] at h
  obtain ⟨r, hr, h⟩ := h
  split at h
  · simp at h; omega
  rw [Res.bind_eq_ok] at h
  obtain ⟨idx0, hidx0, h⟩ := h
  rw [Res.bind_eq_ok] at h
  obtain ⟨idx, hidx, h⟩ := h
  split at h
  swap
  · simp at h; omega
  rename_i hlt
  have hu1 := hu.skip1
  have hu2 := hu.stores1
  have h0 : 0 ≤ idx0 := by
    unfold divI at hidx0
    rw [if_neg (by omega)] at hidx0
    rw [i64_inv hidx0]
    rw [Int.tdiv_eq_ediv_of_nonneg (by omega)]
    exact Int.ediv_nonneg (by omega) (by omega)
  have h1 : 0 ≤ idx := by
    split at hidx
    · unfold modI at hidx
      rw [if_neg (by omega)] at hidx
      split at hidx
      · simp only [Res.ok_inj] at hidx
        rw [← hidx, Int.tmod_eq_emod_of_nonneg h0]
        exact Int.emod_nonneg _ (by omega)
      · cases hidx
    · simp only [Res.pure_eq, Res.ok_inj] at hidx
      omega
  rw [Res.bind_eq_ok] at h
  obtain ⟨off, hoff, h⟩ := h
  rw [Res.bind_eq_ok] at h
  obtain ⟨d, hd, h⟩ := h
  rw [Res.bind_eq_ok] at h
  obtain ⟨np, hnp, h⟩ := h
  have e1 := i64_inv hoff
  have e2 := i64_inv hd
  have e3 := i64_inv hnp
  have e4 : np = m.np := by unfold Monitor.Mon.np; omega
  refine ⟨idx, h1, hlt, ?_⟩
  split at h
  · rename_i hto
    rw [Res.bind_eq_ok] at h
    obtain ⟨a, ha, h⟩ := h
    rw [if_pos hto, i64_inv h, i64_inv ha, e4, e1]
  · rename_i hto
    rw [Res.bind_eq_ok] at h
    obtain ⟨a, ha, h⟩ := h
    rw [if_neg hto, i64_inv h, i64_inv ha, e4, e1]

/-- The id of the particles that have record `i` of the output of a monitor. -/
def monOwner (m : Monitor.Mon) (i : Int) : Int :=
  if m.isTurnOrdered then m.minP + i % m.np else m.minP + i / m.np

theorem storeIndex_owner {m : Monitor.Mon} (hu : m.Usable)
    (hst : m.isTurnOrdered = false → m.numStores ≤ m.np) {turn pid i : Int}
    (hp : m.minP ≤ pid ∧ pid ≤ m.maxP) (h : m.storeIndex turn pid = .ok i) (hi : 0 ≤ i) :
    monOwner m i = pid := by
  obtain ⟨idx, h0, h1, h2⟩ := storeIndex_inv hu h hi
  have hoff : 0 ≤ pid - m.minP ∧ pid - m.minP < m.np := by unfold Monitor.Mon.np; omega
  unfold monOwner
  by_cases ht : m.isTurnOrdered = true
  · rw [if_pos ht] at h2 ⊢
    rw [h2, mul_comm m.np, (EBE.row_mod hoff).1]
    omega
  · rw [if_neg ht] at h2 ⊢
    have := hst (by simpa using ht)
    rw [h2, (EBE.row_mod (np := m.np) (p := idx) (e := pid - m.minP) ⟨h0, by omega⟩).2]
    omega

/-- What is assumed of the monitors of a lattice for parallel tracking of particles with ids between `a`
and `b`: they are usable, made for these ids, their output objects do not overlap, and monitors ordered by
particle have no more stores than particles (see `C23_violated`). -/
structure MonitorsApart (lat : List (Element K)) (a b : Int) : Prop where
  usable : ∀ m size base, Element.monitor m size base ∈ lat → m.Usable
  ids : ∀ m size base, Element.monitor m size base ∈ lat → m.minP ≤ a ∧ b ≤ m.maxP
  ordered : ∀ m size base, Element.monitor m size base ∈ lat → m.isTurnOrdered = false → m.numStores ≤ m.np
  apart : ∀ m size base m' size' base', Element.monitor m size base ∈ lat →
    Element.monitor m' size' base' ∈ lat → ∀ j : Nat, (base ≤ j ∧ (j : Int) < base + size) →
    (base' ≤ j ∧ (j : Int) < base' + size') → m = m' ∧ base = base'

/-- Only monitors write, inside their output object, where `storeIndex` says. -/
theorem dispatch_write (cfg : Config K) (e : Element K) (p : Particle K)
    {o : Track.Outcome (Coord K) (Record K)} (ho : dispatch cfg e p = .ok o) {j : Nat} {r : Record K}
    (hw : o.write = some (j, r)) :
    ∃ m size base i, e = .monitor m size base ∧ m.storeIndex p.atTurn p.id = .ok i ∧ 0 ≤ i ∧ i < size ∧
      j = base + i.toNat := by
  cases e with
  | monitor m size base =>
    simp only [dispatch] at ho
    split at ho
    · rw [Res.bind_eq_ok] at ho
      obtain ⟨i, h1, ho⟩ := ho
      split at ho
      · split at ho
        · rename_i h2 h3
          simp only [Res.pure_eq, Res.ok_inj] at ho
          subst ho
          simp only [Option.some.injEq, Prod.mk.injEq] at hw
          exact ⟨m, size, base, i, rfl, h1, h2, h3, hw.1.symm⟩
        · simp only [Res.pure_eq, Res.ok_inj] at ho; subst ho; simp at hw
      · simp only [Res.pure_eq, Res.ok_inj] at ho; subst ho; simp [moved] at hw
    · simp only [Res.ok_inj] at ho; subst ho; simp [moved] at hw
  | drift l =>
    simp only [dispatch, Res.ok_inj, drifted] at ho
    split at ho <;> (subst ho; simp [moved] at hw)
  | driftExact l =>
    simp only [dispatch, Res.ok_inj, drifted] at ho
    split at ho <;> (subst ho; simp [moved] at hw)
  | field kind f =>
    cases kind with
    | beamBeam4D =>
      simp only [dispatch, Res.ok_inj, flagged] at ho
      split at ho <;> (subst ho; simp [moved, refused] at hw)
    | beamBeam6D =>
      simp only [dispatch, Res.ok_inj, flagged] at ho
      split at ho <;> (subst ho; simp [moved, refused] at hw)
    | scCoasting =>
      simp only [dispatch, Res.ok_inj, flagged] at ho
      split at ho <;> (subst ho; simp [moved, refused] at hw)
    | scQGaussian =>
      simp only [dispatch, Res.ok_inj, flagged] at ho
      split at ho <;> (subst ho; simp [moved, refused] at hw)
    | scInterpolated =>
      simp only [dispatch, Res.ok_inj] at ho
      split at ho <;> (subst ho; simp [moved, rejected] at hw)
  | triCub f =>
    simp only [dispatch, Res.ok_inj, flagged] at ho
    split at ho <;> (subst ho; simp [moved, refused] at hw)
  | triCubData =>
    simp only [dispatch, Res.ok_inj] at ho
    split at ho <;> (subst ho; simp [moved, refused] at hw)
  | _ =>
    simp only [dispatch, Res.ok_inj] at ho
    subst ho
    simp [moved, limited, rejected] at hw

end Elem

/-- The monitors of such a lattice write records of different particles to different places, as C34
assumes. -/
theorem C34_elements_own_records (cfg : Config K)
    (undef : Element K → Particle K → Track.Outcome (Coord K) (Record K)) (hu : Stops undef)
    (lat : List (Element K)) {a b : Int} (h : MonitorsApart lat a b) :
    OwnRecords (sem cfg undef) lat (fun id => a ≤ id ∧ id ≤ b) := by
  classical
  refine ⟨fun j => if hj : ∃ q : Monitor.Mon × Int × Nat, Element.monitor q.1 q.2.1 q.2.2 ∈ lat ∧
      q.2.2 ≤ j ∧ (j : Int) < q.2.2 + q.2.1
    then monOwner hj.choose.1 (j - hj.choose.2.2) else 0, ?_⟩
  intro e he p hp j r hw
  simp only [sem] at hw
  cases ho : dispatch cfg e p with
  | ub =>
    rw [ho] at hw
    rw [(hu e p).2] at hw
    cases hw
  | ok o =>
    rw [ho] at hw
    obtain ⟨m, size, base, i, rfl, h1, h2, h3, rfl⟩ := dispatch_write cfg e p ho hw
    have hj : ∃ q : Monitor.Mon × Int × Nat, Element.monitor q.1 q.2.1 q.2.2 ∈ lat ∧
        q.2.2 ≤ base + i.toNat ∧ ((base + i.toNat : Nat) : Int) < q.2.2 + q.2.1 :=
      ⟨(m, size, base), he, by dsimp only; omega, by dsimp only; omega⟩
    beta_reduce; rw [dif_pos hj]
    obtain ⟨c1, c2⟩ := hj.choose_spec
    obtain ⟨d1, d2⟩ := h.apart _ _ _ _ _ _ he c1 (base + i.toNat) ⟨by omega, by omega⟩ c2
    rw [← d1, ← d2]
    have hb := h.ids m size base he
    have := storeIndex_owner (h.usable m size base he) (h.ordered m size base he)
      (pid := p.id) ⟨by omega, by omega⟩ h1 h2
    rw [← this]
    congr 1
    omega

/-- Parallel tracking through a lattice of the code: particles and monitor output are those of sequential
tracking, whatever the schedule. -/
theorem C34_lattice (cfg : Config K)
    (undef : Element K → Particle K → Track.Outcome (Coord K) (Record K)) (hu : Stops undef)
    (lat : List (Element K)) {a b : Int} (h : MonitorsApart lat a b) (untilTurn : Int) (num items : Nat)
    (hk : 0 < items) (m : Mem (Coord K) (Record K)) (hid : DistinctIds num m)
    (hI : ∀ i < num, a ≤ (m.parts i).id ∧ (m.parts i).id ≤ b) (sched : List Nat)
    (hs : ∀ w ∈ sched, w < items)
    (hdone : AllDone num items (runSchedule (sem cfg undef) lat untilTurn num items sched (startAll m))) :
    (runSchedule (sem cfg undef) lat untilTurn num items sched (startAll m)).mem =
      trackAll (sem cfg undef) lat untilTurn num m := by
  have e1 := C34_any_schedule (sem cfg undef) lat untilTurn num items hk m sched hs hdone
  have e2 := C34_any_schedule_output (sem cfg undef) lat (C34_elements_own_records cfg undef hu lat h)
    untilTurn num items hk m hid hI sched hs hdone
  generalize (runSchedule (sem cfg undef) lat untilTurn num items sched (startAll m)).mem = x at *
  generalize trackAll (sem cfg undef) lat untilTurn num m = y at *
  obtain ⟨x1, x2⟩ := x
  obtain ⟨y1, y2⟩ := y
  dsimp only at e1 e2
  rw [e1, e2]

/-- Two monitors with adjacent output objects, and a drift. -/
example : MonitorsApart (K := K) [.monitor (exampleMonitor 1) 15 0, .dipEdge 0 0,
    .monitor (exampleMonitor 0) 15 15] 2 4 := by
  have key : ∀ m size base, Element.monitor (K := K) m size base ∈
      [.monitor (exampleMonitor 1) 15 0, .dipEdge 0 0, .monitor (exampleMonitor 0) 15 15] →
      (m = exampleMonitor 1 ∧ size = 15 ∧ base = 0) ∨ (m = exampleMonitor 0 ∧ size = 15 ∧ base = 15) := by
    intro m size base h
    simpa using h
  constructor
  · intro m size base h
    rcases key m size base h with ⟨rfl, -⟩ | ⟨rfl, -⟩ <;> exact exampleMonitor_usable _
  · intro m size base h
    rcases key m size base h with ⟨rfl, -⟩ | ⟨rfl, -⟩ <;> decide
  · intro m size base h
    rcases key m size base h with ⟨rfl, -⟩ | ⟨rfl, -⟩ <;> decide
  · intro m size base m' size' base' h h' j hj hj'
    rcases key m size base h with ⟨rfl, rfl, rfl⟩ | ⟨rfl, rfl, rfl⟩ <;>
      rcases key m' size' base' h' with ⟨rfl, rfl, rfl⟩ | ⟨rfl, rfl, rfl⟩
    · exact ⟨rfl, rfl⟩
    · omega
    · omega
    · exact ⟨rfl, rfl⟩

end
end SixTrack
