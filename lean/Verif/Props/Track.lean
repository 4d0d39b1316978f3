import Verif.Track
import Verif.Props.ElemByElem

/-!
# Properties C30, C31, C32 and C33: tracking loops

All theorems hold for every set of beam elements `S : Sem E C R`.
-/

namespace SixTrack

open Track EBE

variable {E C R : Type}

/-! ### Helper facts about the loops -/

namespace Track

theorem turnElems_cont {S : Sem E C R} {es : List E} {s : Int} {w : World C R}
    (h : (turnElems S es s w).2.1 = true) (hw : w.part.notLost) :
    (turnElems S es s w).2.2.part.notLost := by
  induction es generalizing s w with
  | nil => exact hw
  | cons e es ih =>
    simp only [turnElems] at h ⊢
    split at h
    · rename_i hc
      rw [if_pos hc]
      exact ih h hc.2
    · cases h

/-- The status the inner loop starts from does not matter to the world. -/
theorem turnElems_s (S : Sem E C R) (es : List E) (s s' : Int) (w : World C R) :
    (turnElems S es s w).2 = (turnElems S es s' w).2 := by
  cases es <;> rfl

theorem untilLoop_s (S : Sem E C R) (lat : List E) (start untilTurn s s' : Int) (w : World C R) :
    (untilLoop S lat start untilTurn s w).2 = (untilLoop S lat start untilTurn s' w).2 := by
  induction h : (untilTurn - w.part.atTurn).toNat using Nat.strongRecOn generalizing s s' w with
  | _ n ih =>
    subst h
    rw [untilLoop, untilLoop]
    have e := turnElems_s S lat s s' w
    have e1 : (turnElems S lat s w).2.1 = (turnElems S lat s' w).2.1 := by rw [e]
    have e2 : (turnElems S lat s w).2.2 = (turnElems S lat s' w).2.2 := by rw [e]
    dsimp only
    rw [e1, e2]
    split
    · split
      · rename_i hlt
        refine ih _ ?_ _ _ _ rfl
        have h2 : (turnElems S lat s' w).2.2.part.atTurn = w.part.atTurn := turnElems_atTurn S lat s' w
        have h3 : ((turnElems S lat s' w).2.2.map (S.endTurn start)).part.atTurn =
          (turnElems S lat s' w).2.2.part.atTurn + 1 := rfl
        omega
      · rfl
    · rfl

theorem trackUntil_lost {S : Sem E C R} {lat : List E} {n : Int} {w : World C R}
    (h : ¬ w.part.notLost) : (trackUntil S lat n w).2 = w := by
  unfold trackUntil
  dsimp only
  rw [if_neg (fun h' => h h'.2.2)]

theorem trackUntil_done {S : Sem E C R} {lat : List E} {n : Int} {w : World C R}
    (h : n ≤ w.part.atTurn) : (trackUntil S lat n w).2 = w := by
  unfold trackUntil
  dsimp only
  rw [if_neg (fun h' => by have := h'.2.1; omega)]

theorem trackUntil_run {S : Sem E C R} {lat : List E} {n : Int} {w : World C R}
    (hl : lat ≠ []) (h : w.part.atTurn < n) (ha : w.part.notLost) (s : Int) :
    (trackUntil S lat n w).2 = (untilLoop S lat w.part.atElement n s w).2 := by
  unfold trackUntil
  dsimp only
  rw [if_neg hl, if_pos ⟨rfl, by omega, ha⟩]
  exact untilLoop_s _ _ _ _ _ _ _

end Track

/-! ### C30 -/

/-- Tracking until turn `A` and then until turn `B` gives the same particle (and the same monitor
output) as tracking until turn `B` directly: for all elements, lattices, particles and `A ≤ B`. -/
theorem C30_interrupt_resume (S : Sem E C R) (lat : List E) (A B : Int) (hAB : A ≤ B)
    (w : World C R) :
    (trackUntil S lat B (trackUntil S lat A w).2).2 = (trackUntil S lat B w).2 := by
  by_cases hl : lat = []
  · subst hl
    have h : ∀ n (v : World C R), (trackUntil S [] n v).2 = v := by
      intro n v; simp [trackUntil]
    rw [h A w]
  by_cases ha : w.part.notLost
  swap
  · rw [trackUntil_lost ha, trackUntil_lost ha]
  by_cases hA : A ≤ w.part.atTurn
  · rw [trackUntil_done (n := A) hA]
  rw [trackUntil_run (n := A) hl (by omega) ha 0, trackUntil_run (n := B) hl (by omega) ha 0]
  generalize hst : w.part.atElement = start
  have key : ∀ (n : Nat) (w : World C R), (A - w.part.atTurn).toNat = n → w.part.atTurn < A →
      w.part.notLost → (trackUntil S lat B (untilLoop S lat start A 0 w).2).2 =
        (untilLoop S lat start B 0 w).2 := by
    intro n
    induction n using Nat.strongRecOn with
    | _ n ih =>
      intro w hn hlt hal
      subst hn
      rw [untilLoop, untilLoop]
      dsimp only
      have ht : (turnElems S lat 0 w).2.2.part.atTurn = w.part.atTurn := turnElems_atTurn S lat 0 w
      by_cases hc : (turnElems S lat 0 w).2.1 = true
      · rw [if_pos hc, if_pos hc]
        have hal' := turnElems_cont hc hal
        generalize hv : ((turnElems S lat 0 w).2.2.map (S.endTurn start)) = v
        have hvt : v.part.atTurn = w.part.atTurn + 1 := by rw [← hv, ← ht]; rfl
        have hve : v.part.atElement = start := by rw [← hv]; rfl
        have hva : v.part.notLost := by rw [← hv]; exact hal'
        by_cases h1 : v.part.atTurn < A
        · rw [if_pos h1, if_pos (by omega), untilLoop_s S lat start A _ 0, untilLoop_s S lat start B _ 0]
          exact ih _ (by omega) v rfl h1 hva
        · rw [if_neg h1]
          dsimp only
          by_cases h2 : v.part.atTurn < B
          · rw [if_pos h2, trackUntil_run hl h2 hva 0, hve]
            exact untilLoop_s _ _ _ _ _ _ _
          · rw [if_neg h2, trackUntil_done (by omega)]
      · rw [if_neg hc, if_neg hc]
        rw [trackUntil_lost]
        simp [World.map, Part.markLost, Part.notLost]
  exact key _ w rfl (by omega) ha

/-- A toy semantics for the non-vacuity examples: elements add a number to the coordinate, and lose the
particle above 10. -/
def toy : Sem Int Int Int where
  dispatch e p := ⟨0, p.coord + e, if p.coord + e ≤ 10 then p.state else 0, some (p.id.toNat, p.coord)⟩
  zeroS c := c

def toyWorld : World Int Int := ⟨⟨1, 0, 0, 0, 1⟩, fun _ => 0⟩

example : (trackUntil toy [2, -1] 3 toyWorld).2.part = ⟨4, 0, 0, 3, 1⟩ := by
  simp +decide [trackUntil, untilLoop, turnElems, toy, toyWorld, Sem.run, applyPart, World.map,
    Part.incElem, Sem.endTurn]

/-! ### C31 -/

/-- A tracking call. -/
inductive TrackCall (E : Type) where
  | untilTurn (lat : List E) (n : Int)
  | line (elems : List E) (finish : Bool)
  | element (e : E)

/-- Effect of a tracking call. -/
def TrackCall.exec (S : Sem E C R) (w : World C R) : TrackCall E → World C R
  | .untilTurn lat n => (trackUntil S lat n w).2
  | .line l f => (trackLine S l f w).2
  | .element e => (trackObj S e w).2

/-- A lost particle stays lost and frozen: after any sequence of calls that track until a turn, along a
line or through an element, the particle and the monitor output are unchanged. -/
theorem C31_lost_is_frozen (S : Sem E C R) (w : World C R) (h : ¬ w.part.notLost)
    (calls : List (TrackCall E)) : calls.foldl (TrackCall.exec S) w = w := by
  induction calls with
  | nil => rfl
  | cons c cs ih =>
    rw [List.foldl_cons]
    have : TrackCall.exec S w c = w := by
      cases c with
      | untilTurn lat n => exact trackUntil_lost h
      | line l f =>
        unfold TrackCall.exec trackLine
        dsimp only
        rw [if_neg h, if_neg (fun h' => h h'.2.2)]
      | element e =>
        simp only [TrackCall.exec, trackObj]
        rw [if_neg h]
    rw [this]
    exact ih

example : ¬ (⟨⟨11, 0, 1, 0, 0⟩, fun _ => 0⟩ : World Int Int).part.notLost := by decide

/-- A configuration storing one particle, one element and one turn. -/
def tinyCfg : Cfg :=
  { order := 0, numP := 1, numE := 1, numT := 1, minP := 0, minE := 0, minT := 0, maxP := 0,
    maxE := 0, maxT := 0, rolling := 0, outAddr := 1 }

/-- Element-by-element tracking does move a lost particle: it never looks at the state before the first
element. -/
theorem C31_element_by_element_violated :
    ∃ (v v' : EWorld Int Int) (s : Int), ¬ v.w.part.notLost ∧
      trackEbe toy tinyCfg 1 [2] 1 v = .ok (s, v') ∧ v'.w.part.coord ≠ v.w.part.coord := by
  refine ⟨⟨⟨⟨1, 0, 0, 0, 0⟩, fun _ => 0⟩, fun _ => ⟨0, 0, 0, 0, 0⟩⟩, _, _, by decide, rfl, by decide⟩

/-- A lost particle that has reached the target turn is not touched by element-by-element tracking
either. -/
theorem C31_element_by_element_partial (S : Sem E C R) (cfg : Cfg) (nn : Int) (lat : List E) (n : Int)
    (v : EWorld C R) (h : n ≤ v.w.part.atTurn) : trackEbe S cfg nn lat n v = .ok (0, v) := by
  unfold trackEbe
  dsimp only
  rw [if_neg (fun h' => by have := h'.2.1; omega)]

example : (3 : Int) ≤ (⟨⟨⟨1, 0, 0, 3, 0⟩, fun _ => 0⟩, fun _ => ⟨0, 0, 0, 0, 0⟩⟩ :
    EWorld Int Int).w.part.atTurn := by decide

/-! ### C32 -/

/-- The elements of the lattice that report a failure, or leave an alive particle in another state than
alive, mark it as lost.  (All element maps of the code do, except the dispatcher's branch for `TriCubData`
objects and the branches of disabled elements, which return a failure and leave the particle alive: see
`C32_elements_mark_loss` for the dispatcher of the code.) -/
def LossIsMarked (S : Sem E C R) (lat : List E) : Prop :=
  ∀ e ∈ lat, ∀ p : Part C, p.notLost →
    (S.dispatch e p).status ≠ 0 ∨ (S.dispatch e p).state ≠ 1 → (S.dispatch e p).state = 0

theorem LossIsMarked.mono {S : Sem E C R} {l l' : List E} (h : LossIsMarked S l) (hs : ∀ e ∈ l', e ∈ l) :
    LossIsMarked S l' := fun e he => h e (hs e he)

theorem toy_lossIsMarked (lat : List Int) : LossIsMarked toy lat := by
  intro e _ p hp
  unfold Part.notLost at hp
  simp only [toy]
  split <;> simp_all

namespace Track

theorem lineLoop_append (S : Sem E C R) (xs ys : List E) (hS : LossIsMarked S xs) (w : World C R)
    (hw : w.part.notLost) :
    (lineLoop S (xs ++ ys) 0 w).2 =
      (if (lineLoop S xs 0 w).2.part.notLost then lineLoop S ys 0 (lineLoop S xs 0 w).2
        else (lineLoop S xs 0 w)).2 ∧
    ((lineLoop S xs 0 w).2.part.notLost ↔ (lineLoop S xs 0 w).1 = 0 ∧ (lineLoop S xs 0 w).2.part.notLost) := by
  induction xs generalizing w with
  | nil => simp [lineLoop, hw]
  | cons e es ih =>
    by_cases hc : (S.run e w).1 = 0 ∧ (S.run e w).2.part.notLost
    · have e1 : ∀ l, lineLoop S (e :: l) 0 w = lineLoop S l 0 ((S.run e w).2.map Part.incElem) := by
        intro l
        simp only [lineLoop]
        rw [if_pos hc, hc.1]
      rw [List.cons_append, e1, e1]
      exact ih (hS.mono fun _ => List.mem_cons_of_mem _) ((S.run e w).2.map Part.incElem) hc.2
    · have e1 : ∀ l, lineLoop S (e :: l) 0 w = S.run e w := by
        intro l
        simp only [lineLoop]
        rw [if_neg hc]
      rw [List.cons_append, e1, e1]
      have hlost : ¬ (S.run e w).2.part.notLost := by
        intro h
        apply hc
        refine ⟨?_, h⟩
        by_contra hs
        have h2 := hS e (by simp) w.part hw (Or.inl hs)
        have h3 : (S.dispatch e w.part).state = 1 := h
        omega
      rw [if_neg hlost]
      exact ⟨rfl, fun h => absurd h hlost, fun h => h.2⟩

theorem lineLoop_status (S : Sem E C R) (xs : List E) (hS : LossIsMarked S xs) (w : World C R)
    (hw : w.part.notLost) :
    (lineLoop S xs 0 w).2.part.notLost ↔ (lineLoop S xs 0 w).1 = 0 ∧ (lineLoop S xs 0 w).2.part.notLost :=
  (lineLoop_append S xs [] hS w hw).2

end Track

/-- Tracking two consecutive pieces, the end of turn (if any) at the second one, is tracking the whole. -/
theorem C32_two_pieces_partial (S : Sem E C R) (xs ys : List E) (hS : LossIsMarked S (xs ++ ys))
    (finish : Bool) (w : World C R) :
    (trackLine S ys finish (trackLine S xs false w).2).2 = (trackLine S (xs ++ ys) finish w).2 := by
  by_cases hw : w.part.notLost
  · unfold trackLine
    dsimp only
    rw [if_pos hw, if_pos hw]
    have hf : ¬ ((false = true) ∧ (lineLoop S xs 0 w).1 = 0 ∧ (lineLoop S xs 0 w).2.part.notLost) := by
      simp
    rw [if_neg hf]
    obtain ⟨h1, h2⟩ := lineLoop_append S xs ys (hS.mono fun _ => List.mem_append_left _) w hw
    by_cases h3 : (lineLoop S xs 0 w).2.part.notLost
    · rw [if_pos h3] at h1 ⊢
      have a := lineLoop_status S (xs ++ ys) hS w hw
      have b := lineLoop_status S ys (hS.mono fun _ => List.mem_append_right _) (lineLoop S xs 0 w).2 h3
      rw [← h1] at b
      have e : (finish = true ∧ (lineLoop S ys 0 (lineLoop S xs 0 w).2).1 = 0 ∧
          (lineLoop S ys 0 (lineLoop S xs 0 w).2).2.part.notLost) ↔
          (finish = true ∧ (lineLoop S (xs ++ ys) 0 w).1 = 0 ∧
          (lineLoop S (xs ++ ys) 0 w).2.part.notLost) := by
        rw [← h1]
        constructor
        · rintro ⟨h, h'⟩; exact ⟨h, a.1 h'.2⟩
        · rintro ⟨h, h'⟩; exact ⟨h, b.1 h'.2⟩
      by_cases hc : finish = true ∧ (lineLoop S (xs ++ ys) 0 w).1 = 0 ∧
          (lineLoop S (xs ++ ys) 0 w).2.part.notLost
      · rw [if_pos hc, if_pos (e.2 hc), h1]
      · rw [if_neg hc, if_neg (fun h => hc (e.1 h)), h1]
    · rw [if_neg h3] at h1 ⊢
      rw [if_neg (fun h => h3 h.2.2), if_neg, h1]
      rw [h1]
      exact fun h => h3 h.2.2
  · unfold trackLine
    simp [hw]

/-- Track the pieces one after the other, ending the turn after the last one. -/
def trackPieces (S : Sem E C R) : List (List E) → World C R → World C R
  | [], w => w
  | [l], w => (trackLine S l true w).2
  | l :: ls, w => trackPieces S ls (trackLine S l false w).2

/-- Tracking a line in any number of pieces is tracking it in one go. -/
theorem C32_pieces_partial (S : Sem E C R) (pieces : List (List E)) (hS : LossIsMarked S pieces.flatten)
    (hne : pieces ≠ []) (w : World C R) : trackPieces S pieces w = (trackLine S pieces.flatten true w).2 := by
  induction pieces generalizing w with
  | nil => exact absurd rfl hne
  | cons l ls ih =>
    cases ls with
    | nil => simp [trackPieces]
    | cons l' ls =>
      simp only [trackPieces]
      rw [ih (hS.mono fun e he => by rw [List.flatten_cons]; exact List.mem_append_right _ he) (by simp)]
      rw [C32_two_pieces_partial S _ _ (by rw [List.flatten_cons] at hS; exact hS)]
      rfl

/-- Tracking the whole lattice as a line and ending the turn is tracking one turn, for a particle at
element 0. -/
theorem C32_line_is_turn_partial (S : Sem E C R) (lat : List E) (hS : LossIsMarked S lat) (hl : lat ≠ [])
    (w : World C R) (h0 : w.part.atElement = 0) :
    (trackLine S lat true w).2 = (trackUntil S lat (w.part.atTurn + 1) w).2 := by
  by_cases hw : w.part.notLost
  · rw [trackUntil_run hl (by omega) hw 0, untilLoop, h0]
    unfold trackLine
    dsimp only
    rw [if_pos hw]
    have ht : (turnElems S lat 0 w).2.2.part.atTurn = w.part.atTurn := turnElems_atTurn S lat 0 w
    have hnot : ¬ ((turnElems S lat 0 w).2.2.map (S.endTurn 0)).part.atTurn < w.part.atTurn + 1 := by
      have : ((turnElems S lat 0 w).2.2.map (S.endTurn 0)).part.atTurn =
        (turnElems S lat 0 w).2.2.part.atTurn + 1 := rfl
      omega
    rw [if_neg hnot]
    have key : ∀ (es : List E), LossIsMarked S es → ∀ (w : World C R), w.part.notLost →
        ((turnElems S es 0 w).2.1 = true ∧ (lineLoop S es 0 w).1 = 0 ∧
          (lineLoop S es 0 w).2.part.notLost ∧ (turnElems S es 0 w).2.2 = (lineLoop S es 0 w).2) ∨
        ((turnElems S es 0 w).2.1 = false ∧ ¬ (lineLoop S es 0 w).2.part.notLost ∧
          (turnElems S es 0 w).2.2.map Part.markLost = (lineLoop S es 0 w).2) := by
      intro es
      induction es with
      | nil => intro _ w hw; left; exact ⟨rfl, rfl, hw, rfl⟩
      | cons e es ih =>
        intro hS w hw
        simp only [turnElems, lineLoop]
        by_cases hc : (S.run e w).1 = 0 ∧ (S.run e w).2.part.notLost
        · rw [if_pos hc, if_pos hc, hc.1]
          exact ih (hS.mono fun _ => List.mem_cons_of_mem _) ((S.run e w).2.map Part.incElem) hc.2
        · rw [if_neg hc, if_neg hc]
          right
          have hst : (S.dispatch e w.part).state = 0 := by
            apply hS e (by simp) w.part hw
            by_contra hn
            rw [not_or, Classical.not_not, Classical.not_not] at hn
            exact hc ⟨hn.1, hn.2⟩
          refine ⟨rfl, ?_, ?_⟩
          · intro h
            have h3 : (S.dispatch e w.part).state = 1 := h
            omega
          · simp [World.map, Part.markLost, Sem.run, applyPart, hst]
    rcases key lat hS w hw with ⟨k1, k2, k3, k4⟩ | ⟨k1, k2, k3⟩
    · rw [if_pos k1, if_pos ⟨rfl, k2, k3⟩, k4]
    · rw [if_neg (fun h => k2 h.2.2), if_neg (by simp [k1])]
      exact k3.symm
  · rw [trackUntil_lost hw]
    unfold trackLine
    dsimp only
    rw [if_neg hw, if_neg (fun h => hw h.2.2)]

/-- A toy semantics in which the loss is marked, for the examples: elements add a number to the
coordinate; above 10 the particle is lost. -/
def toy2 : Sem Int Int Int where
  dispatch e p := ⟨0, p.coord + e, if p.coord + e ≤ 10 then 1 else 0, none⟩
  zeroS c := c

theorem toy2_lossIsMarked (lat : List Int) : LossIsMarked toy2 lat := by
  intro e _ p _ h
  simp only [toy2] at h ⊢
  split <;> simp_all

example : LossIsMarked toy2 [[1, 2], [], [3]].flatten ∧ (trackPieces toy2 [[1, 2], [], [3]] toyWorld).part = ⟨7, 0, 0, 1, 1⟩ :=
  ⟨toy2_lossIsMarked _, by decide⟩

/-- A semantics with an element (`0`) that reports a failure without marking the particle as lost, as
the dispatcher does for a `TriCubData` object. -/
def badToy : Sem Int Int Int where
  dispatch e p := if e = 0 then ⟨-1, p.coord, p.state, none⟩ else ⟨0, p.coord + e, p.state, none⟩
  zeroS c := c

/-- With such an element the pieces do not give the result of the turn: the next piece simply goes on. -/
theorem C32_violated :
    ∃ (pieces : List (List Int)) (w : World Int Int), w.part.atElement = 0 ∧ w.part.notLost ∧
      (trackPieces badToy pieces w).part ≠
        (trackUntil badToy pieces.flatten (w.part.atTurn + 1) w).2.part := by
  refine ⟨[[0], [1]], toyWorld, rfl, rfl, ?_⟩
  have : (trackUntil badToy [0, 1] 1 toyWorld).2.part = ⟨1, 0, 0, 0, 0⟩ := by
    simp +decide [trackUntil, untilLoop, turnElems, badToy, toyWorld, Sem.run, applyPart, World.map,
      Part.markLost]
  have h2 : (trackPieces badToy [[0], [1]] toyWorld).part = ⟨2, 0, 0, 1, 1⟩ := by decide
  show (trackPieces badToy [[0], [1]] toyWorld).part ≠ (trackUntil badToy [0, 1] 1 toyWorld).2.part
  rw [this, h2]
  decide

end SixTrack
