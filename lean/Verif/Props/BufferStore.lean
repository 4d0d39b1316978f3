import Verif.BufferStore
import Mathlib.Tactic.ByContra

/-! # Property C46: track-job buffer stores -/

namespace SixTrack
open BStore

namespace BStore

/-- The property: every store that claims ownership of a buffer refers to exactly that buffer, with
both pointers, and the buffer exists. -/
def Consistent (w : World) : Prop :=
  ∀ i, (w.st i).ownsBuffer = true →
    ∃ b, (w.st i).own = some b ∧ (w.st i).cxx = some b ∧ (w.st i).c99 = some b ∧ w.alive b = true

/-- Invariant: own buffers exist, are pointed to by both pointers, and belong to one store. -/
structure Inv (w : World) : Prop where
  own : ∀ i b, (w.st i).own = some b →
    (w.st i).cxx = some b ∧ (w.st i).c99 = some b ∧ w.alive b = true
  one : ∀ i j b, (w.st i).own = some b → (w.st j).own = some b → i = j
  fresh : ∀ b, w.next ≤ b → w.alive b = false

/-- No store owns the buffer. -/
def Unowned (w : World) (b : Nat) : Prop := ∀ i, (w.st i).own ≠ some b

/-- What the caller has to see to: a buffer that is handed over exists and is not owned by a store; a
new store is not one that exists already (it owns nothing); and — the restriction under which C46 holds — copy assignment is
not used from a store that owns nothing to one that owns a buffer. -/
def Allowed (w : World) : Op → Prop
  | .resetCxx _ (some b) true => w.alive b = true ∧ Unowned w b
  | .resetC99 _ (some b) true _ => w.alive b = true ∧ Unowned w b
  | .resetUnique _ (some b) => w.alive b = true ∧ Unowned w b
  | .copyNew i _ => (w.st i).own = none
  | .moveNew i j => i ≠ j ∧ (w.st i).own = none
  | .copyAssign i j => (w.st j).ownsBuffer = true ∨ (w.st i).own = none ∨ i = j
  | _ => True

theorem Inv.consistent {w : World} (h : Inv w) : Consistent w := by
  intro i hi
  unfold Store.ownsBuffer at hi
  rw [Bool.and_eq_true] at hi
  obtain ⟨b, hb⟩ := Option.isSome_iff_exists.1 hi.2
  obtain ⟨h1, h2, h3⟩ := h.own i b hb
  exact ⟨b, hb, h1, h2, h3⟩

theorem free_ok {w : World} (h : Inv w) (i : Nat) :
    w.free (w.st i).own = .ok { w with alive := fun c => if (w.st i).own = some c then false else w.alive c } := by
  cases ho : (w.st i).own with
  | none => simp [World.free]
  | some b =>
    unfold World.free
    simp only
    rw [if_pos (h.own i b ho).2.2]
    congr 2
    funext c
    by_cases hc : c = b
    · subst hc; simp
    · rw [if_neg hc, if_neg (by simp; exact fun h => hc h.symm)]

/-- Replacing what store `i` owns. -/
theorem setOwn_inv {w : World} (h : Inv w) (i : Nat) (cxx c99 own : Option Nat)
    (ho : ∀ b, own = some b → cxx = some b ∧ c99 = some b ∧ w.alive b = true ∧ Unowned w b) :
    ∃ w', w.setOwn i cxx c99 own = .ok w' ∧ Inv w' ∧ w'.st i = ⟨cxx, c99, own⟩ ∧
      (∀ j, j ≠ i → w'.st j = w.st j) ∧ w'.next = w.next ∧
      (∀ b, w.alive b = true → (w.st i).own ≠ some b → w'.alive b = true) := by
  unfold World.setOwn
  rw [free_ok h i, Res.ok_bind]
  refine ⟨_, rfl, ⟨?_, ?_, ?_⟩, ?_, ?_, rfl, ?_⟩
  · intro j b hj
    simp only [World.put] at hj ⊢
    by_cases hji : j = i
    · subst hji
      rw [if_pos rfl] at hj ⊢
      obtain ⟨h1, h2, h3, h4⟩ := ho b hj
      exact ⟨h1, h2, by rw [if_neg (h4 j)]; exact h3⟩
    · rw [if_neg hji] at hj ⊢
      obtain ⟨h1, h2, h3⟩ := h.own j b hj
      refine ⟨h1, h2, ?_⟩
      rw [if_neg (fun hi => hji (h.one j i b hj hi))]
      exact h3
  · intro j k b hj hk
    simp only [World.put] at hj hk
    by_cases hji : j = i <;> by_cases hki : k = i
    · rw [hji, hki]
    · rw [if_pos hji] at hj
      rw [if_neg hki] at hk
      exact absurd hk ((ho b hj).2.2.2 k)
    · rw [if_neg hji] at hj
      rw [if_pos hki] at hk
      exact absurd hj ((ho b hk).2.2.2 j)
    · rw [if_neg hji] at hj
      rw [if_neg hki] at hk
      exact h.one j k b hj hk
  · intro b hb
    simp only [World.put] at hb ⊢
    rw [h.fresh b hb]
    simp
  · simp [World.put]
  · intro j hj
    simp [World.put, hj]
  · intro b hb hne
    simp only [World.put]
    rw [if_neg hne]
    exact hb

theorem new_inv {w : World} (h : Inv w) :
    Inv w.new ∧ w.new.alive w.next = true ∧ Unowned w.new w.next := by
  have hun : Unowned w.new w.next := by
    intro i hi
    have := (h.own i w.next hi).2.2
    rw [h.fresh _ (Nat.le_refl _)] at this
    exact absurd this (by decide)
  refine ⟨⟨?_, h.one, ?_⟩, by simp [World.new], hun⟩
  · intro i b hb
    obtain ⟨h1, h2, h3⟩ := h.own i b hb
    refine ⟨h1, h2, ?_⟩
    simp only [World.new]
    split
    · rfl
    · exact h3
  · intro b hb
    simp only [World.new] at hb ⊢
    rw [if_neg (by omega)]
    exact h.fresh b (by omega)

/-- Changing the raw pointers of a store that owns nothing, or that keeps to own nothing. -/
theorem put_inv {w : World} (h : Inv w) (i : Nat) (s : Store) (hs : s.own = none) : Inv (w.put i s) := by
  refine ⟨?_, ?_, h.fresh⟩
  · intro j b hj
    simp only [World.put] at hj ⊢
    by_cases hji : j = i
    · rw [if_pos hji, hs] at hj
      exact absurd hj (by simp)
    · rw [if_neg hji] at hj ⊢
      exact h.own j b hj
  · intro j k b hj hk
    simp only [World.put] at hj hk
    by_cases hji : j = i
    · rw [if_pos hji, hs] at hj
      exact absurd hj (by simp)
    · by_cases hki : k = i
      · rw [if_pos hki, hs] at hk
        exact absurd hk (by simp)
      · rw [if_neg hji] at hj
        rw [if_neg hki] at hk
        exact h.one j k b hj hk

/-- Every allowed operation is defined and keeps the invariant. -/
theorem step_inv {w : World} (h : Inv w) (o : Op) (ha : Allowed w o) :
    ∃ w', step w o = .ok w' ∧ Inv w' := by
  have hnew : ∀ i, ∃ w', w.new.setOwn i (some w.next) (some w.next) (some w.next) = .ok w' ∧ Inv w' := by
    intro i
    obtain ⟨h1, h2, h3⟩ := new_inv h
    obtain ⟨w', e, hi, _⟩ := setOwn_inv h1 i (some w.next) (some w.next) (some w.next) (by
      intro b hb
      obtain rfl : w.next = b := by simpa using hb
      exact ⟨rfl, rfl, h2, h3⟩)
    exact ⟨w', e, hi⟩
  have hnone : ∀ i a b, ∃ w', w.setOwn i a b none = .ok w' ∧ Inv w' := by
    intro i a b
    obtain ⟨w', e, hi, _⟩ := setOwn_inv h i a b none (by simp)
    exact ⟨w', e, hi⟩
  cases o with
  | resetNew i => exact hnew i
  | resetCxx i b take =>
    cases b with
    | none => exact ⟨w, rfl, h⟩
    | some b =>
      unfold step
      simp only
      split
      · cases take with
        | false => simpa using hnone i (some b) (some b)
        | true =>
          rw [if_pos rfl]
          obtain ⟨w', e, hi, _⟩ := setOwn_inv h i (some b) (some b) (some b) (by
            intro c hc
            obtain rfl : b = c := by simpa using hc
            exact ⟨rfl, rfl, ha.1, ha.2⟩)
          exact ⟨w', e, hi⟩
      · exact ⟨w, rfl, h⟩
  | resetC99 i b take del =>
    cases b with
    | none => exact ⟨w, rfl, h⟩
    | some b =>
      unfold step
      simp only
      split
      · cases take with
        | false => simpa using hnone i none (some b)
        | true =>
          rw [if_pos rfl]
          cases del with
          | false =>
            simp only [Bool.false_eq_true, if_false, Res.ok_bind]
            exact hnew i
          | true =>
            obtain ⟨h1, h2, h3⟩ := new_inv h
            have hal : w.new.alive b = true := by
              simp only [World.new]
              split
              · rfl
              · exact ha.1
            have hbn : b ≠ w.next := by
              rintro rfl
              have := h.fresh w.next (Nat.le_refl _)
              rw [ha.1] at this
              exact absurd this (by decide)
            have hw2 : Inv { w.new with alive := fun c => if c = b then false else w.new.alive c } := by
              refine ⟨?_, h1.one, ?_⟩
              · intro j c hj
                obtain ⟨q1, q2, q3⟩ := h1.own j c hj
                refine ⟨q1, q2, ?_⟩
                have hne : c ≠ b := by
                  rintro rfl
                  exact ha.2 j hj
                simp only
                rw [if_neg hne]
                exact q3
              · intro c hc
                have := h1.fresh c hc
                simp only
                split
                · rfl
                · exact this
            simp only [if_true, World.free, hal, Res.ok_bind]
            obtain ⟨w', e, hi, _⟩ := setOwn_inv hw2 i (some w.next) (some w.next) (some w.next) (by
              intro c hc
              obtain rfl : w.next = c := by simpa using hc
              refine ⟨rfl, rfl, ?_, h3⟩
              simp only
              rw [if_neg hbn.symm]
              exact h2)
            exact ⟨w', e, hi⟩
      · exact ⟨w, rfl, h⟩
  | resetUnique i b =>
    unfold step
    obtain ⟨w', e, hi, _⟩ := setOwn_inv h i b b b (by
      intro c hc
      subst hc
      exact ⟨rfl, rfl, ha.1, ha.2⟩)
    exact ⟨w', e, hi⟩
  | resetMove i b =>
    unfold step
    simp only
    split
    · exact hnew i
    · exact ⟨w, rfl, h⟩
  | clear i => exact hnone i none none
  | destroy i => exact hnone i none none
  | copyNew i j =>
    have ha' : (w.st i).own = none := ha
    unfold step
    simp only
    split
    · obtain ⟨h1, h2, h3⟩ := new_inv h
      refine ⟨_, rfl, ⟨?_, ?_, h1.fresh⟩⟩
      · intro k b hk
        simp only [World.put] at hk ⊢
        by_cases hki : k = i
        · rw [if_pos hki] at hk ⊢
          obtain rfl : w.next = b := by simpa using hk
          exact ⟨rfl, rfl, h2⟩
        · rw [if_neg hki] at hk ⊢
          exact h1.own k b hk
      · intro k l b hk hl
        simp only [World.put] at hk hl
        by_cases hki : k = i <;> by_cases hli : l = i
        · rw [hki, hli]
        · rw [if_pos hki] at hk
          rw [if_neg hli] at hl
          obtain rfl : w.next = b := by simpa using hk
          exact absurd hl (h3 l)
        · rw [if_neg hki] at hk
          rw [if_pos hli] at hl
          obtain rfl : w.next = b := by simpa using hl
          exact absurd hk (h3 k)
        · rw [if_neg hki] at hk
          rw [if_neg hli] at hl
          exact h1.one k l b hk hl
    · exact ⟨_, rfl, put_inv h i _ rfl⟩
  | moveNew i j =>
    obtain ⟨hij, hi⟩ : i ≠ j ∧ (w.st i).own = none := ha
    refine ⟨_, rfl, ⟨?_, ?_, h.fresh⟩⟩
    · intro k b hk
      simp only [World.put] at hk ⊢
      by_cases hki : k = i
      · rw [if_pos hki] at hk ⊢
        exact h.own j b hk
      · rw [if_neg hki] at hk ⊢
        by_cases hkj : k = j
        · rw [if_pos hkj] at hk
          exact absurd hk (by simp)
        · rw [if_neg hkj] at hk ⊢
          exact h.own k b hk
    · intro k l b hk hl
      simp only [World.put] at hk hl
      by_cases hki : k = i <;> by_cases hli : l = i
      · rw [hki, hli]
      · rw [if_pos hki] at hk
        rw [if_neg hli] at hl
        by_cases hlj : l = j
        · rw [if_pos hlj] at hl
          exact absurd hl (by simp)
        · rw [if_neg hlj] at hl
          exact absurd (h.one l j b hl hk) hlj
      · rw [if_neg hki] at hk
        rw [if_pos hli] at hl
        by_cases hkj : k = j
        · rw [if_pos hkj] at hk
          exact absurd hk (by simp)
        · rw [if_neg hkj] at hk
          exact absurd (h.one k j b hk hl) hkj
      · rw [if_neg hki] at hk
        rw [if_neg hli] at hl
        by_cases hkj : k = j
        · rw [if_pos hkj] at hk
          exact absurd hk (by simp)
        · by_cases hlj : l = j
          · rw [if_pos hlj] at hl
            exact absurd hl (by simp)
          · rw [if_neg hkj] at hk
            rw [if_neg hlj] at hl
            exact h.one k l b hk hl
  | copyAssign i j =>
    unfold step
    simp only
    split
    · rename_i hij
      split
      · exact hnew i
      · rename_i hno
        have : (w.st i).own = none := by
          rcases ha with ha | ha | ha
          · exact absurd ha hno
          · exact ha
          · exact absurd ha hij
        exact ⟨_, rfl, put_inv h i _ this⟩
    · exact ⟨w, rfl, h⟩
  | moveAssign i j =>
    unfold step
    simp only
    split
    · rename_i hij
      -- delete what `i` owned, then hand over the members of `j`
      unfold World.setOwn
      rw [free_ok h i, Res.ok_bind]
      refine ⟨_, rfl, ⟨?_, ?_, ?_⟩⟩
      · intro k b hk
        simp only [World.put] at hk ⊢
        by_cases hkj : k = j
        · rw [if_pos hkj] at hk
          exact absurd hk (by simp)
        · rw [if_neg hkj] at hk ⊢
          by_cases hki : k = i
          · rw [if_pos hki] at hk ⊢
            have hk' : (w.st j).own = some b := hk
            obtain ⟨q1, q2, q3⟩ := h.own j b hk'
            refine ⟨q1, q2, ?_⟩
            rw [if_neg (fun hi => hij (h.one i j b hi hk'))]
            exact q3
          · rw [if_neg hki] at hk ⊢
            have hk' : (w.st k).own = some b := hk
            obtain ⟨q1, q2, q3⟩ := h.own k b hk'
            refine ⟨q1, q2, ?_⟩
            rw [if_neg (fun hi => hki (h.one k i b hk' hi))]
            exact q3
      · intro k l b hk hl
        simp only [World.put] at hk hl
        by_cases hkj : k = j
        · rw [if_pos hkj] at hk
          exact absurd hk (by simp)
        · by_cases hlj : l = j
          · rw [if_pos hlj] at hl
            exact absurd hl (by simp)
          · rw [if_neg hkj] at hk
            rw [if_neg hlj] at hl
            by_cases hki : k = i <;> by_cases hli : l = i
            · rw [hki, hli]
            · rw [if_pos hki] at hk
              rw [if_neg hli] at hl
              exact absurd (h.one l j b hl hk) hlj
            · rw [if_neg hki] at hk
              rw [if_pos hli] at hl
              exact absurd (h.one k j b hk hl) hkj
            · rw [if_neg hki] at hk
              rw [if_neg hli] at hl
              exact h.one k l b hk hl
      · intro b hb
        simp only [World.put] at hb ⊢
        rw [h.fresh b hb]
        simp
    · exact ⟨w, rfl, h⟩

/-- Every operation of the history is allowed when it is performed. -/
def AllowedAll (w : World) : List Op → Prop
  | [] => True
  | o :: rest => Allowed w o ∧ ∀ w', step w o = .ok w' → AllowedAll w' rest

/-- Stores that do not refer to anything, and the buffers of the caller. -/
def start (n : Nat) : World := ⟨n, fun b => decide (b < n), fun _ => .empty⟩

end BStore

/-- **C46**, partial: for every history of resets, copies and moves in which no store that owns
nothing is copy-assigned to one that owns a buffer, every operation is defined (nothing is deleted
twice), and every store that claims ownership refers to exactly its buffer, which exists; no two
stores own the same buffer. -/
theorem C46_history_partial (n : Nat) (ops : List Op) (ha : AllowedAll (start n) ops) :
    ∃ w, run (start n) ops = .ok w ∧ Consistent w ∧
      ∀ i j b, (w.st i).own = some b → (w.st j).own = some b → i = j := by
  have key : ∀ (ops : List Op) (w : World), Inv w → AllowedAll w ops →
      ∃ w', run w ops = .ok w' ∧ Inv w' := by
    intro ops
    induction ops with
    | nil => intro w h _; exact ⟨w, rfl, h⟩
    | cons o rest ih =>
      intro w h hal
      obtain ⟨w1, e1, h1⟩ := step_inv h o hal.1
      obtain ⟨w2, e2, h2⟩ := ih w1 h1 (hal.2 w1 e1)
      exact ⟨w2, by rw [run, e1, Res.ok_bind, e2], h2⟩
  have h0 : Inv (start n) := by
    refine ⟨by simp [start, Store.empty], by simp [start, Store.empty], ?_⟩
    intro b hb
    simp only [start] at hb ⊢
    simpa using hb
  obtain ⟨w, e, h⟩ := key ops (start n) h0 ha
  exact ⟨w, e, h.consistent, h.one⟩

/-- A history with all kinds of operations is allowed. -/
example : ∃ w, run (start 3) [.resetNew 0, .resetCxx 1 (some 1) false, .copyNew 2 0, .moveAssign 1 0,
    .resetC99 0 (some 2) true true, .copyAssign 1 2, .clear 2] = .ok w ∧
    (w.st 1).ownsBuffer = true ∧ (w.st 0).ownsBuffer = true ∧ (w.st 2).ownsBuffer = false := by
  refine ⟨_, rfl, ?_, ?_, ?_⟩ <;> decide

example : AllowedAll (start 3) [.resetNew 0, .resetCxx 1 (some 1) true] := by
  refine ⟨trivial, ?_⟩
  intro w' hw
  simp only [step, World.setOwn, World.free, start, World.new, Store.empty, Res.ok_bind] at hw
  injection hw with hw
  subst hw
  refine ⟨⟨by decide, ?_⟩, fun _ _ => trivial⟩
  intro i hi
  simp only [World.put] at hi
  split at hi
  · simp at hi
  · simp at hi

/-- **C46 is false of the code**: after copy assignment from a store that does not own its buffer, the
store still holds its old buffer and claims ownership, but it refers to the other buffer. -/
theorem C46_copy_assign_violated :
    ∃ w, run (start 1) [.resetNew 0, .resetCxx 1 (some 0) false, .copyAssign 0 1] = .ok w ∧
      (w.st 0).ownsBuffer = true ∧ (w.st 0).own = some 1 ∧ (w.st 0).c99 = some 0 ∧ ¬ Consistent w := by
  refine ⟨_, rfl, by decide, by decide, by decide, ?_⟩
  intro h
  obtain ⟨b, h1, h2, _⟩ := h 0 (by decide)
  have h3 : (some 1 : Option Nat) = some b := h1
  have h4 : (some 0 : Option Nat) = some b := h2
  rw [← h3] at h4
  exact absurd h4 (by decide)

/-- A store that has been moved from keeps its pointers, so that it is still `active`, and refers to
a deleted buffer as soon as the new owner lets go of it. -/
theorem C46_moved_from_dangles_violated :
    ∃ w, run (start 0) [.resetNew 0, .moveNew 1 0, .clear 1] = .ok w ∧
      (w.st 0).active = true ∧ (w.st 0).c99 = some 0 ∧ w.alive 0 = false := by
  refine ⟨_, rfl, ?_, ?_, ?_⟩ <;> decide

end SixTrack
