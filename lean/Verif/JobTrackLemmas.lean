import Verif.JobTrack
import Verif.DebugRegLemmas
import Mathlib.Tactic.Choose

/-! # Helper lemmas about tracking the particle sets of a job -/

namespace SixTrack.JobTrack
open Track EBE

variable {E C R : Type}

/-! ## What tracking one particle does, whatever the records hold -/

/-- a write of an element of the lattice for a particle with the given id -/
def WriteOf (S : Sem E C R) (lat : List E) (id : Int) (w : Option (Nat × R)) : Prop :=
  ∃ e ∈ lat, ∃ p : Part C, p.id = id ∧ (S.dispatch e p).write = w

/-- a status that tracking can return -/
def StatusOf (S : Sem E C R) (lat : List E) (s : Int) : Prop :=
  s = 0 ∨ s = -1 ∨ ∃ e ∈ lat, ∃ p : Part C, (S.dispatch e p).status = s

theorem turnElems_pure (S : Sem E C R) (lat : List E) : ∀ (es : List E) (_ : ∀ e ∈ es, e ∈ lat)
    (s : Int) (_ : StatusOf S lat s) (p : Part C),
    ∃ st b q, ∃ ws : List (Option (Nat × R)), (∀ o, turnElems S es s ⟨p, o⟩ = (st, b, ⟨q, ws.foldl applyWrite o⟩)) ∧
      q.id = p.id ∧ StatusOf S lat st ∧ ∀ w ∈ ws, WriteOf S lat p.id w
  | [], _, s, hs, p => ⟨s, true, p, [], fun _ => rfl, rfl, hs, by simp⟩
  | e :: es, he, s, hs, p => by
    have hst : StatusOf S lat (S.dispatch e p).status :=
      Or.inr (Or.inr ⟨e, he e (by simp), p, rfl⟩)
    have hw : WriteOf S lat p.id (S.dispatch e p).write := ⟨e, he e (by simp), p, rfl, rfl⟩
    by_cases hc : (S.dispatch e p).status = 0 ∧ (applyPart p (S.dispatch e p)).notLost
    · obtain ⟨st, b, q, ws, h1, h2, h3, h4⟩ := turnElems_pure S lat es
        (fun x hx => he x (by simp [hx])) (S.dispatch e p).status hst
        (applyPart p (S.dispatch e p)).incElem
      refine ⟨st, b, q, (S.dispatch e p).write :: ws, fun o => ?_, h2, h3, ?_⟩
      · exact (if_pos hc).trans (h1 _)
      · intro w hm
        rcases List.mem_cons.1 hm with h | h
        · exact h ▸ hw
        · exact h4 w h
    · refine ⟨(S.dispatch e p).status, false, applyPart p (S.dispatch e p), [(S.dispatch e p).write],
        fun o => ?_, rfl, hst, ?_⟩
      · exact if_neg hc
      · intro w hm
        rw [List.mem_singleton.1 hm]; exact hw

theorem untilLoop_pure (S : Sem E C R) (lat : List E) (start n : Int) : ∀ (k : Nat) (s : Int)
    (_ : StatusOf S lat s) (p : Part C) (_ : (n - p.atTurn).toNat ≤ k),
    ∃ st q, ∃ ws : List (Option (Nat × R)), (∀ o, untilLoop S lat start n s ⟨p, o⟩ = (st, ⟨q, ws.foldl applyWrite o⟩)) ∧
      q.id = p.id ∧ StatusOf S lat st ∧ ∀ w ∈ ws, WriteOf S lat p.id w := by
  intro k
  induction k with
  | zero =>
    intro s hs p hk
    obtain ⟨st, b, q, ws, h1, h2, h3, h4⟩ := turnElems_pure S lat lat (fun _ h => h) s hs p
    have ht : ∀ o, (turnElems S lat s ⟨p, o⟩).2.2.part.atTurn = p.atTurn :=
      fun o => turnElems_atTurn S lat s ⟨p, o⟩
    cases b with
    | false =>
      refine ⟨st, q.markLost, ws, fun o => ?_, h2, h3, h4⟩
      rw [untilLoop]; simp only [h1]; rfl
    | true =>
      refine ⟨st, S.endTurn start q, ws, fun o => ?_, h2, h3, h4⟩
      have hq := ht o
      rw [h1] at hq
      have hq' : q.atTurn = p.atTurn := hq
      rw [untilLoop]; simp only [h1]
      rw [if_pos trivial, if_neg]
      · rfl
      · change ¬ (q.atTurn + 1 < n)
        omega
  | succ k ih =>
    intro s hs p hk
    obtain ⟨st, b, q, ws, h1, h2, h3, h4⟩ := turnElems_pure S lat lat (fun _ h => h) s hs p
    have ht : ∀ o, (turnElems S lat s ⟨p, o⟩).2.2.part.atTurn = p.atTurn :=
      fun o => turnElems_atTurn S lat s ⟨p, o⟩
    cases b with
    | false =>
      refine ⟨st, q.markLost, ws, fun o => ?_, h2, h3, h4⟩
      rw [untilLoop]; simp only [h1]; rfl
    | true =>
      by_cases hlt : (S.endTurn start q).atTurn < n
      · by_cases hq' : q.atTurn = p.atTurn
        · have hlt' : q.atTurn + 1 < n := hlt
          obtain ⟨st', q2, ws', g1, g2, g3, g4⟩ := ih st h3 (S.endTurn start q) (by
            change (n - (q.atTurn + 1)).toNat ≤ k
            omega)
          refine ⟨st', q2, ws ++ ws', fun o => ?_, g2.trans h2, g3, ?_⟩
          · rw [untilLoop]; simp only [h1]
            rw [if_pos trivial, List.foldl_append]
            exact (if_pos hlt).trans (g1 _)
          · intro w hm
            rcases List.mem_append.1 hm with h | h
            · exact h4 w h
            · have := g4 w h
              rwa [show (S.endTurn start q).id = p.id from h2] at this
        · refine ⟨st, S.endTurn start q, ws, fun o => ?_, h2, h3, h4⟩
          have hq := ht o
          rw [h1] at hq
          exact absurd hq hq'
      · refine ⟨st, S.endTurn start q, ws, fun o => ?_, h2, h3, h4⟩
        rw [untilLoop]; simp only [h1]
        rw [if_pos trivial]
        change (if (S.endTurn start q).atTurn < n then _ else _) = _
        rw [if_neg hlt]
        rfl

/-- `F` computes status and particle from the particle alone, and its writes too. -/
def PureAt (S : Sem E C R) (lat : List E) (F : Track.World C R → Int × Track.World C R) (p : Part C) :
    Prop :=
  ∃ st q, ∃ ws : List (Option (Nat × R)), (∀ o, F ⟨p, o⟩ = (st, ⟨q, ws.foldl applyWrite o⟩)) ∧ q.id = p.id ∧ StatusOf S lat st ∧
    ∀ w ∈ ws, WriteOf S lat p.id w

theorem trackUntil_pure (S : Sem E C R) (lat : List E) (n : Int) (p : Part C) :
    PureAt S lat (trackUntil S lat n) p := by
  by_cases hl : lat = []
  · refine ⟨-1, p, [], fun o => ?_, rfl, Or.inr (Or.inl rfl), by simp⟩
    simp [trackUntil, hl]
  · by_cases hc : n > p.atTurn ∧ p.notLost
    · obtain ⟨st, q, ws, h1, h2, h3, h4⟩ := untilLoop_pure S lat p.atElement n _ 0 (Or.inl rfl) p
        (Nat.le_refl _)
      refine ⟨st, q, ws, fun o => ?_, h2, h3, h4⟩
      rw [← h1 o]
      unfold trackUntil
      dsimp only
      rw [if_neg hl, if_pos ⟨rfl, hc.1, hc.2⟩]
    · refine ⟨0, p, [], fun o => ?_, rfl, Or.inl rfl, by simp⟩
      unfold trackUntil
      dsimp only
      rw [if_neg hl, if_neg (fun h => hc ⟨h.2.1, h.2.2⟩)]
      rfl

theorem lineLoop_pure (S : Sem E C R) (lat : List E) : ∀ (es : List E) (_ : ∀ e ∈ es, e ∈ lat)
    (s : Int) (_ : StatusOf S lat s) (p : Part C), PureAt S lat (lineLoop S es s) p
  | [], _, s, hs, p => ⟨s, p, [], fun _ => rfl, rfl, hs, by simp⟩
  | e :: es, he, s, hs, p => by
    have hst : StatusOf S lat (S.dispatch e p).status :=
      Or.inr (Or.inr ⟨e, he e (by simp), p, rfl⟩)
    have hw : WriteOf S lat p.id (S.dispatch e p).write := ⟨e, he e (by simp), p, rfl, rfl⟩
    by_cases hc : (S.dispatch e p).status = 0 ∧ (applyPart p (S.dispatch e p)).notLost
    · obtain ⟨st, q, ws, h1, h2, h3, h4⟩ := lineLoop_pure S lat es
        (fun x hx => he x (by simp [hx])) (S.dispatch e p).status hst
        (applyPart p (S.dispatch e p)).incElem
      refine ⟨st, q, (S.dispatch e p).write :: ws, fun o => ?_, h2, h3, ?_⟩
      · exact (if_pos hc).trans (h1 _)
      · intro w hm
        rcases List.mem_cons.1 hm with h | h
        · exact h ▸ hw
        · exact h4 w h
    · refine ⟨(S.dispatch e p).status, applyPart p (S.dispatch e p), [(S.dispatch e p).write],
        fun o => ?_, rfl, hst, ?_⟩
      · exact if_neg hc
      · intro w hm
        rw [List.mem_singleton.1 hm]; exact hw

theorem trackLine_pure (S : Sem E C R) (lat : List E) (fin : Bool) (p : Part C) :
    PureAt S lat (trackLine S lat fin) p := by
  have key : PureAt S lat (fun w => if w.part.notLost then lineLoop S lat 0 w else (0, w)) p := by
    by_cases hl : p.notLost
    · obtain ⟨st, q, ws, h1, h⟩ := lineLoop_pure S lat lat (fun _ h => h) 0 (Or.inl rfl) p
      exact ⟨st, q, ws, fun o => by dsimp only; rw [if_pos hl]; exact h1 o, h⟩
    · exact ⟨0, p, [], fun o => by dsimp only; rw [if_neg hl]; rfl, rfl, Or.inl rfl, by simp⟩
  obtain ⟨st, q, ws, h1, h2, h3, h4⟩ := key
  by_cases hc : fin = true ∧ st = 0 ∧ q.notLost
  · refine ⟨st, S.endTurn 0 q, ws, fun o => ?_, h2, h3, h4⟩
    unfold trackLine
    have := h1 o
    dsimp only at this ⊢
    rw [this]
    rw [if_pos hc]; rfl
  · refine ⟨st, q, ws, fun o => ?_, h2, h3, h4⟩
    unfold trackLine
    have := h1 o
    dsimp only at this ⊢
    rw [this]
    rw [if_neg hc]

/-! ## Writes -/

/-- the writes do not concern record `i` -/
def Avoids (ws : List (Option (Nat × R))) (i : Nat) : Prop := ∀ k r, some (k, r) ∈ ws → k ≠ i

theorem applyWrite_local {o o' : Nat → R} {i : Nat} (h : o i = o' i) (w : Option (Nat × R)) :
    applyWrite o w i = applyWrite o' w i := by
  cases w with
  | none => exact h
  | some x =>
    simp only [applyWrite, Particles.setAt]
    split
    · rfl
    · exact h

theorem writes_local {i : Nat} (ws : List (Option (Nat × R))) {o o' : Nat → R} (h : o i = o' i) :
    ws.foldl applyWrite o i = ws.foldl applyWrite o' i := by
  induction ws generalizing o o' with
  | nil => exact h
  | cons w ws ih => exact ih (applyWrite_local h w)

theorem writes_avoid {i : Nat} (ws : List (Option (Nat × R))) (h : Avoids ws i) (o : Nat → R) :
    ws.foldl applyWrite o i = o i := by
  induction ws generalizing o with
  | nil => rfl
  | cons w ws ih =>
    rw [List.foldl_cons, ih (fun k r hm => h k r (List.mem_cons_of_mem _ hm))]
    cases w with
    | none => rfl
    | some x =>
      have : x.1 ≠ i := h x.1 x.2 (List.mem_cons_self)
      simp only [applyWrite, Particles.setAt]
      rw [if_neg (fun h => this h.symm)]

/-! ## The loop of a kernel -/

/-- the particles a work-item that starts at `pidx` works on -/
def Sel (pidx stride j : Nat) : Prop := pidx ≤ j ∧ (j - pidx) % stride = 0

theorem sel_step {pidx stride j : Nat} (hs : 0 < stride) :
    Sel pidx stride j ↔ j = pidx ∨ Sel (pidx + stride) stride j := by
  unfold Sel
  constructor
  · rintro ⟨h1, h2⟩
    by_cases h : j = pidx
    · exact Or.inl h
    · have h3 : stride ≤ j - pidx := Nat.le_of_dvd (by omega) (Nat.dvd_of_mod_eq_zero h2)
      refine Or.inr ⟨by omega, ?_⟩
      rw [show j - (pidx + stride) = (j - pidx) - stride by omega, ← Nat.mod_eq_sub_mod h3]
      exact h2
  · rintro (rfl | ⟨h1, h2⟩)
    · exact ⟨Nat.le_refl _, by simp⟩
    · refine ⟨by omega, ?_⟩
      have h3 : stride ≤ j - pidx := by omega
      rw [Nat.mod_eq_sub_mod h3, show (j - pidx) - stride = j - (pidx + stride) by omega]
      exact h2

theorem not_sel_lt {pidx stride j : Nat} (h : j < pidx) : ¬ Sel pidx stride j := fun h' => by
  have := h'.1; omega

theorem sel_all (j : Nat) : Sel 0 1 j := ⟨Nat.zero_le _, Nat.mod_one _⟩

/-- On the particles with `P`, `f` is defined and does to particle, status and records what `g` and `ws`
say. -/
def Acts (f : One C R) (P : Part C → Prop) (g : Part C → Int × Part C)
    (ws : Part C → List (Option (Nat × R))) (keep : Prop) : Prop :=
  ∀ v : EWorld C R, P v.w.part → ∃ recs, (keep → recs = v.recs) ∧
    f v = .ok ((g v.w.part).1, ⟨⟨(g v.w.part).2, (ws v.w.part).foldl applyWrite v.w.out⟩, recs⟩)

/-- What a loop over the particles at the places `J` leaves of `r`. -/
structure Done (g : Part C → Int × Part C) (ws : Part C → List (Option (Nat × R))) (keep : Prop)
    (J : Nat → Prop) (r r' : Run C R) : Prop where
  length : r'.parts.length = r.parts.length
  parts : ∀ j : Nat, (J j → r'.parts[j]? = r.parts[j]?.map fun p => (g p).2) ∧
    (¬ J j → r'.parts[j]? = r.parts[j]?)
  status : ∀ t : Nat, r'.status.getLsbD t = true ↔ r.status.getLsbD t = true ∨
    ∃ (j : Nat) (p : Part C), J j ∧ r.parts[j]? = some p ∧ (BitVec.ofInt 32 (g p).1).getLsbD t = true
  untouched : ∀ i : Nat, (∀ (j : Nat) (p : Part C), J j → r.parts[j]? = some p → Avoids (ws p) i) →
    r'.out i = r.out i
  written : ∀ (i j : Nat) (p : Part C), J j → r.parts[j]? = some p →
    (∀ (k : Nat) (q : Part C), J k → k ≠ j → r.parts[k]? = some q → Avoids (ws q) i) →
    r'.out i = (ws p).foldl applyWrite r.out i
  recs : keep → r'.recs = r.recs

theorem loop_done {f : One C R} {P : Part C → Prop} {g : Part C → Int × Part C}
    {ws : Part C → List (Option (Nat × R))} {keep : Prop} (hA : Acts f P g ws keep) {stride : Nat}
    (hs : 0 < stride) : ∀ (n pidx : Nat) (r : Run C R), r.parts.length ≤ pidx + n →
    (∀ (j : Nat) (p : Part C), Sel pidx stride j → r.parts[j]? = some p → P p) →
    ∃ r', loop f stride n pidx r = .ok r' ∧ Done g ws keep (Sel pidx stride) r r' := by
  intro n
  have stop : ∀ (pidx : Nat) (r : Run C R), r.parts.length ≤ pidx →
      Done g ws keep (Sel pidx stride) r r := by
    intro pidx r hl
    have hnone : ∀ j : Nat, Sel pidx stride j → r.parts[j]? = none := fun j hj =>
      List.getElem?_eq_none (by have := hj.1; omega)
    refine ⟨rfl, fun j => ⟨fun hj => by rw [hnone j hj]; rfl, fun _ => rfl⟩, fun t => ⟨Or.inl, ?_⟩,
      fun _ _ => rfl, ?_, fun _ => rfl⟩
    · rintro (h | ⟨j, p, hj, hp, _⟩)
      · exact h
      · rw [hnone j hj] at hp; cases hp
    · intro i j p hj hp
      rw [hnone j hj] at hp; cases hp
  induction n with
  | zero =>
    intro pidx r hl _
    exact ⟨r, rfl, stop pidx r (by omega)⟩
  | succ n ih =>
    intro pidx r hl hP
    by_cases hlt : pidx < r.parts.length
    · obtain ⟨p, hp⟩ : ∃ p, r.parts[pidx]? = some p := ⟨_, List.getElem?_eq_getElem hlt⟩
      have hsel : Sel pidx stride pidx := (sel_step hs).2 (Or.inl rfl)
      obtain ⟨recs, hk, hf⟩ := hA ⟨⟨p, r.out⟩, r.recs⟩ (hP pidx p hsel hp)
      dsimp only at hf hk
      have hone : runOne f pidx r = .ok ⟨r.status ||| BitVec.ofInt 32 (g p).1,
          r.parts.set pidx (g p).2, (ws p).foldl applyWrite r.out, recs⟩ := by
        unfold runOne
        rw [hp]
        dsimp only
        rw [hf]
        rfl
      have hother : ∀ j : Nat, j ≠ pidx → (r.parts.set pidx (g p).2)[j]? = r.parts[j]? := fun j hj =>
        List.getElem?_set_ne (Ne.symm hj)
      have hne : ∀ j : Nat, Sel (pidx + stride) stride j → j ≠ pidx := fun j hj h => by
        have := hj.1; omega
      obtain ⟨r', h1, h2⟩ := ih (pidx + stride) ⟨r.status ||| BitVec.ofInt 32 (g p).1,
        r.parts.set pidx (g p).2, (ws p).foldl applyWrite r.out, recs⟩
        (by rw [List.length_set]; omega)
        (fun j q hj hq => hP j q ((sel_step hs).2 (Or.inr hj)) (by
          rw [← hother j (hne j hj)]; exact hq))
      refine ⟨r', ?_, ?_, ?_, ?_, ?_, ?_, ?_⟩
      · rw [loop, if_pos hlt, hone]
        exact h1
      · rw [h2.length, List.length_set]
      · intro j
        constructor
        · intro hj
          rcases (sel_step hs).1 hj with rfl | hj'
          · rw [(h2.parts j).2 (not_sel_lt (by omega)), hp]
            dsimp only
            rw [List.getElem?_set_self hlt]; rfl
          · rw [(h2.parts j).1 hj']
            dsimp only
            rw [hother j (hne j hj')]
        · intro hj
          have hj1 : j ≠ pidx := fun h => hj ((sel_step hs).2 (Or.inl h))
          have hj2 : ¬ Sel (pidx + stride) stride j := fun h => hj ((sel_step hs).2 (Or.inr h))
          rw [(h2.parts j).2 hj2]
          exact hother j hj1
      · intro t
        rw [h2.status t]
        dsimp only
        rw [BitVec.getLsbD_or, Bool.or_eq_true]
        constructor
        · rintro ((h | h) | ⟨j, q, hj, hq, h⟩)
          · exact Or.inl h
          · exact Or.inr ⟨pidx, p, hsel, hp, h⟩
          · exact Or.inr ⟨j, q, (sel_step hs).2 (Or.inr hj), by rw [← hother j (hne j hj)]; exact hq, h⟩
        · rintro (h | ⟨j, q, hj, hq, h⟩)
          · exact Or.inl (Or.inl h)
          · rcases (sel_step hs).1 hj with rfl | hj'
            · rw [hp] at hq
              cases hq
              exact Or.inl (Or.inr h)
            · exact Or.inr ⟨j, q, hj', by rw [hother j (hne j hj')]; exact hq, h⟩
      · intro i hi
        rw [h2.untouched i (fun j q hj hq => hi j q ((sel_step hs).2 (Or.inr hj)) (by
          rw [← hother j (hne j hj)]; exact hq))]
        exact writes_avoid _ (hi pidx p hsel hp) _
      · intro i j q hj hq hk
        rcases (sel_step hs).1 hj with rfl | hj'
        · rw [hp] at hq
          cases hq
          rw [h2.untouched i (fun k x hk' hx => hk k x ((sel_step hs).2 (Or.inr hk')) (hne k hk') (by
            rw [← hother k (hne k hk')]; exact hx))]
        · rw [h2.written i j q hj' (by rw [hother j (hne j hj')]; exact hq)
            (fun k x hk' hkj hx => hk k x ((sel_step hs).2 (Or.inr hk')) hkj (by
              rw [← hother k (hne k hk')]; exact hx))]
          exact writes_local _ (writes_avoid _ (hk pidx p hsel (hne j hj').symm hp) _)
      · intro hkeep
        rw [h2.recs hkeep]
        exact hk hkeep
    · refine ⟨r, ?_, stop pidx r (by omega)⟩
      rw [loop, if_neg hlt]

/-! ## Sets -/

/-- particle `j` of set `i` -/
def Mem.at (m : Mem C R) (i j : Nat) : Option (Part C) :=
  match m.objs[i]? with
  | some (some ps) => ps[j]?
  | _ => none

theorem Mem.at_some {m : Mem C R} {i : Nat} {ps : List (Part C)} (h : m.objs[i]? = some (some ps))
    (j : Nat) : m.at i j = ps[j]? := by
  unfold Mem.at; rw [h]

theorem Mem.at_eq_some {m : Mem C R} {i j : Nat} {p : Part C} :
    m.at i j = some p ↔ ∃ ps, m.objs[i]? = some (some ps) ∧ ps[j]? = some p := by
  unfold Mem.at
  constructor
  · intro h
    split at h
    · rename_i ps hps; exact ⟨ps, hps, h⟩
    · cases h
  · rintro ⟨ps, h1, h2⟩
    rw [h1]; exact h2

theorem Mem.at_congr {m m' : Mem C R} {i : Nat} (h : m'.objs[i]? = m.objs[i]?) (j : Nat) :
    m'.at i j = m.at i j := by
  unfold Mem.at; rw [h]

/-- What tracking the particles at the places `J` leaves of `m` and the status. -/
structure Whole (g : Part C → Int × Part C) (ws : Part C → List (Option (Nat × R))) (keep : Prop)
    (J : Nat → Nat → Prop) (s s' : Status) (m m' : Mem C R) : Prop where
  shape : ∀ i : Nat, m'.objs[i]?.map (Option.map List.length) = m.objs[i]?.map (Option.map List.length)
  parts : ∀ i j : Nat, (J i j → m'.at i j = (m.at i j).map fun p => (g p).2) ∧
    (¬ J i j → m'.at i j = m.at i j)
  status : ∀ t : Nat, s'.getLsbD t = true ↔ s.getLsbD t = true ∨
    ∃ (i j : Nat) (p : Part C), J i j ∧ m.at i j = some p ∧ (BitVec.ofInt 32 (g p).1).getLsbD t = true
  untouched : ∀ k : Nat, (∀ (i j : Nat) (p : Part C), J i j → m.at i j = some p → Avoids (ws p) k) →
    m'.out k = m.out k
  written : ∀ (k i j : Nat) (p : Part C), J i j → m.at i j = some p →
    (∀ (i' j' : Nat) (q : Part C), J i' j' → ¬ (i' = i ∧ j' = j) → m.at i' j' = some q →
      Avoids (ws q) k) → m'.out k = (ws p).foldl applyWrite m.out k
  recs : keep → m'.recs = m.recs

section whole
variable {g : Part C → Int × Part C} {ws : Part C → List (Option (Nat × R))} {keep : Prop}

/-- Nothing at the places `J`: nothing is done. -/
theorem Whole.nothing {J : Nat → Nat → Prop} {m : Mem C R} (h : ∀ i j, J i j → m.at i j = none)
    (s : Status) : Whole g ws keep J s s m m := by
  refine ⟨fun _ => rfl, fun i j => ⟨fun hj => by rw [h i j hj]; rfl, fun _ => rfl⟩,
    fun t => ⟨Or.inl, ?_⟩, fun _ _ => rfl, ?_, fun _ => rfl⟩
  · rintro (h' | ⟨i, j, p, hj, hp, _⟩)
    · exact h'
    · rw [h i j hj] at hp; cases hp
  · intro k i j p hj hp
    rw [h i j hj] at hp; cases hp

/-- One after the other, at different places. -/
theorem Whole.comp {J1 J2 : Nat → Nat → Prop} {s0 s1 s2 : Status} {m m1 m2 : Mem C R}
    (h1 : Whole g ws keep J1 s0 s1 m m1) (h2 : Whole g ws keep J2 s1 s2 m1 m2)
    (hd : ∀ i j, J1 i j → ¬ J2 i j) :
    Whole g ws keep (fun i j => J1 i j ∨ J2 i j) s0 s2 m m2 := by
  have hat : ∀ i j, J2 i j → m1.at i j = m.at i j := fun i j hj =>
    (h1.parts i j).2 (fun h => hd i j h hj)
  refine ⟨fun i => (h2.shape i).trans (h1.shape i), fun i j => ⟨?_, ?_⟩, fun t => ?_, ?_, ?_,
    fun hk => (h2.recs hk).trans (h1.recs hk)⟩
  · rintro (h | h)
    · rw [(h2.parts i j).2 (hd i j h), (h1.parts i j).1 h]
    · rw [(h2.parts i j).1 h, hat i j h]
  · intro h
    rw [(h2.parts i j).2 (fun h' => h (Or.inr h')), (h1.parts i j).2 (fun h' => h (Or.inl h'))]
  · rw [h2.status t, h1.status t]
    constructor
    · rintro ((h | ⟨i, j, p, hj, hp, h⟩) | ⟨i, j, p, hj, hp, h⟩)
      · exact Or.inl h
      · exact Or.inr ⟨i, j, p, Or.inl hj, hp, h⟩
      · exact Or.inr ⟨i, j, p, Or.inr hj, (hat i j hj) ▸ hp, h⟩
    · rintro (h | ⟨i, j, p, hj | hj, hp, h⟩)
      · exact Or.inl (Or.inl h)
      · exact Or.inl (Or.inr ⟨i, j, p, hj, hp, h⟩)
      · exact Or.inr ⟨i, j, p, hj, by rw [hat i j hj]; exact hp, h⟩
  · intro k hk
    rw [h2.untouched k (fun i j p hj hp => hk i j p (Or.inr hj) ((hat i j hj) ▸ hp)),
      h1.untouched k (fun i j p hj hp => hk i j p (Or.inl hj) hp)]
  · intro k i j p hj hp ho
    rcases hj with hj | hj
    · rw [h2.untouched k (fun i' j' q hj' hq => ho i' j' q (Or.inr hj')
        (fun h => hd i j hj (h.1 ▸ h.2 ▸ hj')) ((hat i' j' hj') ▸ hq))]
      exact h1.written k i j p hj hp (fun i' j' q hj' hne hq => ho i' j' q (Or.inl hj') hne hq)
    · rw [h2.written k i j p hj (by rw [hat i j hj]; exact hp)
        (fun i' j' q hj' hne hq => ho i' j' q (Or.inr hj') hne ((hat i' j' hj') ▸ hq))]
      refine writes_local _ (h1.untouched k fun i' j' q hj' hq => ho i' j' q (Or.inl hj') ?_ hq)
      rintro ⟨rfl, rfl⟩
      exact hd _ _ hj' hj

theorem Whole.congr {J J' : Nat → Nat → Prop} {s s' : Status} {m m' : Mem C R}
    (h : Whole g ws keep J s s' m m') (hJ : ∀ i j, J i j ↔ J' i j) : Whole g ws keep J' s s' m m' := by
  have : J = J' := by funext i j; exact propext (hJ i j)
  exact this ▸ h

theorem Whole.or {J : Nat → Nat → Prop} {s' : Status} {m m' : Mem C R}
    (h : Whole g ws keep J 0 s' m m') (s : Status) : Whole g ws keep J s (s ||| s') m m' := by
  refine ⟨h.shape, h.parts, fun t => ?_, h.untouched, h.written, h.recs⟩
  rw [BitVec.getLsbD_or, Bool.or_eq_true, h.status t]
  simp

theorem loopSet_whole {f : One C R} {P : Part C → Prop} (hA : Acts f P g ws keep) {m : Mem C R}
    {set : Nat} {ps : List (Part C)} (hps : m.objs[set]? = some (some ps)) {pidx stride : Int}
    (h0 : 0 ≤ pidx) (hs : 0 < stride)
    (hP : ∀ (j : Nat) (p : Part C), Sel pidx.toNat stride.toNat j → ps[j]? = some p → P p) :
    ∃ st m', loopSet f m set ps pidx stride = .ok (st, m') ∧
      Whole g ws keep (fun i j => i = set ∧ Sel pidx.toNat stride.toNat j) 0 st m m' := by
  unfold loopSet
  by_cases hlt : pidx < ps.length
  · obtain ⟨r, h1, h2⟩ := loop_done hA (stride := stride.toNat) (by omega) ps.length pidx.toNat
      ⟨0, ps, m.out, m.recs⟩ (by simp) hP
    rw [if_pos hlt, if_pos ⟨h0, hs⟩, h1]
    refine ⟨_, _, rfl, ?_⟩
    have hlen : set < m.objs.length := (List.getElem?_eq_some_iff.1 hps).1
    have hat : ∀ j, m.at set j = ps[j]? := fun j => Mem.at_some hps j
    have hobj : ∀ i, i ≠ set → (m.objs.set set (some r.parts))[i]? = m.objs[i]? := fun i hi =>
      List.getElem?_set_ne (Ne.symm hi)
    have hobj' : (m.objs.set set (some r.parts))[set]? = some (some r.parts) :=
      List.getElem?_set_self hlen
    refine ⟨fun i => ?_, fun i j => ?_, fun t => ?_, ?_, ?_, h2.recs⟩
    · by_cases hi : i = set
      · subst hi
        dsimp only
        rw [hobj', hps]
        simp [h2.length]
      · dsimp only
        rw [hobj i hi]
    · by_cases hi : i = set
      · subst hi
        rw [Mem.at_some (m := ⟨m.objs.set i (some r.parts), r.out, r.recs⟩) hobj', hat]
        exact ⟨fun h => (h2.parts j).1 h.2, fun h => (h2.parts j).2 (fun h' => h ⟨rfl, h'⟩)⟩
      · exact ⟨fun h => absurd h.1 hi, fun _ => Mem.at_congr (hobj i hi) j⟩
    · rw [h2.status t]
      constructor
      · rintro (h | ⟨j, p, hj, hp, h⟩)
        · exact Or.inl h
        · exact Or.inr ⟨set, j, p, ⟨rfl, hj⟩, by rw [hat]; exact hp, h⟩
      · rintro (h | ⟨i, j, p, ⟨rfl, hj⟩, hp, h⟩)
        · exact Or.inl h
        · exact Or.inr ⟨j, p, hj, by rw [← hat]; exact hp, h⟩
    · intro k hk
      exact h2.untouched k fun j p hj hp => hk set j p ⟨rfl, hj⟩ (by rw [hat]; exact hp)
    · rintro k i j p ⟨rfl, hj⟩ hp ho
      exact h2.written k j p hj (by rw [← hat]; exact hp) fun j' q hj' hne hq =>
        ho i j' q ⟨rfl, hj'⟩ (fun h => hne h.2) (by rw [hat]; exact hq)
  · rw [if_neg hlt]
    refine ⟨0, m, rfl, Whole.nothing ?_ 0⟩
    rintro i j ⟨rfl, hj⟩
    rw [Mem.at_some hps]
    exact List.getElem?_eq_none (by have := hj.1; omega)

theorem kernelOn_whole {f : One C R} {P : Part C → Prop} (hA : Acts f P g ws keep) {m : Mem C R}
    {set : Nat} (hlen : set < m.objs.length) {pidx stride : Int} (h0 : 0 ≤ pidx) (hs : 0 < stride)
    (hP : ∀ (j : Nat) (p : Part C), Sel pidx.toNat stride.toNat j → m.at set j = some p → P p) :
    ∃ st m', kernelOn f m set pidx stride = .ok (st, m') ∧
      Whole g ws keep (fun i j => i = set ∧ Sel pidx.toNat stride.toNat j) 0 st m m' := by
  unfold kernelOn
  cases hobj : m.objs[set]? with
  | none => exact absurd (List.getElem?_eq_none_iff.1 hobj) (by omega)
  | some o =>
    cases o with
    | none =>
      refine ⟨0, m, rfl, Whole.nothing ?_ 0⟩
      rintro i j ⟨rfl, _⟩
      unfold Mem.at; rw [hobj]
    | some ps => exact loopSet_whole hA hobj h0 hs fun j p hj hp => hP j p hj (by
        rw [Mem.at_some hobj]; exact hp)

theorem Whole.length {J : Nat → Nat → Prop} {s s' : Status} {m m' : Mem C R}
    (h : Whole g ws keep J s s' m m') : m'.objs.length = m.objs.length := by
  apply Nat.le_antisymm
  · refine Nat.le_of_not_lt fun hlt => ?_
    have := h.shape m.objs.length
    rw [List.getElem?_eq_getElem hlt, List.getElem?_eq_none (Nat.le_refl _)] at this
    cases this
  · refine Nat.le_of_not_lt fun hlt => ?_
    have := h.shape m'.objs.length
    rw [List.getElem?_eq_getElem hlt, List.getElem?_eq_none (Nat.le_refl _)] at this
    cases this

theorem overSets_whole {f : One C R} {P : Part C → Prop} (hA : Acts f P g ws keep) :
    ∀ (is : List Nat) (s : Status) (m : Mem C R), is.Nodup → (∀ i ∈ is, i < m.objs.length) →
    (∀ (i j : Nat) (p : Part C), i ∈ is → m.at i j = some p → P p) →
    ∃ st m', overSets (fun i m => kernelOn f m i 0 1) is s m = .ok (st, m') ∧
      Whole g ws keep (fun i _ => i ∈ is) s st m m'
  | [], s, m, _, _, _ => ⟨s, m, rfl, Whole.nothing (fun _ _ h => by simp at h) s⟩
  | i :: is, s, m, hn, hl, hP => by
    obtain ⟨s1, m1, h1, w1⟩ := kernelOn_whole hA (hl i (by simp)) (pidx := 0) (stride := 1)
      (by decide) (by decide) (fun j p _ hp => hP i j p (by simp) hp)
    have hn' := List.nodup_cons.1 hn
    have hsame : ∀ (i' j : Nat), i' ∈ is → m1.at i' j = m.at i' j := fun i' j hi' =>
      (w1.parts i' j).2 (fun h => hn'.1 (h.1 ▸ hi'))
    obtain ⟨s2, m2, h2, w2⟩ := overSets_whole hA is (s ||| s1) m1 hn'.2
      (fun i' hi' => by rw [w1.length]; exact hl i' (by simp [hi']))
      (fun i' j p hi' hp => hP i' j p (by simp [hi']) (by rw [← hsame i' j hi']; exact hp))
    refine ⟨s2, m2, ?_, ((w1.or s).comp w2 ?_).congr fun i' j => ?_⟩
    · rw [overSets, h1]
      exact h2
    · rintro i' j ⟨rfl, _⟩ h
      exact hn'.1 h
    · simp only [List.mem_cons]
      exact or_congr_left (and_iff_left (sel_all j))

theorem onSets_whole {f : One C R} {P : Part C → Prop} (hA : Acts f P g ws keep) (is : List Nat)
    (m : Mem C R) (hne : is ≠ []) (hn : is.Nodup) (hl : ∀ i ∈ is, i < m.objs.length)
    (hP : ∀ (i j : Nat) (p : Part C), i ∈ is → m.at i j = some p → P p) :
    ∃ st m', onSets (fun i m => kernelOn f m i 0 1) is m = .ok (st, m') ∧
      Whole g ws keep (fun i _ => i ∈ is) 0 st m m' := by
  match is, hne with
  | [i], _ =>
    obtain ⟨s1, m1, h1, w1⟩ := kernelOn_whole hA (hl i (by simp)) (pidx := 0) (stride := 1)
      (by decide) (by decide) (fun j p _ hp => hP i j p (by simp) hp)
    refine ⟨s1, m1, h1, w1.congr fun i' j => ?_⟩
    simp only [List.mem_singleton]
    exact and_iff_left (sel_all j)
  | i :: j :: is, _ => exact overSets_whole hA (i :: j :: is) 0 m hn hl hP

end whole

/-! ## The tracking functions -/

/-- `F` as functions of the particle: status and particle `g`, writes `ws`. -/
structure Split (S : Sem E C R) (lat : List E) (F : Track.World C R → Int × Track.World C R)
    (g : Part C → Int × Part C) (ws : Part C → List (Option (Nat × R))) : Prop where
  eq : ∀ p o, F ⟨p, o⟩ = ((g p).1, ⟨(g p).2, (ws p).foldl applyWrite o⟩)
  status : ∀ p, StatusOf S lat (g p).1
  writes : ∀ p, ∀ w ∈ ws p, WriteOf S lat p.id w

theorem exists_split {S : Sem E C R} {lat : List E} {F : Track.World C R → Int × Track.World C R}
    (h : ∀ p, PureAt S lat F p) : ∃ g ws, Split S lat F g ws := by
  choose st q ws h1 h2 h3 h4 using h
  exact ⟨fun p => (st p, q p), ws, h1, h3, h4⟩

theorem untilOne_acts {S : Sem E C R} {lat : List E} {n : Int} {g : Part C → Int × Part C}
    {ws : Part C → List (Option (Nat × R))} (h : Split S lat (trackUntil S lat n) g ws) :
    Acts (untilOne S lat n) (fun _ => True) g ws True := fun v _ =>
  ⟨v.recs, fun _ => rfl, by
    obtain ⟨⟨p, o⟩, recs⟩ := v
    unfold untilOne
    rw [h.eq p o]⟩

theorem lineOne_acts {S : Sem E C R} {line : List E} {fin : Bool} {g : Part C → Int × Part C}
    {ws : Part C → List (Option (Nat × R))} (h : Split S line (trackLine S line fin) g ws) :
    Acts (lineOne S line fin) (fun _ => True) g ws True := fun v _ =>
  ⟨v.recs, fun _ => rfl, by
    obtain ⟨⟨p, o⟩, recs⟩ := v
    unfold lineOne
    rw [h.eq p o]⟩

/-- A status of tracking is one of 32 bits if those of the elements are. -/
theorem ofInt_status {S : Sem E C R} {lat : List E}
    (hS : ∀ e ∈ lat, ∀ p, -2 ^ 31 ≤ (S.dispatch e p).status ∧ (S.dispatch e p).status < 2 ^ 31) {s : Int}
    (h : StatusOf S lat s) : BitVec.ofInt 32 s = 0#32 ↔ s = 0 := by
  have hb : -2 ^ 31 ≤ s ∧ s < 2 ^ 31 := by
    rcases h with rfl | rfl | ⟨e, he, p, rfl⟩
    · decide
    · decide
    · exact hS e he p
  constructor
  · intro h0
    have := congrArg BitVec.toInt h0
    rw [BitVec.toInt_ofInt] at this
    have h2 : (0#32 : BitVec 32).toInt = 0 := by decide
    rw [h2] at this
    rw [Int.bmod_eq_of_le (by omega) (by omega)] at this
    exact this
  · rintro rfl; rfl

theorem eq_zero_iff_bits {w : Nat} (x : BitVec w) : x = 0#w ↔ ∀ t, x.getLsbD t ≠ true := by
  constructor
  · rintro rfl t h
    simp at h
  · intro h
    apply BitVec.eq_of_getLsbD_eq
    intro t _
    have := h t
    simpa using this

theorem Whole.status_zero {g : Part C → Int × Part C} {ws : Part C → List (Option (Nat × R))}
    {keep : Prop} {J : Nat → Nat → Prop} {s : Status} {m m' : Mem C R}
    (h : Whole g ws keep J 0 s m m') : s = 0#32 ↔
      ∀ (i j : Nat) (p : Part C), J i j → m.at i j = some p → BitVec.ofInt 32 (g p).1 = 0#32 := by
  rw [eq_zero_iff_bits]
  constructor
  · intro hz i j p hj hp
    rw [eq_zero_iff_bits]
    exact fun t ht => hz t ((h.status t).2 (Or.inr ⟨i, j, p, hj, hp, ht⟩))
  · intro hz t ht
    rcases (h.status t).1 ht with h0 | ⟨i, j, p, hj, hp, h1⟩
    · simp at h0
    · exact (eq_zero_iff_bits _).1 (hz i j p hj hp) t h1

/-- An object none of whose particles is tracked stays as it is. -/
theorem Whole.object {g : Part C → Int × Part C} {ws : Part C → List (Option (Nat × R))}
    {keep : Prop} {J : Nat → Nat → Prop} {s s' : Status} {m m' : Mem C R}
    (h : Whole g ws keep J s s' m m') {i : Nat} (hi : ∀ j, ¬ J i j) : m'.objs[i]? = m.objs[i]? := by
  have hsh := h.shape i
  have hat : ∀ j, m'.at i j = m.at i j := fun j => (h.parts i j).2 (hi j)
  cases h1 : m.objs[i]? with
  | none =>
    rw [h1] at hsh
    cases h2 : m'.objs[i]? with
    | none => rfl
    | some x => rw [h2] at hsh; cases hsh
  | some o =>
    rw [h1] at hsh
    cases h2 : m'.objs[i]? with
    | none => rw [h2] at hsh; cases hsh
    | some o' =>
      rw [h2] at hsh
      cases o with
      | none =>
        cases o' with
        | none => rfl
        | some qs => cases hsh
      | some ps =>
        cases o' with
        | none => cases hsh
        | some qs =>
          congr 2
          apply List.ext_getElem?
          intro j
          rw [← Mem.at_some h1, ← Mem.at_some h2]
          exact hat j

/-- A set all of whose particles are tracked. -/
theorem Whole.set {g : Part C → Int × Part C} {ws : Part C → List (Option (Nat × R))}
    {keep : Prop} {J : Nat → Nat → Prop} {s s' : Status} {m m' : Mem C R}
    (h : Whole g ws keep J s s' m m') {i : Nat} {ps : List (Part C)}
    (hps : m.objs[i]? = some (some ps)) (hi : ∀ j, J i j) :
    m'.objs[i]? = some (some (ps.map fun p => (g p).2)) := by
  have hsh := h.shape i
  rw [hps] at hsh
  have hat : ∀ j, m'.at i j = (m.at i j).map fun p => (g p).2 := fun j => (h.parts i j).1 (hi j)
  cases h2 : m'.objs[i]? with
  | none => rw [h2] at hsh; cases hsh
  | some o' =>
    rw [h2] at hsh
    cases o' with
    | none => cases hsh
    | some qs =>
      congr 2
      apply List.ext_getElem?
      intro j
      rw [← Mem.at_some h2, hat j, Mem.at_some hps, List.getElem?_map]

end SixTrack.JobTrack
