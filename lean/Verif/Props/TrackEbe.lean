import Verif.Props.Track

/-!
# Property C33: element-by-element tracking only observes
-/

namespace SixTrack

open Track EBE

variable {E C R : Type}

namespace Track

/-- Record index of a particle; `-1` if there is none. -/
def idxOf (cfg : Cfg) (p : Part C) : Int :=
  match cfg.storeIndex p.id p.atElement p.atTurn with
  | .ok i => i
  | .ub => -1

/-- Store a particle in its record. -/
def storeRec (cfg : Cfg) (nn : Int) (recs : Nat → Part C) (p : Part C) : Nat → Part C :=
  if 0 ≤ idxOf cfg p ∧ idxOf cfg p < nn then Particles.setAt recs (idxOf cfg p).toNat p else recs

/-- States of the particle just before each executed element of a turn. -/
def traceTurn (S : Sem E C R) : List E → World C R → List (Part C)
  | [], _ => []
  | e :: es, w => w.part ::
      (if (S.run e w).1 = 0 ∧ (S.run e w).2.part.notLost then
        traceTurn S es ((S.run e w).2.map Part.incElem) else [])

/-- The same over several turns. -/
def traceLoop (S : Sem E C R) (lat : List E) (start untilTurn : Int) : Nat → World C R → List (Part C)
  | 0, _ => []
  | n + 1, w => traceTurn S lat w ++
      (if (turnElems S lat 0 w).2.1 = true ∧ w.part.atTurn + 1 < untilTurn then
        traceLoop S lat start untilTurn n ((turnElems S lat 0 w).2.2.map (S.endTurn start)) else [])

theorem turnElems_atElement_id (S : Sem E C R) (es : List E) (s : Int) (w : World C R) :
    (turnElems S es s w).2.2.part.id = w.part.id := by
  induction es generalizing s w with
  | nil => rfl
  | cons e es ih =>
    simp only [turnElems]
    split
    · rw [ih]; rfl
    · rfl

theorem ebeTurn_eq (S : Sem E C R) (cfg : Cfg) (nn partId start untilTurn : Int)
    (es : List E) (hes : es ≠ []) (atE atT s : Int) (v : EWorld C R)
    (h1 : v.w.part.id = partId) (h2 : v.w.part.atElement = atE) (h3 : v.w.part.atTurn = atT)
    (hdef : ∀ k : Nat, k < es.length → ∃ i, cfg.storeIndex partId (atE + k) atT = .ok i) :
    ebeTurn S cfg nn partId start untilTurn es atE atT s v =
      .ok (if (turnElems S es s v.w).2.1 = true then
          ((turnElems S es s v.w).1, decide (atT + 1 < untilTurn),
            ⟨(turnElems S es s v.w).2.2.map (S.endTurn start),
              (traceTurn S es v.w).foldl (storeRec cfg nn) v.recs⟩)
        else ((turnElems S es s v.w).1, false,
            ⟨(turnElems S es s v.w).2.2, (traceTurn S es v.w).foldl (storeRec cfg nn) v.recs⟩)) := by
  induction es generalizing atE s v with
  | nil => exact absurd rfl hes
  | cons e es ih =>
    obtain ⟨i, hi⟩ := hdef 0 (by simp)
    rw [show atE + ((0 : Nat) : Int) = atE by omega] at hi
    have hidx : idxOf cfg v.w.part = i := by unfold idxOf; rw [h1, h2, h3, hi]
    have hst : (if 0 ≤ i ∧ i < nn then Particles.setAt v.recs i.toNat v.w.part else v.recs) =
        storeRec cfg nn v.recs v.w.part := by unfold storeRec; rw [hidx]
    by_cases hc : (S.run e v.w).1 = 0 ∧ (S.run e v.w).2.part.notLost
    · have et : turnElems S (e :: es) s v.w =
          turnElems S es (S.run e v.w).1 ((S.run e v.w).2.map Part.incElem) := by
        simp only [turnElems]; rw [if_pos hc]
      have etr : traceTurn S (e :: es) v.w =
          v.w.part :: traceTurn S es ((S.run e v.w).2.map Part.incElem) := by
        simp only [traceTurn]; rw [if_pos hc]
      rw [et, etr, List.foldl_cons]
      simp only [ebeTurn, hi, Res.ok_bind, hst]
      rw [if_pos hc]
      by_cases hn : es = []
      · subst hn
        rw [if_neg (by simp)]
        simp [turnElems, traceTurn, World.map, Part.incElem, Sem.endTurn]
      · rw [if_pos hn]
        exact ih hn (atE + 1) _ ⟨_, _⟩ h1 (by show v.w.part.atElement + 1 = atE + 1; rw [h2]) h3 (by
          intro k hk
          obtain ⟨j, hj⟩ := hdef (k + 1) (by simpa using hk)
          refine ⟨j, ?_⟩
          rw [← hj]; congr 1; omega)
    · have et : turnElems S (e :: es) s v.w = ((S.run e v.w).1, false, (S.run e v.w).2) := by
        simp only [turnElems]; rw [if_neg hc]
      have etr : traceTurn S (e :: es) v.w = [v.w.part] := by
        simp only [traceTurn]; rw [if_neg hc]
      rw [et, etr, List.foldl_cons]
      simp only [ebeTurn, hi, Res.ok_bind, hst]
      rw [if_neg hc]
      simp

theorem turnElems_fail_marked {S : Sem E C R} {es : List E} (hS : LossIsMarked S es) {s : Int}
    {w : World C R} (hw : w.part.notLost) (h : (turnElems S es s w).2.1 = false) :
    (turnElems S es s w).2.2.map Part.markLost = (turnElems S es s w).2.2 := by
  induction es generalizing s w with
  | nil => cases h
  | cons e es ih =>
    by_cases hc : (S.run e w).1 = 0 ∧ (S.run e w).2.part.notLost
    · have et : turnElems S (e :: es) s w =
          turnElems S es (S.run e w).1 ((S.run e w).2.map Part.incElem) := by
        simp only [turnElems]; rw [if_pos hc]
      rw [et] at h ⊢
      exact ih (hS.mono fun _ => List.mem_cons_of_mem _) hc.2 h
    · have et : turnElems S (e :: es) s w = ((S.run e w).1, false, (S.run e w).2) := by
        simp only [turnElems]; rw [if_neg hc]
      rw [et]
      have hst : (S.dispatch e w.part).state = 0 := by
        apply hS e (by simp) w.part hw
        by_contra hn
        rw [not_or, Classical.not_not, Classical.not_not] at hn
        exact hc ⟨hn.1, hn.2⟩
      simp [World.map, Part.markLost, Sem.run, applyPart, hst]

theorem ebeLoop_eq (S : Sem E C R) (cfg : Cfg) (nn partId start untilTurn : Int)
    (lat : List E) (hS : LossIsMarked S lat) (hl : lat ≠ []) (n : Nat) (atT s : Int) (v : EWorld C R)
    (hn : (n : Int) = untilTurn - atT) (hpos : 0 < n)
    (h1 : v.w.part.id = partId) (h2 : v.w.part.atElement = start) (h3 : v.w.part.atTurn = atT)
    (hal : v.w.part.notLost) (hdef : ∀ t : Int, atT ≤ t → t < untilTurn → ∀ k : Nat, k < lat.length →
      ∃ i, cfg.storeIndex partId (start + k) t = .ok i) :
    ebeLoop S cfg nn lat partId start untilTurn n atT s v =
      .ok ((untilLoop S lat start untilTurn s v.w).1, ⟨(untilLoop S lat start untilTurn s v.w).2,
        (traceLoop S lat start untilTurn n v.w).foldl (storeRec cfg nn) v.recs⟩) := by
  induction n generalizing atT s v with
  | zero => omega
  | succ n ih =>
    simp only [ebeLoop]
    rw [ebeTurn_eq S cfg nn partId start untilTurn lat hl start atT s v h1 h2 h3
      (fun k hk => hdef atT (by omega) (by omega) k hk), Res.ok_bind]
    have hte : (turnElems S lat s v.w).2 = (turnElems S lat 0 v.w).2 := turnElems_s S lat s 0 v.w
    have ht : (turnElems S lat s v.w).2.2.part.atTurn = v.w.part.atTurn := turnElems_atTurn S lat s v.w
    have hid := turnElems_atElement_id S lat s v.w
    by_cases hc : (turnElems S lat s v.w).2.1 = true
    · rw [if_pos hc]
      have htr : traceLoop S lat start untilTurn (n + 1) v.w = traceTurn S lat v.w ++
          (if v.w.part.atTurn + 1 < untilTurn then traceLoop S lat start untilTurn n
            ((turnElems S lat s v.w).2.2.map (S.endTurn start)) else []) := by
        simp only [traceLoop]
        rw [← hte, hc]
        simp
      have hat : ((turnElems S lat s v.w).2.2.map (S.endTurn start)).part.atTurn = atT + 1 := by
        show (turnElems S lat s v.w).2.2.part.atTurn + 1 = atT + 1
        omega
      by_cases hlt : atT + 1 < untilTurn
      · rw [if_pos (by simpa using hlt)]
        rw [ih (atT + 1) _ _ (by omega) (by omega) (by show _ = _; exact hid.trans h1) rfl hat
          (turnElems_cont hc hal)
          (fun t a b k hk => hdef t (by omega) b k hk)]
        have hu : untilLoop S lat start untilTurn s v.w = untilLoop S lat start untilTurn
            (turnElems S lat s v.w).1 ((turnElems S lat s v.w).2.2.map (S.endTurn start)) := by
          rw [untilLoop]
          dsimp only
          rw [if_pos hc, if_pos (by omega)]
        rw [hu, htr, if_pos (by omega), List.foldl_append]
      · rw [if_neg (by simpa using hlt)]
        have hu : untilLoop S lat start untilTurn s v.w =
            ((turnElems S lat s v.w).1, ((turnElems S lat s v.w).2.2.map (S.endTurn start))) := by
          rw [untilLoop]
          dsimp only
          rw [if_pos hc, if_neg (by omega)]
        rw [hu, htr, if_neg (by omega), List.append_nil]
        rfl
    · rw [if_neg hc]
      have hf : (turnElems S lat s v.w).2.1 = false := by simpa using hc
      rw [if_neg (by simp)]
      have hu : untilLoop S lat start untilTurn s v.w =
          ((turnElems S lat s v.w).1, (turnElems S lat s v.w).2.2) := by
        rw [untilLoop]
        dsimp only
        rw [if_neg hc, turnElems_fail_marked hS hal hf]
      have htr : traceLoop S lat start untilTurn (n + 1) v.w = traceTurn S lat v.w := by
        simp only [traceLoop]
        rw [← hte, hf]
        simp
      rw [hu, htr]
      rfl

/-- Order in which the records are written. -/
def Before (p q : Part C) : Prop :=
  p.atTurn < q.atTurn ∨ (p.atTurn = q.atTurn ∧ p.atElement < q.atElement)

theorem traceTurn_facts (S : Sem E C R) (es : List E) (w : World C R) :
    (∀ p ∈ traceTurn S es w, p.id = w.part.id ∧ p.atTurn = w.part.atTurn ∧
      w.part.atElement ≤ p.atElement ∧ p.atElement < w.part.atElement + es.length) ∧
    (traceTurn S es w).Pairwise Before := by
  induction es generalizing w with
  | nil => simp [traceTurn]
  | cons e es ih =>
    simp only [traceTurn]
    by_cases hc : (S.run e w).1 = 0 ∧ (S.run e w).2.part.notLost
    · rw [if_pos hc]
      obtain ⟨i1, i2⟩ := ih ((S.run e w).2.map Part.incElem)
      have e1 : ((S.run e w).2.map Part.incElem).part.id = w.part.id := rfl
      have e2 : ((S.run e w).2.map Part.incElem).part.atTurn = w.part.atTurn := rfl
      have e3 : ((S.run e w).2.map Part.incElem).part.atElement = w.part.atElement + 1 := rfl
      rw [e1, e2, e3] at i1
      constructor
      · intro p hp
        rw [List.mem_cons] at hp
        simp only [List.length_cons]
        rcases hp with rfl | hp
        · exact ⟨rfl, rfl, by omega, by omega⟩
        · have := i1 p hp
          exact ⟨this.1, this.2.1, by omega, by omega⟩
      · rw [List.pairwise_cons]
        refine ⟨?_, i2⟩
        intro q hq
        have := i1 q hq
        exact Or.inr ⟨this.2.1.symm, by omega⟩
    · rw [if_neg hc]
      constructor
      · intro p hp
        rw [List.mem_singleton] at hp
        subst hp
        simp only [List.length_cons]
        exact ⟨by trivial, by trivial, by omega, by omega⟩
      · simp

theorem traceLoop_facts (S : Sem E C R) (lat : List E) (start untilTurn : Int) (n : Nat)
    (w : World C R) (he : w.part.atElement = start) (ht : w.part.atTurn < untilTurn) :
    (∀ p ∈ traceLoop S lat start untilTurn n w, p.id = w.part.id ∧ w.part.atTurn ≤ p.atTurn ∧
      p.atTurn < untilTurn ∧ start ≤ p.atElement ∧ p.atElement < start + lat.length) ∧
    (traceLoop S lat start untilTurn n w).Pairwise Before := by
  induction n generalizing w with
  | zero => simp [traceLoop]
  | succ n ih =>
    simp only [traceLoop]
    obtain ⟨t1, t2⟩ := traceTurn_facts S lat w
    rw [he] at t1
    by_cases hc : (turnElems S lat 0 w).2.1 = true ∧ w.part.atTurn + 1 < untilTurn
    · rw [if_pos hc]
      have hat : ((turnElems S lat 0 w).2.2.map (S.endTurn start)).part.atTurn = w.part.atTurn + 1 := by
        show (turnElems S lat 0 w).2.2.part.atTurn + 1 = w.part.atTurn + 1
        rw [turnElems_atTurn]
      have hid : ((turnElems S lat 0 w).2.2.map (S.endTurn start)).part.id = w.part.id :=
        turnElems_atElement_id S lat 0 w
      obtain ⟨i1, i2⟩ := ih ((turnElems S lat 0 w).2.2.map (S.endTurn start)) rfl (by omega)
      rw [hat, hid] at i1
      constructor
      · intro p hp
        rcases List.mem_append.1 hp with h | h
        · have := t1 p h; exact ⟨this.1, by omega, by omega, this.2.2.1, this.2.2.2⟩
        · have := i1 p h; exact ⟨this.1, by omega, by omega, this.2.2.2.1, this.2.2.2.2⟩
      · rw [List.pairwise_append]
        refine ⟨t2, i2, ?_⟩
        intro p hp q hq
        have := t1 p hp
        have := i1 q hq
        exact Or.inl (by omega)
    · rw [if_neg hc, List.append_nil]
      exact ⟨fun p hp => by have := t1 p hp; exact ⟨this.1, by omega, by omega, this.2.2.1, this.2.2.2⟩, t2⟩

/-- The state before element `k` of the turn, as plain tracking along the first `k` elements gives it,
is in the trace of the turn. -/
theorem mem_traceTurn (S : Sem E C R) (lat : List E) (hS : LossIsMarked S lat) (k : Nat) (hk : k < lat.length)
    (w : World C R) (hw : w.part.notLost) (hal : (lineLoop S (lat.take k) 0 w).2.part.notLost) :
    (lineLoop S (lat.take k) 0 w).2.part ∈ traceTurn S lat w ∧
    (lineLoop S (lat.take k) 0 w).2.part.atElement = w.part.atElement + k ∧
    (lineLoop S (lat.take k) 0 w).2.part.atTurn = w.part.atTurn := by
  induction lat generalizing k w with
  | nil => simp at hk
  | cons e es ih =>
    cases k with
    | zero => simp [lineLoop, traceTurn]
    | succ k =>
      rw [List.take_succ_cons] at hal ⊢
      by_cases hc : (S.run e w).1 = 0 ∧ (S.run e w).2.part.notLost
      · have e1 : lineLoop S (e :: es.take k) 0 w =
            lineLoop S (es.take k) 0 ((S.run e w).2.map Part.incElem) := by
          simp only [lineLoop]; rw [if_pos hc, hc.1]
        rw [e1] at hal ⊢
        obtain ⟨a, b, c⟩ := ih (hS.mono fun _ => List.mem_cons_of_mem _) k (by simpa using hk) ((S.run e w).2.map Part.incElem) hc.2 hal
        refine ⟨?_, ?_, c⟩
        · simp only [traceTurn]
          rw [if_pos hc]
          exact List.mem_cons_of_mem _ a
        · rw [b]
          show w.part.atElement + 1 + k = w.part.atElement + ((k + 1 : Nat) : Int)
          omega
      · have e1 : lineLoop S (e :: es.take k) 0 w = S.run e w := by
          simp only [lineLoop]; rw [if_neg hc]
        rw [e1] at hal
        exfalso
        apply hc
        refine ⟨?_, hal⟩
        by_contra hs
        have h2 := hS e (by simp) w.part hw (Or.inl hs)
        have h3 : (S.dispatch e w.part).state = 1 := hal
        omega

end Track

/-- "The state of the particle just before element `k` of turn `t`", in terms of plain tracking: track
until turn `t`, then along the first `k` elements. -/
def stateBefore (S : Sem E C R) (lat : List E) (t : Int) (k : Nat) (w : World C R) : Part C :=
  (trackLine S (lat.take k) false (trackUntil S lat t w).2).2.part

namespace Track

theorem trackLine_alive {S : Sem E C R} {l : List E} {w : World C R} (hw : w.part.notLost) :
    (trackLine S l false w).2 = (lineLoop S l 0 w).2 := by
  unfold trackLine
  dsimp only
  rw [if_pos hw, if_neg (by simp)]

theorem trackLine_lost {S : Sem E C R} {l : List E} {w : World C R} (hw : ¬ w.part.notLost) :
    (trackLine S l false w).2 = w := by
  unfold trackLine
  dsimp only
  rw [if_neg hw, if_neg (by simp)]

theorem mem_traceLoop (S : Sem E C R) (lat : List E) (hS : LossIsMarked S lat) (start untilTurn : Int)
    (n : Nat) (w : World C R) (hn : (n : Int) = untilTurn - w.part.atTurn)
    (he : w.part.atElement = start) (hw : w.part.notLost) (t : Int) (ht0 : w.part.atTurn ≤ t)
    (ht1 : t < untilTurn) (k : Nat) (hk : k < lat.length)
    (hal : (stateBefore S lat t k w).notLost) :
    stateBefore S lat t k w ∈ traceLoop S lat start untilTurn n w ∧
    (stateBefore S lat t k w).atElement = start + k ∧ (stateBefore S lat t k w).atTurn = t := by
  induction n generalizing w with
  | zero => omega
  | succ n ih =>
    have hl : lat ≠ [] := by intro h; subst h; simp at hk
    by_cases hte : t = w.part.atTurn
    · have e : stateBefore S lat t k w = (lineLoop S (lat.take k) 0 w).2.part := by
        unfold stateBefore
        rw [trackUntil_done (by omega), trackLine_alive hw]
      rw [e] at hal ⊢
      obtain ⟨a, b, c⟩ := mem_traceTurn S lat hS k hk w hw hal
      refine ⟨?_, by rw [b, he], by rw [c, hte]⟩
      simp only [traceLoop]
      exact List.mem_append_left _ a
    · have hat : (turnElems S lat 0 w).2.2.part.atTurn = w.part.atTurn := turnElems_atTurn S lat 0 w
      have hat' : ((turnElems S lat 0 w).2.2.map (S.endTurn start)).part.atTurn = w.part.atTurn + 1 := by
        show (turnElems S lat 0 w).2.2.part.atTurn + 1 = w.part.atTurn + 1
        rw [hat]
      have hres := C30_interrupt_resume S lat (w.part.atTurn + 1) t (by omega) w
      by_cases hc : (turnElems S lat 0 w).2.1 = true
      · have hal' := turnElems_cont hc hw
        have hone : (trackUntil S lat (w.part.atTurn + 1) w).2 =
            (turnElems S lat 0 w).2.2.map (S.endTurn start) := by
          rw [trackUntil_run hl (by omega) hw 0, he, untilLoop]
          dsimp only
          rw [if_pos hc, if_neg (by omega)]
        rw [hone] at hres
        have e : stateBefore S lat t k w =
            stateBefore S lat t k ((turnElems S lat 0 w).2.2.map (S.endTurn start)) := by
          unfold stateBefore; rw [hres]
        rw [e] at hal ⊢
        obtain ⟨a, b, c⟩ := ih ((turnElems S lat 0 w).2.2.map (S.endTurn start)) (by omega) rfl hal' (by omega) hal
        refine ⟨?_, b, c⟩
        simp only [traceLoop]
        rw [if_pos ⟨hc, by omega⟩]
        exact List.mem_append_right _ a
      · exfalso
        have hone : (trackUntil S lat (w.part.atTurn + 1) w).2 =
            (turnElems S lat 0 w).2.2.map Part.markLost := by
          rw [trackUntil_run hl (by omega) hw 0, he, untilLoop]
          dsimp only
          rw [if_neg hc]
        have hlost : ¬ ((turnElems S lat 0 w).2.2.map Part.markLost).part.notLost := by
          simp [World.map, Part.markLost, Part.notLost]
        rw [hone, trackUntil_lost hlost] at hres
        unfold stateBefore at hal
        rw [← hres, trackLine_lost hlost] at hal
        exact hlost hal

theorem foldl_storeRec_other (cfg : Cfg) (nn : Int) (l : List (Part C)) (recs : Nat → Part C) (i : Nat)
    (h : ∀ q ∈ l, idxOf cfg q ≠ i) : l.foldl (storeRec cfg nn) recs i = recs i := by
  induction l generalizing recs with
  | nil => rfl
  | cons q l ih =>
    rw [List.foldl_cons, ih _ (fun x hx => h x (List.mem_cons_of_mem _ hx))]
    unfold storeRec
    split
    · rename_i hr
      have := h q (by simp)
      rw [Particles.setAt, if_neg (by omega)]
    · rfl

theorem foldl_storeRec (cfg : Cfg) (nn : Int) (l : List (Part C)) (recs : Nat → Part C) (p : Part C)
    (hp : p ∈ l) (h0 : 0 ≤ idxOf cfg p) (h1 : idxOf cfg p < nn) (hpair : l.Pairwise Before)
    (hlast : ∀ q ∈ l, Before p q → idxOf cfg q ≠ idxOf cfg p) :
    l.foldl (storeRec cfg nn) recs (idxOf cfg p).toNat = p := by
  induction l generalizing recs with
  | nil => simp at hp
  | cons q l ih =>
    rw [List.foldl_cons]
    rw [List.pairwise_cons] at hpair
    rcases List.mem_cons.1 hp with rfl | hm
    · rw [foldl_storeRec_other]
      · unfold storeRec
        rw [if_pos ⟨h0, h1⟩, Particles.setAt, if_pos rfl]
      · intro q hq
        have := hlast q (List.mem_cons_of_mem _ hq) (hpair.1 q hq)
        omega
    · exact ih _ hm hpair.2 (fun x hx => hlast x (List.mem_cons_of_mem _ hx))

end Track

/-- Element-by-element tracking gives the same status, particle and monitor output as plain tracking,
for a particle that is alive and has non-negative id, element and turn.  What is missing: lost particles
(`C31_element_by_element_violated`), negative ids (`C33_negative_id_violated`), elements that report a
failure without marking the particle as lost (`C33_failure_violated`). -/
theorem C33_same_particles_partial (S : Sem E C R) {cfg : Cfg}
    {minP maxP minE maxE minT maxT : Int}
    (hcfg : ConfiguredFor cfg minP maxP minE maxE minT maxT false)
    (hcap : numRecords minP maxP minE maxE minT maxT < 2^63)
    (nn : Int) (lat : List E) (hS : LossIsMarked S lat) (hl : lat ≠ []) (untilTurn : Int) (v : EWorld C R)
    (hal : v.w.part.notLost) (hid : 0 ≤ v.w.part.id) (he : 0 ≤ v.w.part.atElement)
    (ht : 0 ≤ v.w.part.atTurn) :
    ∃ recs, trackEbe S cfg nn lat untilTurn v =
      .ok ((trackUntil S lat untilTurn v.w).1, ⟨(trackUntil S lat untilTurn v.w).2, recs⟩) := by
  by_cases hu : v.w.part.atTurn < untilTurn
  · unfold trackEbe trackUntil
    dsimp only
    rw [if_pos ⟨hl, by omega, by omega, by omega, by omega⟩, if_neg hl,
      if_pos ⟨rfl, by omega, hal⟩]
    rw [ebeLoop_eq S cfg nn _ _ untilTurn lat hS hl _ _ 0 v (by omega) (by omega) rfl rfl rfl hal]
    · exact ⟨_, rfl⟩
    · intro t _ _ k _
      by_cases hin : (minP ≤ v.w.part.id ∧ v.w.part.id ≤ maxP) ∧
          (minE ≤ v.w.part.atElement + k ∧ v.w.part.atElement + k ≤ maxE) ∧ (minT ≤ t ∧ t ≤ maxT)
      · obtain ⟨i, hi, -⟩ := C19_record_in_output hcfg hcap hin.1 hin.2.1 hin.2.2
        exact ⟨i, hi⟩
      · refine ⟨-1, C19_outside_not_stored hcfg ?_⟩
        by_cases hp : minP ≤ v.w.part.id ∧ v.w.part.id ≤ maxP
        · by_cases hq : minE ≤ v.w.part.atElement + k ∧ v.w.part.atElement + k ≤ maxE
          · by_cases h1 : t < minT
            · exact Or.inr (Or.inr (Or.inl h1))
            · refine Or.inr (Or.inr (Or.inr ⟨?_, rfl⟩))
              by_contra h2
              exact hin ⟨hp, hq, by omega, by omega⟩
          · exact Or.inr (Or.inl hq)
        · exact Or.inl hp
  · refine ⟨v.recs, ?_⟩
    unfold trackEbe trackUntil
    dsimp only
    rw [if_neg (fun h => hu (by have := h.2.1; omega)), if_neg hl,
      if_neg (fun h => hu (by have := h.2.1; omega))]

/-- The record kept for turn `t` and element `k` of the lattice holds the state of the particle just
before that element in that turn.  Output not in rolling mode; the other hypotheses as in
`C33_same_particles_partial`. -/
theorem C33_records_partial (S : Sem E C R) {cfg : Cfg}
    {minP maxP minE maxE minT maxT : Int}
    (hcfg : ConfiguredFor cfg minP maxP minE maxE minT maxT false)
    (hcap : numRecords minP maxP minE maxE minT maxT < 2^63)
    (lat : List E) (hS : LossIsMarked S lat) (untilTurn : Int) (v : EWorld C R)
    (hal : v.w.part.notLost) (hid : 0 ≤ v.w.part.id) (he : 0 ≤ v.w.part.atElement)
    (ht : 0 ≤ v.w.part.atTurn) (t : Int) (ht0 : v.w.part.atTurn ≤ t) (ht1 : t < untilTurn) (k : Nat)
    (hk : k < lat.length)
    (hreach : (stateBefore S lat t k v.w).notLost)
    (hinP : minP ≤ v.w.part.id ∧ v.w.part.id ≤ maxP)
    (hinE : minE ≤ v.w.part.atElement + k ∧ v.w.part.atElement + k ≤ maxE)
    (hinT : minT ≤ t ∧ t ≤ maxT) :
    ∃ s v' i, trackEbe S cfg (numRecords minP maxP minE maxE minT maxT) lat untilTurn v = .ok (s, v') ∧
      cfg.storeIndex v.w.part.id (v.w.part.atElement + k) t = .ok i ∧ 0 ≤ i ∧
      v'.recs i.toNat = stateBefore S lat t k v.w := by
  have hl : lat ≠ [] := by intro h; subst h; simp at hk
  have hu : v.w.part.atTurn < untilTurn := by omega
  have hdef : ∀ (e' t' : Int), ∃ i, cfg.storeIndex v.w.part.id e' t' = .ok i := by
    intro e' t'
    by_cases hin : (minE ≤ e' ∧ e' ≤ maxE) ∧ (minT ≤ t' ∧ t' ≤ maxT)
    · obtain ⟨i, hi, -⟩ := C19_record_in_output hcfg hcap hinP hin.1 hin.2
      exact ⟨i, hi⟩
    · refine ⟨-1, C19_outside_not_stored hcfg ?_⟩
      by_cases hq : minE ≤ e' ∧ e' ≤ maxE
      · by_cases h1 : t' < minT
        · exact Or.inr (Or.inr (Or.inl h1))
        · refine Or.inr (Or.inr (Or.inr ⟨?_, rfl⟩))
          by_contra h2
          exact hin ⟨hq, by omega, by omega⟩
      · exact Or.inr (Or.inl hq)
  obtain ⟨i, hi, hi0, hi1⟩ := C19_record_in_output hcfg hcap hinP hinE hinT
  have hgo : trackEbe S cfg (numRecords minP maxP minE maxE minT maxT) lat untilTurn v =
      ebeLoop S cfg (numRecords minP maxP minE maxE minT maxT) lat v.w.part.id v.w.part.atElement
        untilTurn (untilTurn - v.w.part.atTurn).toNat v.w.part.atTurn 0 v := by
    unfold trackEbe
    dsimp only
    rw [if_pos ⟨hl, by omega, by omega, by omega, by omega⟩]
  have hcall := hgo.trans (ebeLoop_eq S cfg (numRecords minP maxP minE maxE minT maxT)
      v.w.part.id v.w.part.atElement untilTurn lat hS hl (untilTurn - v.w.part.atTurn).toNat
      v.w.part.atTurn 0 v (by omega) (by omega) rfl rfl rfl hal
      (fun t _ _ k _ => hdef _ _))
  refine ⟨_, _, i, hcall, hi, hi0, ?_⟩
  obtain ⟨m1, m2, m3⟩ := mem_traceLoop S lat hS v.w.part.atElement untilTurn
    (untilTurn - v.w.part.atTurn).toNat v.w (by omega) rfl hal t ht0 ht1 k hk hreach
  obtain ⟨f1, f2⟩ := traceLoop_facts S lat v.w.part.atElement untilTurn
    (untilTurn - v.w.part.atTurn).toNat v.w rfl hu
  have hix : idxOf cfg (stateBefore S lat t k v.w) = i := by
    unfold idxOf
    rw [(f1 _ m1).1, m2, m3, hi]
  have := foldl_storeRec cfg (numRecords minP maxP minE maxE minT maxT) _ v.recs _ m1
    (by omega) (by omega) f2 (by
    intro q hq hb heq
    have fq := f1 q hq
    obtain ⟨j, hj⟩ := hdef q.atElement q.atTurn
    have hqj : idxOf cfg q = j := by unfold idxOf; rw [fq.1, hj]
    have hji : j = i := by omega
    subst hji
    by_cases hin : (minE ≤ q.atElement ∧ q.atElement ≤ maxE) ∧ (minT ≤ q.atTurn ∧ q.atTurn ≤ maxT)
    · obtain ⟨-, e1, e2⟩ := C19_records_distinct hcfg hcap hinP hinE hinT hinP hin.1 hin.2
        (hi.trans hj.symm)
      unfold Before at hb
      rw [m2, m3] at hb
      omega
    · have hout : cfg.storeIndex v.w.part.id q.atElement q.atTurn = .ok (-1) := by
        apply C19_outside_not_stored hcfg
        by_cases hq : minE ≤ q.atElement ∧ q.atElement ≤ maxE
        · by_cases h1 : q.atTurn < minT
          · exact Or.inr (Or.inr (Or.inl h1))
          · refine Or.inr (Or.inr (Or.inr ⟨?_, rfl⟩))
            by_contra h2
            exact hin ⟨hq, by omega, by omega⟩
        · exact Or.inr (Or.inl hq)
      rw [hj] at hout
      simp only [Res.ok_inj] at hout
      omega)
  rw [hix] at this
  exact this

/-- Rolling output: the same for the last turns kept.  `hov`: the products computed for the last turn
fit into 64 bit. -/
theorem C33_records_rolling_partial (S : Sem E C R) {cfg : Cfg}
    {minP maxP minE maxE minT maxT : Int}
    (hcfg : ConfiguredFor cfg minP maxP minE maxE minT maxT true)
    (hcap : numRecords minP maxP minE maxE minT maxT < 2^63)
    (lat : List E) (hS : LossIsMarked S lat) (untilTurn : Int) (v : EWorld C R)
    (hal : v.w.part.notLost) (hid : 0 ≤ v.w.part.id) (he : 0 ≤ v.w.part.atElement)
    (hmin : 0 ≤ minT) (ht : minT ≤ v.w.part.atTurn) (hu64 : untilTurn < 2^63)
    (hov : (untilTurn - minT) * ((maxP - minP + 1) * (maxE - minE + 1)) < 2^63)
    (t : Int) (ht0 : v.w.part.atTurn ≤ t) (ht1 : t < untilTurn) (k : Nat) (hk : k < lat.length)
    (hrecent : untilTurn - (maxT - minT + 1) ≤ t)
    (hreach : (stateBefore S lat t k v.w).notLost)
    (hinP : minP ≤ v.w.part.id ∧ v.w.part.id ≤ maxP)
    (hinE : minE ≤ v.w.part.atElement + k ∧ v.w.part.atElement + k ≤ maxE) :
    ∃ s v' i, trackEbe S cfg (numRecords minP maxP minE maxE minT maxT) lat untilTurn v = .ok (s, v') ∧
      cfg.storeIndex v.w.part.id (v.w.part.atElement + k) t = .ok i ∧ 0 ≤ i ∧
      v'.recs i.toNat = stateBefore S lat t k v.w := by
  have hl : lat ≠ [] := by intro h; subst h; simp at hk
  have hu : v.w.part.atTurn < untilTurn := by omega
  have hP := hcfg.1
  have hE := hcfg.2.1
  have hT := hcfg.2.2.1
  have hA : 1 ≤ (maxP - minP + 1) * (maxE - minE + 1) := one_le_mul' (by omega) (by omega)
  have hovt : ∀ t', minT ≤ t' → t' < untilTurn →
      (t' - minT + 1) * ((maxP - minP + 1) * (maxE - minE + 1)) < 2^63 := by
    intro t' h0 h1
    have := mul_le_mul_of_nonneg_right (show t' - minT + 1 ≤ untilTurn - minT by omega)
      (show 0 ≤ (maxP - minP + 1) * (maxE - minE + 1) by omega)
    omega
  have hdef : ∀ (e' t' : Int), minT ≤ t' → t' < untilTurn →
      (∃ i, cfg.storeIndex v.w.part.id e' t' = .ok i ∧ (minE ≤ e' ∧ e' ≤ maxE) ∧ 0 ≤ i ∧
        i < numRecords minP maxP minE maxE minT maxT) ∨
      (cfg.storeIndex v.w.part.id e' t' = .ok (-1) ∧ ¬ (minE ≤ e' ∧ e' ≤ maxE)) := by
    intro e' t' h0 h1
    by_cases hq : minE ≤ e' ∧ e' ≤ maxE
    · left
      have := C21_recent_turns_kept (T := t') hcfg hcap (hovt t' h0 h1)
        (by unfold I64; omega) [⟨v.w.part.id, e', t'⟩] (by
          intro ev hev
          rw [List.mem_singleton] at hev
          subst hev
          exact ⟨hinP, hq, h0, Int.le_refl _⟩) (by simp) ⟨v.w.part.id, e', t'⟩ (by simp)
        (by dsimp only; omega)
      obtain ⟨i, hi, hi0, hi1, -⟩ := this
      exact ⟨i, hi, hq, hi0, hi1⟩
    · right
      exact ⟨C19_outside_not_stored hcfg (Or.inr (Or.inl hq)), hq⟩
  rcases hdef (v.w.part.atElement + k) t (by omega) ht1 with ⟨i, hi, -, hi0, hi1⟩ | ⟨-, hno⟩
  swap
  · exact absurd hinE hno
  have hgo : trackEbe S cfg (numRecords minP maxP minE maxE minT maxT) lat untilTurn v =
      ebeLoop S cfg (numRecords minP maxP minE maxE minT maxT) lat v.w.part.id v.w.part.atElement
        untilTurn (untilTurn - v.w.part.atTurn).toNat v.w.part.atTurn 0 v := by
    unfold trackEbe
    dsimp only
    rw [if_pos ⟨hl, by omega, by omega, by omega, by omega⟩]
  have hcall := hgo.trans (ebeLoop_eq S cfg (numRecords minP maxP minE maxE minT maxT)
      v.w.part.id v.w.part.atElement untilTurn lat hS hl (untilTurn - v.w.part.atTurn).toNat
      v.w.part.atTurn 0 v (by omega) (by omega) rfl rfl rfl hal
      (fun t a b k _ => by
        rcases hdef (v.w.part.atElement + k) t (by omega) b with ⟨i, hi, -⟩ | ⟨hi, -⟩
        · exact ⟨i, hi⟩
        · exact ⟨-1, hi⟩))
  refine ⟨_, _, i, hcall, hi, hi0, ?_⟩
  obtain ⟨m1, m2, m3⟩ := mem_traceLoop S lat hS v.w.part.atElement untilTurn
    (untilTurn - v.w.part.atTurn).toNat v.w (by omega) rfl hal t ht0 ht1 k hk hreach
  obtain ⟨f1, f2⟩ := traceLoop_facts S lat v.w.part.atElement untilTurn
    (untilTurn - v.w.part.atTurn).toNat v.w rfl hu
  have hix : idxOf cfg (stateBefore S lat t k v.w) = i := by
    unfold idxOf
    rw [(f1 _ m1).1, m2, m3, hi]
  have := foldl_storeRec cfg (numRecords minP maxP minE maxE minT maxT) _ v.recs _ m1
    (by omega) (by omega) f2 (by
    intro q hq hb heq
    have fq := f1 q hq
    rcases hdef q.atElement q.atTurn (by omega) fq.2.2.1 with ⟨j, hj, hje, -⟩ | ⟨hj, -⟩
    · have hqj : idxOf cfg q = j := by unfold idxOf; rw [fq.1, hj]
      have hji : j = i := by omega
      subst hji
      have hsh := (C21_shared_record hcfg hcap hinP hinE (by omega) (by unfold I64; omega) hinP hje
        (by omega) (by unfold I64; omega) (hovt t (by omega) ht1)
        (hovt q.atTurn (by omega) fq.2.2.1)).1 (hi.trans hj.symm)
      unfold Before at hb
      rw [m2, m3] at hb
      obtain ⟨-, e1, e2⟩ := hsh
      have hne : t ≠ q.atTurn := by omega
      have hd : (maxT - minT + 1) ∣ (t - q.atTurn) := Int.dvd_of_emod_eq_zero e2
      obtain ⟨c, hc⟩ := hd
      have hfq := fq.2.2.1
      have hneg : t - q.atTurn < 0 := by omega
      have hgt : -(maxT - minT + 1) < t - q.atTurn := by omega
      by_cases hc0 : c ≤ -1
      · have := mul_le_mul_of_nonneg_left hc0 (show 0 ≤ maxT - minT + 1 by omega)
        omega
      · have := mul_nonneg (show 0 ≤ maxT - minT + 1 by omega) (show 0 ≤ c by omega)
        omega
    · have hqj : idxOf cfg q = -1 := by unfold idxOf; rw [fq.1, hj]
      omega)
  rw [hix] at this
  exact this

example : ∃ (v : EWorld Int Int), v.w.part.notLost ∧ LossIsMarked toy2 [2, -1] ∧
    ConfiguredFor (exampleCfg false) 2 4 1 2 5 8 false ∧
    v.w.part.id = 3 ∧ v.w.part.atElement = 1 ∧ v.w.part.atTurn = 5 ∧
    (stateBefore toy2 [2, -1] 5 1 v.w).notLost :=
  ⟨⟨⟨⟨1, 3, 1, 5, 1⟩, fun _ => 0⟩, fun _ => ⟨0, 0, 0, 0, 0⟩⟩, rfl, toy2_lossIsMarked _,
    exampleCfg_configured false, rfl, rfl, rfl, by
      unfold stateBefore
      rw [trackUntil_done (by decide)]
      decide⟩

/-- A particle with a negative id is not tracked at all by element-by-element tracking. -/
theorem C33_negative_id_violated :
    ∃ (v v' : EWorld Int Int) (s : Int), v.w.part.notLost ∧
      trackEbe toy2 tinyCfg 1 [2] 1 v = .ok (s, v') ∧
      v'.w.part.coord ≠ (trackUntil toy2 [2] 1 v.w).2.part.coord := by
  refine ⟨⟨⟨⟨1, -5, 0, 0, 1⟩, fun _ => 0⟩, fun _ => ⟨0, 0, 0, 0, 0⟩⟩, _, _, by decide, rfl, ?_⟩
  have : (trackUntil toy2 [2] 1 ⟨⟨1, -5, 0, 0, 1⟩, fun _ => (0 : Int)⟩).2.part.coord = 3 := by
    simp +decide [trackUntil, untilLoop, turnElems, toy2, Sem.run, applyPart, World.map,
      Part.incElem, Sem.endTurn]
  rw [this]
  decide

/-- A particle in an element that reports a failure without marking it as lost is marked as lost by plain
tracking but not by element-by-element tracking. -/
theorem C33_failure_violated :
    ∃ (v v' : EWorld Int Int) (s : Int), v.w.part.notLost ∧
      trackEbe badToy tinyCfg 1 [0] 1 v = .ok (s, v') ∧ v'.w.part.notLost ∧
      ¬ (trackUntil badToy [0] 1 v.w).2.part.notLost := by
  refine ⟨⟨⟨⟨1, 0, 0, 0, 1⟩, fun _ => 0⟩, fun _ => ⟨0, 0, 0, 0, 0⟩⟩, _, _, by decide, rfl, by decide, ?_⟩
  have : (trackUntil badToy [0] 1 ⟨⟨1, 0, 0, 0, 1⟩, fun _ => (0 : Int)⟩).2.part.state = 0 := by
    simp +decide [trackUntil, untilLoop, turnElems, badToy, Sem.run, applyPart, World.map,
      Part.markLost]
  unfold Part.notLost
  rw [this]
  decide

end SixTrack
