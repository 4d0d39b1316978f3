import Verif.Props.Track
import Mathlib.Data.List.Perm.Basic

/-!
# Property C34: any number of work-items, any interleaving

The atomic step (`Track.itemStep`) is one iteration of one of the tracking loops.  Two work-items share
the particle set and the output records of the beam monitors.
-/

namespace SixTrack

open Track

variable {E C R : Type}

/-- Run a schedule: a list that says which work-item takes the next step. -/
def runSchedule (S : Sem E C R) (lat : List E) (untilTurn : Int) (num items : Nat)
    (sched : List Nat) (g : Global E C R) : Global E C R :=
  sched.foldl (fun g w => itemStep S lat untilTurn num items w g) g

/-- All work-items start: item `w` with particle `w`. -/
def startAll (m : Mem C R) : Global E C R := ⟨m, fun w => ⟨w, none⟩⟩

/-- All work-items have left their loop over the particles. -/
def AllDone (num items : Nat) (g : Global E C R) : Prop := ∀ w < items, num ≤ (g.ctrl w).pidx

/-- The records written by the elements of the lattice for particles of different ids are different; only
the ids with `I id` count. -/
def OwnRecords (S : Sem E C R) (lat : List E) (I : Int → Prop) : Prop :=
  ∃ owner : Nat → Int, ∀ e ∈ lat, ∀ p : Part C, I p.id → ∀ i r, (S.dispatch e p).write = some (i, r) → owner i = p.id

/-- The particles of the set have different ids. -/
def DistinctIds (num : Nat) (m : Mem C R) : Prop :=
  ∀ i < num, ∀ j < num, (m.parts i).id = (m.parts j).id → i = j

/-- Sequential tracking: all particles one after the other, as one work-item alone does it. -/
def trackAll (S : Sem E C R) (lat : List E) (untilTurn : Int) (num : Nat) (m : Mem C R) : Mem C R :=
  (List.range num).foldl (fun m i => trackOne S lat untilTurn i m) m

namespace Track

/-- Either nothing is written, or every record belongs to one particle. -/
def Safe (S : Sem E C R) (lat : List E) (num : Nat) (m : Mem C R) : Prop :=
  (∀ e p, (S.dispatch e p).write = none) ∨ 
  (DistinctIds num m ∧ ∃ I : Int → Prop, OwnRecords S lat I ∧ ∀ i < num, I (m.parts i).id)

/-- The elements still to be done are elements of the lattice. -/
def Ctrl.within (lat : List E) (c : Ctrl E) : Prop :=
  ∀ l start, c.pos = some (l, start) → ∀ e ∈ l, e ∈ lat

theorem setAt_self {α : Type} (f : Nat → α) (i : Nat) : Particles.setAt f i (f i) = f := by
  funext j
  unfold Particles.setAt
  split
  · rename_i h; rw [h]
  · rfl

theorem setAt_same {α : Type} (f : Nat → α) (i : Nat) (a : α) : Particles.setAt f i a i = a := by
  unfold Particles.setAt; rw [if_pos rfl]

theorem setAt_other {α : Type} (f : Nat → α) {i j : Nat} (a : α) (h : j ≠ i) :
    Particles.setAt f i a j = f j := by
  unfold Particles.setAt; rw [if_neg h]

theorem setAt_setAt {α : Type} (f : Nat → α) (i : Nat) (a b : α) :
    Particles.setAt (Particles.setAt f i a) i b = Particles.setAt f i b := by
  funext j
  unfold Particles.setAt
  split <;> rfl

theorem setAt_comm {α : Type} (f : Nat → α) {i j : Nat} (a b : α) (h : i ≠ j) :
    Particles.setAt (Particles.setAt f i a) j b = Particles.setAt (Particles.setAt f j b) i a := by
  funext x
  unfold Particles.setAt
  by_cases h1 : x = i
  · by_cases h2 : x = j
    · omega
    · simp [h1, h]
  · by_cases h2 : x = j
    · simp [h2, Ne.symm h]
    · simp [h1, h2]

/-- The part of a step that depends on the particle and the control state of one work-item only. -/
def localStep (S : Sem E C R) (lat : List E) (untilTurn : Int) (stride : Nat) (c : Ctrl E) (p : Part C) :
    Ctrl E × Part C × Option (Nat × R) :=
  match c.pos with
  | none =>
    if lat ≠ [] ∧ untilTurn > p.atTurn ∧ p.notLost then (⟨c.pidx, some (lat, p.atElement)⟩, p, none)
    else (⟨c.pidx + stride, none⟩, p, none)
  | some (e :: es, start) =>
    if (S.dispatch e p).status = 0 ∧ (applyPart p (S.dispatch e p)).notLost then
      (⟨c.pidx, some (es, start)⟩, (applyPart p (S.dispatch e p)).incElem, (S.dispatch e p).write)
    else (⟨c.pidx + stride, none⟩, (applyPart p (S.dispatch e p)).markLost, (S.dispatch e p).write)
  | some ([], start) =>
    if (S.endTurn start p).atTurn < untilTurn then
      (⟨c.pidx, some (lat, start)⟩, S.endTurn start p, none)
    else (⟨c.pidx + stride, none⟩, S.endTurn start p, none)

theorem itemStep_run (S : Sem E C R) (lat : List E) (untilTurn : Int) (num stride w : Nat)
    (g : Global E C R) (h : (g.ctrl w).pidx < num) :
    itemStep S lat untilTurn num stride w g =
      ⟨⟨Particles.setAt g.mem.parts (g.ctrl w).pidx
          (localStep S lat untilTurn stride (g.ctrl w) (g.mem.parts (g.ctrl w).pidx)).2.1,
        applyWrite g.mem.out
          (localStep S lat untilTurn stride (g.ctrl w) (g.mem.parts (g.ctrl w).pidx)).2.2⟩,
        Particles.setAt g.ctrl w
          (localStep S lat untilTurn stride (g.ctrl w) (g.mem.parts (g.ctrl w).pidx)).1⟩ := by
  unfold itemStep localStep
  dsimp only
  rw [if_pos h]
  cases hp : (g.ctrl w).pos with
  | none =>
    dsimp only
    split <;> simp only [setAt_self, applyWrite]
  | some x =>
    obtain ⟨l, start⟩ := x
    cases l with
    | nil =>
      dsimp only
      split <;> simp only [applyWrite]
    | cons e es =>
      dsimp only
      split <;> rfl

theorem itemStep_halt (S : Sem E C R) (lat : List E) (untilTurn : Int) (num stride w : Nat)
    (g : Global E C R) (h : ¬ (g.ctrl w).pidx < num) : itemStep S lat untilTurn num stride w g = g := by
  unfold itemStep
  dsimp only
  rw [if_neg h]

theorem localStep_pidx (S : Sem E C R) (lat : List E) (untilTurn : Int) (stride : Nat) (c : Ctrl E)
    (p : Part C) : (localStep S lat untilTurn stride c p).1.pidx = c.pidx ∨
      (localStep S lat untilTurn stride c p).1.pidx = c.pidx + stride := by
  unfold localStep
  split <;> split <;> simp

theorem localStep_id (S : Sem E C R) (lat : List E) (untilTurn : Int) (stride : Nat) (c : Ctrl E)
    (p : Part C) : (localStep S lat untilTurn stride c p).2.1.id = p.id := by
  unfold localStep
  split <;> split <;> rfl

theorem localStep_write {S : Sem E C R} {owner : Nat → Int} (lat : List E)
    {I : Int → Prop} (ho : ∀ e ∈ lat, ∀ p : Part C, I p.id → ∀ i r, (S.dispatch e p).write = some (i, r) → owner i = p.id)
    (untilTurn : Int) (stride : Nat) (c : Ctrl E) (hc : c.within lat) (p : Part C) (hI : I p.id) (i : Nat) (r : R)
    (h : (localStep S lat untilTurn stride c p).2.2 = some (i, r)) : owner i = p.id := by
  unfold localStep at h
  split at h
  · split at h <;> simp at h
  · rename_i e es start hpos
    have he : e ∈ lat := hc _ _ hpos e (by simp)
    split at h <;> exact ho _ he _ hI _ _ h
  · split at h <;> simp at h

theorem localStep_within (S : Sem E C R) (lat : List E) (untilTurn : Int) (stride : Nat) (c : Ctrl E)
    (hc : c.within lat) (p : Part C) : (localStep S lat untilTurn stride c p).1.within lat := by
  intro l start h e he
  unfold localStep at h
  split at h
  · split at h
    · simp only [Option.some.injEq, Prod.mk.injEq] at h
      rw [h.1]; exact he
    · simp at h
  · rename_i e' es start' hpos
    split at h
    · simp only [Option.some.injEq, Prod.mk.injEq] at h
      exact hc _ _ hpos e (List.mem_cons_of_mem _ (by rw [h.1]; exact he))
    · simp at h
  · split at h
    · simp only [Option.some.injEq, Prod.mk.injEq] at h
      rw [h.1]; exact he
    · simp at h

theorem localStep_none {S : Sem E C R} (h : ∀ e p, (S.dispatch e p).write = none) (lat : List E)
    (untilTurn : Int) (stride : Nat) (c : Ctrl E) (p : Part C) :
    (localStep S lat untilTurn stride c p).2.2 = none := by
  unfold localStep
  split <;> split <;> first | exact h _ _ | rfl

theorem applyWrite_comm (out : Nat → R) (a b : Option (Nat × R))
    (h : ∀ i r j s, a = some (i, r) → b = some (j, s) → i ≠ j) :
    applyWrite (applyWrite out a) b = applyWrite (applyWrite out b) a := by
  cases a with
  | none => rfl
  | some x =>
    cases b with
    | none => rfl
    | some y =>
      obtain ⟨i, r⟩ := x
      obtain ⟨j, s⟩ := y
      exact setAt_comm _ _ _ (h i r j s rfl rfl)

/-- Work-item `w` only ever works on particles `w`, `w + items`, …; the ids stay different. -/
def Inv (S : Sem E C R) (lat : List E) (num items : Nat) (g : Global E C R) : Prop :=
  (∀ w < items, (g.ctrl w).pidx % items = w) ∧ Safe S lat num g.mem ∧ ∀ w, (g.ctrl w).within lat

theorem inv_step (S : Sem E C R) (lat : List E) (untilTurn : Int) (num items w : Nat)
    {g : Global E C R} (h : Inv S lat num items g) :
    Inv S lat num items (itemStep S lat untilTurn num items w g) := by
  by_cases hr : (g.ctrl w).pidx < num
  · rw [itemStep_run S lat untilTurn num items w g hr]
    obtain ⟨h1, h2, hin⟩ := h
    refine ⟨?_, ?_, ?_⟩
    · intro v hv
      by_cases hvw : v = w
      · subst hvw
        dsimp only
        rw [setAt_same]
        rcases localStep_pidx S lat untilTurn items (g.ctrl v) (g.mem.parts (g.ctrl v).pidx) with e | e
        · rw [e]; exact h1 v hv
        · rw [e, Nat.add_mod_right]; exact h1 v hv
      · dsimp only
        rw [setAt_other _ _ hvw]
        exact h1 v hv
    · have hid : ∀ i, (Particles.setAt g.mem.parts (g.ctrl w).pidx
          (localStep S lat untilTurn items (g.ctrl w) (g.mem.parts (g.ctrl w).pidx)).2.1 i).id =
          (g.mem.parts i).id := by
        intro i
        by_cases hi : i = (g.ctrl w).pidx
        · subst hi; rw [setAt_same, localStep_id]
        · rw [setAt_other _ _ hi]
      rcases h2 with h2 | ⟨h3, I, h2, h4⟩
      · exact Or.inl h2
      · refine Or.inr ⟨?_, I, h2, ?_⟩
        · intro i hi j hj
          dsimp only
          rw [hid, hid]
          exact h3 i hi j hj
        · intro i hi
          dsimp only
          rw [hid]
          exact h4 i hi
    · intro v
      by_cases hvw : v = w
      · subst hvw
        dsimp only
        rw [setAt_same]
        exact localStep_within S lat untilTurn items _ (hin v) _
      · dsimp only
        rw [setAt_other _ _ hvw]
        exact hin v
  · rw [itemStep_halt S lat untilTurn num items w g hr]; exact h

theorem inv_run (S : Sem E C R) (lat : List E) (untilTurn : Int) (num items : Nat) (sched : List Nat)
    {g : Global E C R} (h : Inv S lat num items g) :
    Inv S lat num items (runSchedule S lat untilTurn num items sched g) := by
  induction sched generalizing g with
  | nil => exact h
  | cons w s ih =>
    exact ih (inv_step S lat untilTurn num items w h)

theorem step_pidx_other (S : Sem E C R) (lat : List E) (untilTurn : Int) (num items : Nat) {a b : Nat}
    (hab : b ≠ a) (g : Global E C R) :
    (itemStep S lat untilTurn num items a g).ctrl b = g.ctrl b := by
  by_cases hr : (g.ctrl a).pidx < num
  · rw [itemStep_run S lat untilTurn num items a g hr]
    exact setAt_other _ _ hab
  · rw [itemStep_halt S lat untilTurn num items a g hr]

/-- Steps of different work-items commute. -/
theorem step_comm (S : Sem E C R) (lat : List E) (untilTurn : Int)
    (num items a b : Nat) (ha : a < items) (hb : b < items) {g : Global E C R} (h : Inv S lat num items g) :
    itemStep S lat untilTurn num items a (itemStep S lat untilTurn num items b g) =
    itemStep S lat untilTurn num items b (itemStep S lat untilTurn num items a g) := by
  by_cases hab : a = b
  · rw [hab]
  by_cases hra : (g.ctrl a).pidx < num
  · by_cases hrb : (g.ctrl b).pidx < num
    · have hne : (g.ctrl a).pidx ≠ (g.ctrl b).pidx := by
        intro he
        have h1 := h.1 a ha
        have h2 := h.1 b hb
        rw [he] at h1
        omega
      have hra' : ((itemStep S lat untilTurn num items b g).ctrl a).pidx < num := by
        rw [step_pidx_other S lat untilTurn num items hab]; exact hra
      have hrb' : ((itemStep S lat untilTurn num items a g).ctrl b).pidx < num := by
        rw [step_pidx_other S lat untilTurn num items (Ne.symm hab)]; exact hrb
      rw [itemStep_run S lat untilTurn num items a _ hra', itemStep_run S lat untilTurn num items b _ hrb',
        step_pidx_other S lat untilTurn num items hab,
        step_pidx_other S lat untilTurn num items (Ne.symm hab)]
      rw [itemStep_run S lat untilTurn num items a g hra, itemStep_run S lat untilTurn num items b g hrb]
      dsimp only
      rw [setAt_other _ _ hne, setAt_other _ _ (Ne.symm hne)]
      rw [setAt_comm g.mem.parts _ _ hne, setAt_comm g.ctrl _ _ hab]
      rw [applyWrite_comm]
      intro i r j s hi hj hij
      rcases h.2.1 with h2 | ⟨h2, I, ⟨owner, ho⟩, hI⟩
      · rw [localStep_none h2] at hi
        cases hi
      have e1 := localStep_write lat ho _ _ _ (h.2.2 b) _ (hI _ hrb) _ _ hi
      have e2 := localStep_write lat ho _ _ _ (h.2.2 a) _ (hI _ hra) _ _ hj
      subst hij
      exact hne (h2 _ hra _ hrb (e2.symm.trans e1))
    · rw [itemStep_halt S lat untilTurn num items b g hrb,
        itemStep_halt S lat untilTurn num items b (itemStep S lat untilTurn num items a g)]
      rw [step_pidx_other S lat untilTurn num items (Ne.symm hab)]; exact hrb
  · rw [itemStep_halt S lat untilTurn num items a g hra,
      itemStep_halt S lat untilTurn num items a (itemStep S lat untilTurn num items b g)]
    rw [step_pidx_other S lat untilTurn num items hab]; exact hra

/-- Only how often each work-item runs matters. -/
theorem run_perm (S : Sem E C R) (lat : List E) (untilTurn : Int)
    (num items : Nat) {s t : List Nat} (hp : s.Perm t) (hs : ∀ w ∈ s, w < items) {g : Global E C R}
    (h : Inv S lat num items g) :
    runSchedule S lat untilTurn num items s g = runSchedule S lat untilTurn num items t g := by
  induction hp generalizing g with
  | nil => rfl
  | cons x hp ih =>
    exact ih (fun w hw => hs w (List.mem_cons_of_mem _ hw)) (inv_step S lat untilTurn num items x h)
  | swap x y l =>
    unfold runSchedule
    simp only [List.foldl_cons]
    rw [step_comm S lat untilTurn num items x y (hs x (by simp)) (hs y (by simp)) h]
  | trans p q ih1 ih2 =>
    rw [ih1 hs h, ih2 (fun w hw => hs w (p.mem_iff.2 hw)) h]

theorem run_append (S : Sem E C R) (lat : List E) (untilTurn : Int) (num items : Nat) (s t : List Nat)
    (g : Global E C R) : runSchedule S lat untilTurn num items (s ++ t) g =
      runSchedule S lat untilTurn num items t (runSchedule S lat untilTurn num items s g) := by
  unfold runSchedule
  rw [List.foldl_append]

theorem run_done (S : Sem E C R) (lat : List E) (untilTurn : Int) (num items : Nat) (s : List Nat)
    (hs : ∀ w ∈ s, w < items) {g : Global E C R} (h : AllDone num items g) :
    runSchedule S lat untilTurn num items s g = g := by
  induction s with
  | nil => rfl
  | cons w s ih =>
    unfold runSchedule at ih ⊢
    rw [List.foldl_cons, itemStep_halt]
    · exact ih (fun v hv => hs v (List.mem_cons_of_mem _ hv))
    · have := h w (hs w (by simp)); omega

/-- `g'` is reached from `g` by steps of item `w` alone. -/
def Alone (S : Sem E C R) (lat : List E) (untilTurn : Int) (num items w : Nat) (g g' : Global E C R) :
    Prop := ∃ n, runSchedule S lat untilTurn num items (List.replicate n w) g = g'

theorem Alone.trans {S : Sem E C R} {lat : List E} {untilTurn : Int} {num items w : Nat}
    {g g' g'' : Global E C R} (h1 : Alone S lat untilTurn num items w g g')
    (h2 : Alone S lat untilTurn num items w g' g'') : Alone S lat untilTurn num items w g g'' := by
  obtain ⟨n, h1⟩ := h1
  obtain ⟨m, h2⟩ := h2
  refine ⟨n + m, ?_⟩
  rw [List.replicate_add, run_append, h1, h2]

theorem Alone.refl (S : Sem E C R) (lat : List E) (untilTurn : Int) (num items w : Nat)
    (g : Global E C R) : Alone S lat untilTurn num items w g g := ⟨0, rfl⟩

/-- One step, with the control state and the memory written out. -/
theorem alone_step (S : Sem E C R) (lat : List E) (untilTurn : Int) (num items w i : Nat)
    (hi : i < num) (parts : Nat → Part C) (out : Nat → R) (ctrl : Nat → Ctrl E)
    (pos : Option (List E × Int)) (p : Part C) :
    Alone S lat untilTurn num items w
      ⟨⟨Particles.setAt parts i p, out⟩, Particles.setAt ctrl w ⟨i, pos⟩⟩
      ⟨⟨Particles.setAt parts i (localStep S lat untilTurn items ⟨i, pos⟩ p).2.1,
        applyWrite out (localStep S lat untilTurn items ⟨i, pos⟩ p).2.2⟩,
        Particles.setAt ctrl w (localStep S lat untilTurn items ⟨i, pos⟩ p).1⟩ := by
  refine ⟨1, ?_⟩
  unfold runSchedule
  simp only [List.replicate_one, List.foldl_cons, List.foldl_nil]
  rw [itemStep_run]
  · simp only [setAt_same, setAt_setAt]
  · simp only [setAt_same]; exact hi

/-- The state of a work-item working on particle `i` in world `v`. -/
def inWorld (parts : Nat → Part C) (ctrl : Nat → Ctrl E) (w i : Nat) (v : World C R) (c : Ctrl E) :
    Global E C R := ⟨⟨Particles.setAt parts i v.part, v.out⟩, Particles.setAt ctrl w c⟩

theorem alone_turn (S : Sem E C R) (lat : List E) (untilTurn : Int) (num items w i : Nat)
    (hi : i < num) (parts : Nat → Part C) (ctrl : Nat → Ctrl E) (start : Int) (es : List E) (s : Int)
    (v : World C R) :
    Alone S lat untilTurn num items w (inWorld parts ctrl w i v ⟨i, some (es, start)⟩)
      (if (turnElems S es s v).2.1 = true then
        inWorld parts ctrl w i (turnElems S es s v).2.2 ⟨i, some ([], start)⟩
      else inWorld parts ctrl w i ((turnElems S es s v).2.2.map Part.markLost) ⟨i + items, none⟩) := by
  induction es generalizing s v with
  | nil => exact Alone.refl _ _ _ _ _ _ _
  | cons e es ih =>
    have h1 := alone_step S lat untilTurn num items w i hi parts v.out ctrl (some (e :: es, start)) v.part
    by_cases hc : (S.run e v).1 = 0 ∧ (S.run e v).2.part.notLost
    · have et : turnElems S (e :: es) s v =
          turnElems S es (S.run e v).1 ((S.run e v).2.map Part.incElem) := by
        simp only [turnElems]; rw [if_pos hc]
      rw [et]
      refine Alone.trans ?_ (ih (S.run e v).1 ((S.run e v).2.map Part.incElem))
      have el : localStep S lat untilTurn items ⟨i, some (e :: es, start)⟩ v.part =
          (⟨i, some (es, start)⟩, (applyPart v.part (S.dispatch e v.part)).incElem,
            (S.dispatch e v.part).write) := by
        unfold localStep
        dsimp only
        exact if_pos hc
      rw [el] at h1
      exact h1
    · have et : turnElems S (e :: es) s v = ((S.run e v).1, false, (S.run e v).2) := by
        simp only [turnElems]; rw [if_neg hc]
      rw [et, if_neg (by simp)]
      have el : localStep S lat untilTurn items ⟨i, some (e :: es, start)⟩ v.part =
          (⟨i + items, none⟩, (applyPart v.part (S.dispatch e v.part)).markLost,
            (S.dispatch e v.part).write) := by
        unfold localStep
        dsimp only
        exact if_neg hc
      rw [el] at h1
      exact h1

theorem alone_until (S : Sem E C R) (lat : List E) (untilTurn : Int) (num items w i : Nat)
    (hi : i < num) (parts : Nat → Part C) (ctrl : Nat → Ctrl E) (start : Int) (s : Int)
    (v : World C R) :
    Alone S lat untilTurn num items w (inWorld parts ctrl w i v ⟨i, some (lat, start)⟩)
      (inWorld parts ctrl w i (untilLoop S lat start untilTurn s v).2 ⟨i + items, none⟩) := by
  induction hn : (untilTurn - v.part.atTurn).toNat using Nat.strongRecOn generalizing s v with
  | ind n ih =>
    have h1 := alone_turn S lat untilTurn num items w i hi parts ctrl start lat s v
    have hat : (turnElems S lat s v).2.2.part.atTurn = v.part.atTurn := turnElems_atTurn S lat s v
    by_cases hc : (turnElems S lat s v).2.1 = true
    · rw [if_pos hc] at h1
      refine h1.trans ?_
      have h2 := alone_step S lat untilTurn num items w i hi parts (turnElems S lat s v).2.2.out ctrl
        (some ([], start)) (turnElems S lat s v).2.2.part
      have hat' : ((turnElems S lat s v).2.2.map (S.endTurn start)).part.atTurn =
          v.part.atTurn + 1 := by
        show (turnElems S lat s v).2.2.part.atTurn + 1 = _
        rw [hat]
      by_cases hlt : ((turnElems S lat s v).2.2.map (S.endTurn start)).part.atTurn < untilTurn
      · have eu : untilLoop S lat start untilTurn s v = untilLoop S lat start untilTurn
            (turnElems S lat s v).1 ((turnElems S lat s v).2.2.map (S.endTurn start)) := by
          rw [untilLoop]
          dsimp only
          rw [if_pos hc, if_pos hlt]
        rw [eu]
        have el : localStep (R := R) S lat untilTurn items ⟨i, some ([], start)⟩
            (turnElems S lat s v).2.2.part = (⟨i, some (lat, start)⟩,
              S.endTurn start (turnElems S lat s v).2.2.part, none) := by
          unfold localStep
          dsimp only
          exact if_pos hlt
        rw [el] at h2
        refine Alone.trans h2 ?_
        exact ih _ (by omega) (turnElems S lat s v).1
          ((turnElems S lat s v).2.2.map (S.endTurn start)) rfl
      · have eu : untilLoop S lat start untilTurn s v =
            ((turnElems S lat s v).1, ((turnElems S lat s v).2.2.map (S.endTurn start))) := by
          rw [untilLoop]
          dsimp only
          rw [if_pos hc, if_neg hlt]
        rw [eu]
        have el : localStep (R := R) S lat untilTurn items ⟨i, some ([], start)⟩
            (turnElems S lat s v).2.2.part = (⟨i + items, none⟩,
              S.endTurn start (turnElems S lat s v).2.2.part, none) := by
          unfold localStep
          dsimp only
          exact if_neg hlt
        rw [el] at h2
        exact h2
    · rw [if_neg hc] at h1
      have eu : untilLoop S lat start untilTurn s v =
          ((turnElems S lat s v).1, (turnElems S lat s v).2.2.map Part.markLost) := by
        rw [untilLoop]
        dsimp only
        rw [if_neg hc]
      rw [eu]
      exact h1

/-- Steps of one work-item carry out `trackOne`. -/
theorem alone_trackOne (S : Sem E C R) (lat : List E) (untilTurn : Int) (num items w i : Nat)
    (hi : i < num) (g : Global E C R) (hc : g.ctrl w = ⟨i, none⟩) :
    Alone S lat untilTurn num items w g
      ⟨trackOne S lat untilTurn i g.mem, Particles.setAt g.ctrl w ⟨i + items, none⟩⟩ := by
  have h1 := alone_step S lat untilTurn num items w i hi g.mem.parts g.mem.out g.ctrl none
    (g.mem.parts i)
  rw [setAt_self, ← hc, setAt_self, hc] at h1
  unfold trackOne trackUntil
  dsimp only
  by_cases hgo : lat ≠ [] ∧ untilTurn > (g.mem.parts i).atTurn ∧ (g.mem.parts i).notLost
  · have el : localStep (R := R) S lat untilTurn items ⟨i, none⟩ (g.mem.parts i) =
        (⟨i, some (lat, (g.mem.parts i).atElement)⟩, g.mem.parts i, none) := by
      unfold localStep
      dsimp only
      exact if_pos hgo
    rw [el] at h1
    rw [if_neg hgo.1, if_pos ⟨rfl, hgo.2.1, hgo.2.2⟩]
    exact h1.trans (alone_until S lat untilTurn num items w i hi g.mem.parts g.ctrl
      (g.mem.parts i).atElement 0 ⟨g.mem.parts i, g.mem.out⟩)
  · have el : localStep (R := R) S lat untilTurn items ⟨i, none⟩ (g.mem.parts i) =
        (⟨i + items, none⟩, g.mem.parts i, none) := by
      unfold localStep
      dsimp only
      exact if_neg hgo
    rw [el] at h1
    have hneg : ¬ ((if lat = [] then (-1 : Int) else 0) = 0 ∧ untilTurn > (g.mem.parts i).atTurn ∧
        (g.mem.parts i).notLost) := by
      intro ⟨a, b, c⟩
      apply hgo
      refine ⟨?_, b, c⟩
      intro hl
      rw [if_pos hl] at a
      omega
    rw [if_neg hneg]
    exact h1

/-- A schedule that tracks the particles one after the other. -/
theorem exists_sequential (S : Sem E C R) (lat : List E) (untilTurn : Int) (num items : Nat)
    (hk : 0 < items) (m : Mem C R) (j : Nat) (hj : j ≤ num) :
    ∃ s : List Nat, (∀ w ∈ s, w < items) ∧
      (runSchedule S lat untilTurn num items s (startAll m)).mem =
        (List.range j).foldl (fun m i => trackOne S lat untilTurn i m) m ∧
      ∀ w < items, ((runSchedule S lat untilTurn num items s (startAll m)).ctrl w).pos = none ∧
        ((runSchedule S lat untilTurn num items s (startAll m)).ctrl w).pidx % items = w ∧
        j ≤ ((runSchedule S lat untilTurn num items s (startAll m)).ctrl w).pidx ∧
        ((runSchedule S lat untilTurn num items s (startAll m)).ctrl w).pidx < j + items := by
  induction j with
  | zero =>
    refine ⟨[], by simp, rfl, ?_⟩
    intro w hw
    exact ⟨rfl, Nat.mod_eq_of_lt hw, Nat.zero_le _, by show w < 0 + items; omega⟩
  | succ j ih =>
    obtain ⟨s, hs, hm, hc⟩ := ih (by omega)
    generalize hg : runSchedule S lat untilTurn num items s (startAll m) = g at hm hc
    have hw : j % items < items := Nat.mod_lt _ hk
    obtain ⟨c1, c2, c3, c4⟩ := hc (j % items) hw
    have hpid : (g.ctrl (j % items)).pidx = j := by
      obtain ⟨d, hd⟩ : ∃ d, (g.ctrl (j % items)).pidx = j + d := ⟨_, (Nat.add_sub_cancel' c3).symm⟩
      rw [hd] at c2 c4 ⊢
      have h1 := Nat.div_add_mod (j + d) items
      have h2 := Nat.div_add_mod j items
      rw [c2] at h1
      have h3 : items * ((j + d) / items) = items * (j / items) + d := by omega
      have h4 : (j + d) / items = j / items := by
        apply Nat.le_antisymm
        · by_contra hcon
          have : items * (j / items + 1) ≤ items * ((j + d) / items) :=
            Nat.mul_le_mul_left _ (by omega)
          rw [Nat.mul_add] at this
          omega
        · exact Nat.div_le_div_right (by omega)
      rw [h4] at h3
      omega
    have hctrl : g.ctrl (j % items) = ⟨j, none⟩ := by
      cases hx : g.ctrl (j % items) with
      | mk a b =>
        rw [hx] at hpid c1
        dsimp only at hpid c1
        rw [hpid, c1]
    obtain ⟨n, hn⟩ := alone_trackOne S lat untilTurn num items (j % items) j (by omega) g hctrl
    refine ⟨s ++ List.replicate n (j % items), ?_, ?_⟩
    · intro w hw'
      rcases List.mem_append.1 hw' with h | h
      · exact hs w h
      · rw [List.eq_of_mem_replicate h]; exact hw
    · rw [run_append, hg, hn]
      constructor
      · dsimp only
        rw [List.range_succ, List.foldl_append, hm]
        rfl
      · intro w hw'
        dsimp only
        by_cases he : w = j % items
        · subst he
          rw [setAt_same]
          exact ⟨rfl, by dsimp only; rw [Nat.add_mod_right], by dsimp only; omega, by dsimp only; omega⟩
        · rw [setAt_other _ _ he]
          obtain ⟨d1, d2, d3, d4⟩ := hc w hw'
          refine ⟨d1, d2, ?_, by omega⟩
          have : (g.ctrl w).pidx ≠ j := by
            intro h
            rw [h] at d2
            exact he d2.symm
          omega

theorem exists_complete (S : Sem E C R) (lat : List E) (untilTurn : Int) (num items : Nat)
    (hk : 0 < items) (m : Mem C R) :
    ∃ s : List Nat, (∀ w ∈ s, w < items) ∧
      (runSchedule S lat untilTurn num items s (startAll m)).mem = trackAll S lat untilTurn num m ∧
      AllDone num items (runSchedule S lat untilTurn num items s (startAll m)) := by
  obtain ⟨s, h1, h2, h3⟩ := exists_sequential S lat untilTurn num items hk m num (Nat.le_refl _)
  exact ⟨s, h1, h2, fun w hw => (h3 w hw).2.2.1⟩

theorem inv_start (S : Sem E C R) (lat : List E) (num items : Nat) {m : Mem C R} (h : Safe S lat num m) :
    Inv S lat num items (startAll (E := E) m) :=
  ⟨fun _ hw => Nat.mod_eq_of_lt hw, h, fun _ _ _ h => by simp [startAll] at h⟩

theorem kernel_eq_foldl (S : Sem E C R) (lat : List E) (untilTurn : Int) (num : Nat) (n pidx : Nat)
    (h : pidx + n = num) (m : Mem C R) :
    kernel S lat untilTurn num 1 n pidx m =
      (List.range' pidx n).foldl (fun m i => trackOne S lat untilTurn i m) m := by
  induction n generalizing pidx m with
  | zero => rfl
  | succ n ih =>
    simp only [kernel, List.range'_succ, List.foldl_cons]
    rw [if_pos (by omega), ih _ (by omega)]

theorem any_schedule (S : Sem E C R) (lat : List E) (untilTurn : Int)
    (num items : Nat) (hk : 0 < items) (m : Mem C R) (hsafe : Safe S lat num m) (sched : List Nat)
    (hs : ∀ w ∈ sched, w < items)
    (hdone : AllDone num items (runSchedule S lat untilTurn num items sched (startAll m))) :
    (runSchedule S lat untilTurn num items sched (startAll m)).mem =
      trackAll S lat untilTurn num m := by
  obtain ⟨t, ht, hm, hd⟩ := exists_complete S lat untilTurn num items hk m
  have hp : (sched ++ t).Perm (t ++ sched) := List.perm_append_comm
  have h := run_perm S lat untilTurn num items hp (fun w hw => by
    rcases List.mem_append.1 hw with h | h
    · exact hs w h
    · exact ht w h) (inv_start S lat num items hsafe)
  rw [run_append, run_append, run_done S lat untilTurn num items t ht hdone,
    run_done S lat untilTurn num items sched hs hd] at h
  rw [h, hm]

theorem fair_finish (S : Sem E C R) (lat : List E) (untilTurn : Int)
    (num items : Nat) (hk : 0 < items) (m : Mem C R) (hsafe : Safe S lat num m) :
    ∃ N : Nat, ∀ sched : List Nat, (∀ w ∈ sched, w < items) → (∀ w < items, N ≤ sched.count w) →
      AllDone num items (runSchedule S lat untilTurn num items sched (startAll m)) := by
  obtain ⟨t, ht, hm, hd⟩ := exists_complete S lat untilTurn num items hk m
  refine ⟨t.length, ?_⟩
  intro sched hs hN
  have hsub : t.Subperm sched := by
    rw [List.subperm_ext_iff]
    intro x hx
    exact Nat.le_trans (List.count_le_length) (hN x (ht x hx))
  obtain ⟨l, hl, hsl⟩ := hsub
  obtain ⟨r, hr0⟩ := hsl.exists_perm_append
  have hr : sched.Perm (t ++ r) := hr0.trans (hl.append_right r)
  rw [run_perm S lat untilTurn num items hr hs (inv_start S lat num items hsafe), run_append,
    run_done S lat untilTurn num items r _ hd]
  · exact hd
  · intro w hw
    exact hs w (hr.mem_iff.2 (List.mem_append_right _ hw))

/-- The same elements without output. -/
def mute (S : Sem E C R) : Sem E C R := ⟨fun e p => { S.dispatch e p with write := none }, S.zeroS⟩

theorem mute_local (S : Sem E C R) (lat : List E) (untilTurn : Int) (stride : Nat) (c : Ctrl E)
    (p : Part C) :
    (localStep (mute S) lat untilTurn stride c p).1 = (localStep S lat untilTurn stride c p).1 ∧
    (localStep (mute S) lat untilTurn stride c p).2.1 = (localStep S lat untilTurn stride c p).2.1 := by
  obtain ⟨i, pos⟩ := c
  unfold localStep
  match pos with
  | none => dsimp only; split <;> exact ⟨rfl, rfl⟩
  | some ([], start) =>
    dsimp only
    have e : (mute S).endTurn start p = S.endTurn start p := rfl
    rw [e]
    split <;> exact ⟨rfl, rfl⟩
  | some (e :: es, start) =>
    dsimp only
    have e1 : ((mute S).dispatch e p).status = (S.dispatch e p).status := rfl
    have e2 : applyPart p ((mute S).dispatch e p) = applyPart p (S.dispatch e p) := rfl
    rw [e1, e2]
    split <;> exact ⟨rfl, rfl⟩

theorem mute_run (S : Sem E C R) (lat : List E) (untilTurn : Int) (num items : Nat) (sched : List Nat)
    (g g' : Global E C R) (h1 : g.mem.parts = g'.mem.parts) (h2 : g.ctrl = g'.ctrl) :
    (runSchedule (mute S) lat untilTurn num items sched g).mem.parts =
      (runSchedule S lat untilTurn num items sched g').mem.parts ∧
    (runSchedule (mute S) lat untilTurn num items sched g).ctrl =
      (runSchedule S lat untilTurn num items sched g').ctrl := by
  induction sched generalizing g g' with
  | nil => exact ⟨h1, h2⟩
  | cons w s ih =>
    unfold runSchedule at ih ⊢
    simp only [List.foldl_cons]
    apply ih
    · by_cases hr : (g.ctrl w).pidx < num
      · rw [itemStep_run _ _ _ _ _ _ g hr, itemStep_run _ _ _ _ _ _ g' (by rw [← h2]; exact hr)]
        dsimp only
        rw [(mute_local S _ _ _ _ _).2, h1, h2]
      · rw [itemStep_halt _ _ _ _ _ _ g hr, itemStep_halt _ _ _ _ _ _ g' (by rw [← h2]; exact hr), h1]
    · by_cases hr : (g.ctrl w).pidx < num
      · rw [itemStep_run _ _ _ _ _ _ g hr, itemStep_run _ _ _ _ _ _ g' (by rw [← h2]; exact hr)]
        dsimp only
        rw [(mute_local S _ _ _ _ _).1, h1, h2]
      · rw [itemStep_halt _ _ _ _ _ _ g hr, itemStep_halt _ _ _ _ _ _ g' (by rw [← h2]; exact hr), h2]

end Track

/-- The kernel run by a single work-item tracks all particles one after the other. -/
theorem C34_one_item (S : Sem E C R) (lat : List E) (untilTurn : Int) (num : Nat) (m : Mem C R) :
    kernel S lat untilTurn num 1 num 0 m = trackAll S lat untilTurn num m := by
  rw [kernel_eq_foldl S lat untilTurn num num 0 (by omega), trackAll, List.range_eq_range']

/-- Whatever the number of work-items and however their steps are interleaved: when all of them are done,
the particles are those of sequential tracking.  No assumption on elements, ids or monitors. -/
theorem C34_any_schedule (S : Sem E C R) (lat : List E) (untilTurn : Int) (num items : Nat)
    (hk : 0 < items) (m : Mem C R) (sched : List Nat) (hs : ∀ w ∈ sched, w < items)
    (hdone : AllDone num items (runSchedule S lat untilTurn num items sched (startAll m))) :
    (runSchedule S lat untilTurn num items sched (startAll m)).mem.parts =
      (trackAll S lat untilTurn num m).parts := by
  obtain ⟨t, ht, hm, hd⟩ := exists_complete S lat untilTurn num items hk m
  have q1 := mute_run S lat untilTurn num items sched (startAll m) (startAll m) rfl rfl
  have q2 := mute_run S lat untilTurn num items t (startAll m) (startAll m) rfl rfl
  have hsafe : Safe (mute S) lat num m := Or.inl (fun _ _ => rfl)
  have r1 := any_schedule (mute S) lat untilTurn num items hk m hsafe sched hs (by
    intro w hw; rw [q1.2]; exact hdone w hw)
  have r2 := any_schedule (mute S) lat untilTurn num items hk m hsafe t ht (by
    intro w hw; rw [q2.2]; exact hd w hw)
  rw [← q1.1, r1, ← r2, q2.1, hm]

/-- The output records of the beam monitors are those of sequential tracking as well, if the particles
have different ids and the monitors write records of different ids to different places (C22, C24). -/
theorem C34_any_schedule_output (S : Sem E C R) (lat : List E) {I : Int → Prop} (hS : OwnRecords S lat I)
    (untilTurn : Int) (num items : Nat) (hk : 0 < items) (m : Mem C R) (hid : DistinctIds num m)
    (hI : ∀ i < num, I (m.parts i).id) (sched : List Nat)
    (hs : ∀ w ∈ sched, w < items)
    (hdone : AllDone num items (runSchedule S lat untilTurn num items sched (startAll m))) :
    (runSchedule S lat untilTurn num items sched (startAll m)).mem.out =
      (trackAll S lat untilTurn num m).out := by
  rw [any_schedule S lat untilTurn num items hk m (Or.inr ⟨hid, I, hS, hI⟩) sched hs hdone]

/-- Every schedule in which each work-item runs often enough comes to an end. -/
theorem C34_fair_schedules_finish (S : Sem E C R) (lat : List E) (untilTurn : Int)
    (num items : Nat) (hk : 0 < items) (m : Mem C R) :
    ∃ N : Nat, ∀ sched : List Nat, (∀ w ∈ sched, w < items) → (∀ w < items, N ≤ sched.count w) →
      AllDone num items (runSchedule S lat untilTurn num items sched (startAll m)) := by
  obtain ⟨N, h⟩ := fair_finish (mute S) lat untilTurn num items hk m (Or.inl (fun _ _ => rfl))
  refine ⟨N, fun sched hs hN w hw => ?_⟩
  rw [← (mute_run S lat untilTurn num items sched (startAll m) (startAll m) rfl rfl).2]
  exact h sched hs hN w hw

/-- Elements that add a number to the coordinate and record it under the id of the particle. -/
def toy3 : Sem Int Int Int where
  dispatch e p := ⟨0, p.coord + e, p.state, if 0 ≤ p.id then some (p.id.toNat, p.coord) else none⟩
  zeroS c := c

theorem toy3_ownRecords (lat : List Int) : OwnRecords toy3 lat (fun _ => True) := by
  refine ⟨fun i => i, ?_⟩
  intro e _ p _ i r h
  simp only [toy3] at h
  split at h
  · simp only [Option.some.injEq, Prod.mk.injEq] at h
    dsimp only
    omega
  · cases h

/-- Three particles, two work-items, records by particle id. -/
example : OwnRecords toy3 [2] (fun _ => True) ∧ DistinctIds 3 (⟨fun i => ⟨i, i, 0, 0, 1⟩, fun _ => 0⟩ : Mem Int Int) ∧
    AllDone 3 2 (runSchedule toy3 [2] 1 3 2 [0, 1, 1, 0, 0, 0, 1, 0, 0]
      (startAll ⟨fun i => ⟨i, i, 0, 0, 1⟩, fun _ => 0⟩)) ∧
    (trackAll toy3 [2] 1 3 ⟨fun i => ⟨i, i, 0, 0, 1⟩, fun _ => 0⟩).parts 1 = ⟨3, 1, 0, 1, 1⟩ := by
  refine ⟨toy3_ownRecords _, ?_, ?_, ?_⟩
  · intro i _ j _ h
    simpa using h
  · intro w hw
    match w, hw with
    | 0, _ => decide
    | 1, _ => decide
  · rw [← C34_any_schedule toy3 [2] 1 3 2 (by decide) _ [0, 1, 1, 0, 0, 0, 1, 0, 0] (by decide)]
    · decide
    · intro w hw
      match w, hw with
      | 0, _ => decide
      | 1, _ => decide

/-- With two particles of the same id the monitor output depends on the schedule. -/
theorem C34_same_id_output_violated :
    ∃ (m : Mem Int Int) (s t : List Nat), OwnRecords toy3 [2] (fun _ => True) ∧
      AllDone 2 2 (runSchedule toy3 [2] 1 2 2 s (startAll m)) ∧
      AllDone 2 2 (runSchedule toy3 [2] 1 2 2 t (startAll m)) ∧
      (runSchedule toy3 [2] 1 2 2 s (startAll m)).mem.out 0 ≠
        (runSchedule toy3 [2] 1 2 2 t (startAll m)).mem.out 0 := by
  refine ⟨⟨fun i => ⟨i, 0, 0, 0, 1⟩, fun _ => 0⟩, [0, 0, 0, 1, 1, 1], [1, 1, 1, 0, 0, 0], ?_, ?_, ?_, ?_⟩
  · exact toy3_ownRecords _
  · intro w hw
    match w, hw with
    | 0, _ => decide
    | 1, _ => decide
  · intro w hw
    match w, hw with
    | 0, _ => decide
    | 1, _ => decide
  · decide

end SixTrack
